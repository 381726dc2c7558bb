import Verif.Model.SimRun

/-!
Model of one call of the explicit transport solver with the choice of its first number of steps:
`/repo/opm/porsol/euler/EulerUpstream_impl.hpp` lines 142-217 (`transportSolve`) and 264-331 (`computeCflTime`), for viscous transport (gravity and capillary
terms disabled, as their limits then are).
-/

namespace Verif.SimRange

open Verif.Euler

variable {K : Type} [Field K] [LinearOrder K] [FloorRing K]

/-- The settings of the solver: `courant_number_`, `minimum_small_steps_`, `maximum_small_steps_`, the initial values `1e100` (CflCalculator.hpp:58) and `1e99`
(EulerUpstream_impl.hpp:274-276). -/
structure Settings (K : Type) where
  courant : K
  minSteps : Nat
  maxSteps : Nat
  big : K
  big' : K

/-- The number of small steps of the first attempt (EulerUpstream_impl.hpp:155-167 with 264-331). The limit throws when a cell with a flux has no pore volume. -/
def firstCount (P : Settings K) (factor : K) (poro : Nat → K) (time : K) (g : Grid K) : Option Nat :=
  match cflVelocity P.big factor poro g with
  | .error _ => none
  | .ok v => some (firstSteps P.minSteps P.maxSteps (cflTime P.big' P.courant (some v) none none) time)

/-- `transportSolve` (EulerUpstream_impl.hpp:142-217) with the fluxes of the solution `f`. -/
def viscousStep {F : Type} (P : Settings K) (factor : K) (poro : Nat → K) (solver : F → Solver K K) (time : K) (f : F) (s : Nat → K) : Option (Nat → K) :=
  match firstCount P factor poro time (solver f).setup.grid with
  | none => none
  | some n => SimRun.explicitStep solver (fun _ _ => n) time f s

end Verif.SimRange
