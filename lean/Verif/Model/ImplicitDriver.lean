import Mathlib.Algebra.Order.Field.Basic

/-!
Model of `EulerUpstreamImplicit::transportSolve` (opm/porsol/euler/EulerUpstreamImplicit_impl.hpp:225-340): repeated attempts with more and shorter steps.
The implicit solve of one step is a parameter: from step length and state to the new state and whether it converged (`flag >= 0`). States are the water saturations;
the second saturation of each cell is one minus the first throughout (236-240, 310-314, and `finishStep`).
-/

namespace Verif.ImplicitDriver

variable {K X : Type} [Field K]

/-- The loop over the substeps of one attempt (284-289): stops at the first substep that does not converge. The flag is that of the last substep made. -/
def attempt (solve : K → X → X × Bool) (dt : K) : Nat → X → X × Bool
  | 0, s => (s, true)
  | n + 1, s =>
    match solve dt s with
    | (s', true) => attempt solve dt n s'
    | (s', false) => (s', false)

/-- Outcome: saturation written back, return value, number of attempts, number of substeps of the last one. -/
structure Out (X : Type) where
  sat : X
  ok : Bool
  attempts : Nat
  steps : Nat

/-- The `while (!finished)` loop (283-316); `repeats` counts attempts already made, `fuel` is `max_repeats + 1 - repeats`. -/
def drive (solve : K → X → X × Bool) (time : K) (s0 : X) : Nat → Nat → Nat → K → Out X
  | fuel, repeats, steps, dt =>
    match attempt solve dt steps s0 with
    | (s, true) => ⟨s, true, repeats + 1, steps⟩
    | (s, false) =>
      -- `repeats > max_repeats_` ends the loop
      match fuel with
      | 0 => ⟨s, false, repeats + 1, steps⟩
      | fuel + 1 => drive solve time s0 fuel (repeats + 1) (steps * 2) (time / (steps * 2 : Nat))

/-- `transportSolve` (225-340). -/
def transportSolve (solve : K → X → X × Bool) (maxRepeats : Nat) (time : K) (s0 : X) : Out X :=
  drive solve time s0 (maxRepeats + 1) 0 1 time

end Verif.ImplicitDriver
