import Verif.Model.Resistivity
import Verif.Model.RelPermChain

/-!
Model of the chain from cell data to upscaled resistivity (`examples/upscale_cond.cpp` 808-893), with the flow problem of `SinglePhaseUpscaler`
(`Model/SinglePhase.lean`) in the place of the solver.

Simplifications: one process; `invert` (LAPACK) is a parameter; the conditions held by the upscaler before the call are a parameter; terminal output is
left out. The cells are in the order of the grid.
-/

namespace Verif.ResistChain

open Verif.Dense Verif.Control Verif.SinglePhase Verif.Resist Verif.Upscale

variable {K : Type} [Field K] [LinearOrder K]

/-- What the program holds when resistivity is upscaled: options, curves of the rock types, the checked cells, the upscaler with its grid, `invert`. -/
structure Job (K : Type) where
  O : Opts K
  curves : Nat → JCurve K
  cells : List (Cell K)
  I : Input K
  invert : FullMatrix K → FullMatrix K

/-- `tensorElementCount` (upscale_cond.cpp:341-362). -/
def elements : BCType → Nat
  | .fixed => 3
  | .linear => 9
  | .periodic => 9

/-- `condTensor` (upscale_cond.cpp:852-876): conductivities on the diagonal of the cells' matrices, then the flow problems. -/
def conductivity (J : Job K) (conds : List K) (b : Boundary.BCs K) : Option (Fin 3 → Fin 3 → K) :=
  upscaleSinglePhase (RelPermChain.setPerms J.I (conds.map fun k _ => k)) b

/-- One point (upscale_cond.cpp:816-896): saturation and the entries of the inverse of the upscaled conductivity. -/
def point (J : Job K) (p : K) (b : Boundary.BCs K) : Option (K × List K) :=
  (compute J.O J.curves J.cells p).bind fun w =>
    (conductivity J w.1 b).bind fun T =>
      (quot w.2 (totalPorev J.cells)).bind fun sw =>
        ((List.range (elements J.I.bct)).mapM fun (v : Nat) => getVoigtValue (J.invert (RelPermChain.tensor T)) (v : Int)).map fun r => (sw, r)

end Verif.ResistChain
