import Verif.Model.SteadyManager
import Verif.Spec.Control

/-!
Specification for the files of the steady state upscaling: the computations of a run, and their lines.
-/

namespace Verif.SteadyManager.Spec

open Verif.Dense Verif.Control Verif.Spec

variable {K : Type} [Field K]

/-- One computation: pressure drop and result. -/
abbrev Comp (K : Type) := Outcome (K := K) (List K) (FullMatrix K)

/-- The state in which the work for the saturation `s` starts: the capillary limit, if asked for and found, otherwise `s` in every cell. -/
def First (P : Params K) (U : Upscaler K) (s : K) (l : List K) : Prop :=
  (P.startFromCl ≠ some false ∧ U.capLimit s = some l) ∨
  ((P.startFromCl = some false ∨ U.capLimit s = none) ∧ l.length = U.cells ∧ ∀ x ∈ l, x = s)

/-- The computations `os` for one saturation and its pressure drops `ps`: in order, each from the limited state of the last successful one before it. -/
def Computed (U : Upscaler K) (dir : Int) (s : K) (ps : List K) (first : List K) (os : List (Comp K)) : Prop :=
  os.length ≤ ps.length ∧
  ∀ (k : Nat) (o : Comp K), os[k]? = some o → ∃ p, ps[k]? = some p ∧ U.steady dir s p (U.limit (lastGood first (os.take k))) = some o

/-- The lines for computations: pressure drop, saturation reached, the entries xx, yy, zz, yz, xz, xy, zy, zx of the tensor of the phase, the last number `z`,
and the success flag. -/
def Line (phase : FullMatrix K × FullMatrix K → FullMatrix K) (p : K) (o : Comp K) (l : List K × Bool) : Prop :=
  l.2 = o.success ∧ l.1.length = 11 ∧ l.1[0]? = some p ∧ l.1[1]? = some o.usat ∧
  ∀ v : Nat, v < 8 → ∀ rc, voigtComponents[v]? = some rc → l.1[v + 2]? = (phase o.lambda).get rc.1 rc.2

end Verif.SteadyManager.Spec
