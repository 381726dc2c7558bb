import Verif.Model.SolverControl
import Verif.Spec.Hybrid

/-! What C108 talks about. -/

namespace Verif.SolverControl.Spec

open Verif.Hybrid

variable {K : Type} [Field K]

/-- No pressure is prescribed anywhere. -/
def PureNeumann (c : Call K) : Prop := ∀ p v, kind c.cells p ≠ .dirichlet v

/-- The call builds an operator and a preconditioner that are kept. -/
def Keeps (c : Call K) : Prop := (c.type = 1 ∨ c.type = 2 ∨ c.type = 3) ∧ c.same = false

instance (c : Call K) : Decidable (Keeps c) := by unfold Keeps; infer_instance

/-- The last call of the series that built a preconditioner. -/
def lastKept (h : List (Call K)) : Option (Call K) := h.reverse.find? fun c => decide (Keeps c)

open Classical in
/-- The matrix of a call, with its first entry doubled if `dbl`. -/
noncomputable def matrixOf (c : Call K) (dbl : Prop) (i j : Nat) : K :=
  if i = 0 ∧ j = 0 ∧ dbl then 2 * (assemble c.cells).S i j else (assemble c.cells).S i j

/-- The equations of the call are well posed up to a constant. -/
structure WellPosed [LinearOrder K] (c : Call K) : Prop where
  consistent : Consistent c.cells c.n
  elliptic : Elliptic c.cells
  anchored : Anchored c.cells c.n
  two : 2 ≤ c.n

end Verif.SolverControl.Spec
