import Mathlib.Algebra.Order.Field.Basic
import Mathlib.Algebra.Order.Group.Abs
import Mathlib.Algebra.BigOperators.Group.List.Basic

/-!
What the steady state properties mean, independently of the model.
-/

namespace Verif.Steady.Spec

variable {K : Type} [Field K] [LinearOrder K]

/-- The saturations changed by less than `tol`: in every cell, or (second choice) in the root mean square weighted with
pore volume. Stated without square root. -/
def ChangeBelow (perCell : Bool) (pv : List K) (tol : K) (new old : List K) : Prop :=
  if perCell then ∀ (i : Nat) (x y : K), new[i]? = some x → old[i]? = some y → |x - y| < tol
  else (((new.zip old).zip pv).map fun p => (p.1.1 - p.1.2) ^ 2 * p.2).sum < tol ^ 2 * pv.sum

/-- A square root. -/
def IsSqrt (f : K → K) : Prop := ∀ x, 0 ≤ x → 0 ≤ f x ∧ f x * f x = x

/-- Sum over the elements of a list satisfying a condition. -/
def sumIf {α : Type} (l : List α) (p : α → Prop) [DecidablePred p] (w : α → K) : K :=
  ((l.filter fun a => decide (p a)).map w).sum

end Verif.Steady.Spec
