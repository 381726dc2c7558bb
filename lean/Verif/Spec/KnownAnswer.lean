import Verif.Model.KnownAnswer
import Mathlib.Algebra.BigOperators.Fin

/-!
Specification of the pressure equation and of error norms.
-/

namespace Verif.KnownAnswer.Spec

/-- The sum of the three second partial derivatives. -/
noncomputable def laplace (f : (Fin 3 → ℝ) → ℝ) (x : Fin 3 → ℝ) : ℝ :=
  ∑ i, deriv (fun t => deriv (fun s => f (Function.update x i s)) t) (x i)

/-- The pressure `f` satisfies the pressure equation `-div(k λ grad f) = q` with constant coefficient. -/
def Satisfies (k lam : ℝ) (q f : (Fin 3 → ℝ) → ℝ) : Prop := ∀ x, -(k * lam * laplace f x) = q x

/-- The total volume. -/
def volume (cells : List Cell) : ℝ := (cells.map Cell.volume).sum

/-- The mean of the absolute errors, weighted by volume. -/
noncomputable def mean1 (cells : List Cell) (err : Nat → ℝ) : ℝ := (cells.zipIdx.map fun c => |err c.2| * c.1.volume).sum / volume cells

/-- The root mean square of the errors, weighted by volume. -/
noncomputable def mean2 (cells : List Cell) (err : Nat → ℝ) : ℝ := Real.sqrt ((cells.zipIdx.map fun c => err c.2 ^ 2 * c.1.volume).sum / volume cells)

end Verif.KnownAnswer.Spec
