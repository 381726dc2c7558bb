import Verif.Model.DenseMatrix
import Mathlib.Data.Matrix.Mul

/-!
Specification vocabulary for dense matrices: a stored matrix represents a mathematical matrix when the
shapes agree, the storage has exactly the declared size and every element read through the API is the
mathematical entry.
-/

namespace Verif.Dense

variable {K : Type}

/-- `A` (as seen through its element access) is the mathematical `r × c` matrix `M`. -/
structure Represents (A : FullMatrix K) {r c : Nat} (M : Matrix (Fin r) (Fin c) K) : Prop where
  rows_eq : A.rows = r
  cols_eq : A.cols = c
  size_eq : A.data.length = r * c
  entry : ∀ (i : Fin r) (j : Fin c), A.get i j = some (M i j)

/-- A list is the mathematical vector `v`. -/
def IsVec (l : List K) {n : Nat} (v : Fin n → K) : Prop := l = List.ofFn v

/-- A matrix whose storage has the declared size (what every constructor establishes). -/
def WF (A : FullMatrix K) : Prop := A.data.length = A.rows * A.cols

end Verif.Dense
