import Verif.Model.MatrixOps

/-!
What a sparse matrix means: the value of each entry, zero where nothing is stored.
-/

namespace Verif.MatrixOps

variable {K : Type}

/-- The stored entries lie inside of the matrix. -/
def Sparse.Inside (A : Sparse K) : Prop := ∀ i j v, A.entry i j = some v → i < A.n ∧ j < A.m

/-- The value of an entry. -/
def Sparse.val [Zero K] (A : Sparse K) (i j : Nat) : K := (A.entry i j).getD 0

end Verif.MatrixOps
