import Verif.Model.Uzawa
import Verif.Spec.MatrixOps
import Mathlib.Algebra.BigOperators.Group.Finset.Basic

/-!
The equations of the mortar system, in terms of the values of the matrices.
-/

namespace Verif.MatrixOps

variable {K : Type} [Field K]

/-- `(A x)ᵢ`. -/
def mulAt (A : Sparse K) (x : Nat → K) (i : Nat) : K := ∑ j ∈ Finset.range A.m, A.val i j * x j

/-- `(Aᵀ x)ⱼ`. -/
def tmulAt (A : Sparse K) (x : Nat → K) (j : Nat) : K := ∑ i ∈ Finset.range A.n, A.val i j * x i

/-- `s` solves with `A`: for every right-hand side the result has the length of the start vector and satisfies the equations. -/
def Solves (A : Sparse K) (s : Vec K → Vec K → Vec K) : Prop :=
  ∀ x0 b, x0.len = A.n → b.len = A.n → (s x0 b).len = A.n ∧ ∀ i < A.n, mulAt A (s x0 b).at_ i = b.at_ i

/-- `s` solves with the Schur complement `Bᵀ A⁻¹ B`: if `A w = B z` for the result `z` then `Bᵀ w` is the right-hand side. -/
def SolvesSchur (A B : Sparse K) (s : Vec K → Vec K → Vec K) : Prop :=
  ∀ x0 b, x0.len = B.m → b.len = B.m → (s x0 b).len = B.m ∧
    ∀ w : Nat → K, (∀ i < A.n, mulAt A w i = mulAt B (s x0 b).at_ i) → ∀ j < B.m, tmulAt B w j = b.at_ j

end Verif.MatrixOps
