import Verif.Model.NewtonVectors

/-! What the vector-level Newton driver is measured against. -/

namespace Verif.NewtonVec.Spec

variable {K : Type} [Field K] [LinearOrder K]

/-- Residual of cell `i` at `x`: the sum of its contributions. -/
def res (S : Setup K) (x : List K) (i : Nat) : K := (((S.ress x).filter fun q => q.1 = i).map fun q => q.2).sum

/-- Entry `(i, j)` of the matrix at `x`: the sum of its contributions. -/
def jac (S : Setup K) (x : List K) (i j : Nat) : K := (((S.mats x).filter fun q => q.1 = i ∧ q.2.1 = j).map fun q => q.2.2).sum

/-- The residual vector at `x`. -/
def resVec (S : Setup K) (x : List K) : List K := (List.range S.n).map (res S x)

/-- What the linear solver returns for the system at `x`, started from the zero vector. -/
def correction (S : Setup K) (x : List K) : List K := S.lin (jac S x) (resVec S x) (List.replicate S.n 0)

/-- The problem as the abstract driver of C18 sees it: norms of the residual and of the correction, and iterates `x - 2^(-j) d` with the correction `d` computed from the system at `y`. -/
def problem (S : Setup K) : Newton.Problem K (List K) where
  inRange := S.inRange
  resNorm x := S.norm (resVec S x)
  dxNorm y := S.norm ((correction S y).map fun a => -a)
  trial x y j := List.zipWith (fun a d => a - (1 / 2) ^ j * d) x (correction S y)

/-- Sizes fit: one unknown per cell, contributions go to cells, the solver returns a vector of the size of the guess. -/
structure Fits (S : Setup K) : Prop where
  init : S.init.length = S.n
  ress : ∀ x, ∀ q ∈ S.ress x, q.1 < S.n
  lin : ∀ A b g, (S.lin A b g).length = g.length

/-- `x` solves `A x = b`, for vectors of `n` numbers. -/
def Solves (n : Nat) (A : Nat → Nat → K) (x b : List K) : Prop := ∀ i, i < n → ((List.range n).map fun j => A i j * x.getD j 0).sum = b.getD i 0

end Verif.NewtonVec.Spec
