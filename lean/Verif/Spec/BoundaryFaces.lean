import Verif.Model.BoundaryFaces
import Verif.Spec.BoundaryGrid

/-!
Specification for the extraction of faces, periodic couplings and the numbering of multipliers.
-/

namespace Verif.BGrid

variable {K : Type} [Field K] [LinearOrder K]

/-- What is used of `std::sort`: the result has the same elements and is sorted (how equal keys are arranged is open). -/
def IsSort (srt : (Vertex K → K) → List (Vertex K) → List (Vertex K)) : Prop :=
  ∀ key l, (srt key l).Perm l ∧ (srt key l).Pairwise fun v w => key v ≤ key w

/-- The corner `a` is lower left, `b` lower right, `c` upper right, `d` upper left. -/
def Arranged (a b c d : Vertex K) : Prop :=
  a.c.1 ≤ b.c.1 ∧ a.c.1 ≤ c.c.1 ∧ d.c.1 ≤ b.c.1 ∧ d.c.1 ≤ c.c.1 ∧ a.c.2 ≤ d.c.2 ∧ b.c.2 ≤ c.c.2

/-- The multiplier at column `k` of nodes, row `r`: `m` columns (the last element ends at the first column), `rows` different rows. -/
structure MultiplierNumbering (m rows total : Nat) (f : Nat → Nat → Int) : Prop where
  /-- One multiplier is fixed. -/
  fixed : f 0 0 = -1
  /-- All others have numbers in range. -/
  range : ∀ k < m, ∀ r < rows, (k, r) ≠ (0, 0) → 0 ≤ f k r ∧ f k r < total
  /-- Different multipliers have different numbers. -/
  inj : ∀ k < m, ∀ r < rows, ∀ k' < m, ∀ r' < rows, f k r = f k' r' → k = k' ∧ r = r'
  /-- Every number is used. -/
  surj : ∀ n : Nat, n < total → ∃ k < m, ∃ r < rows, f k r = n

end Verif.BGrid
