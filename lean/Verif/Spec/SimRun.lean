import Verif.Model.SimRun

/-!
Specification for C140: what a block of sources means, and what a run shows.
-/

namespace Verif.SimRun

variable {K : Type} [Field K] [LinearOrder K]

/-- The point is strictly inside the box of the block; bounds that are not given are 0 and 1. -/
def InBox (b : Block K) (pt : Fin 3 → K) : Prop :=
  (b.lowX.getD 0 < pt 0 ∧ pt 0 < b.highX.getD 1) ∧ (b.lowY.getD 0 < pt 1 ∧ pt 1 < b.highY.getD 1) ∧ (b.lowZ.getD 0 < pt 2 ∧ pt 2 < b.highZ.getD 1)

/-- Cell `i` belongs to the block: the block is switched on and the centre of the cell is in its box. -/
def Covers (b : Block K) (cells : List (Cell K)) (i : Nat) : Prop := b.present = some true ∧ ∃ c, cells[i]? = some c ∧ InBox b c.centroid

open Classical in
/-- The rate that the block asks for in cell `i`: density times volume. -/
noncomputable def blockRate (b : Block K) (cells : List (Cell K)) (i : Nat) : K :=
  if Covers b cells i then b.density.getD 0 * ((cells[i]?).map (·.volume)).getD 0 else 0

/-- `m` is the largest difference of two saturations in the cells `0, …, n-1` (0 if there are none). -/
def LargestChange (n : Nat) (s old : Nat → K) (m : K) : Prop :=
  (∀ c < n, |s c - old c| ≤ m) ∧ (n = 0 ∧ m = 0 ∨ ∃ c < n, m = |s c - old c|)

end Verif.SimRun
