import Verif.Model.Numbering

/-! What C39 asks of a grid and of a numbering of its faces. -/

namespace Verif.Numbering

/-- Iteration visits every cell index exactly once; neighbours are other cells and see the cell back; no two faces between the
same two cells. -/
structure Sane (g : Grid) : Prop where
  nodup : g.order.Nodup
  lt : ∀ c ∈ g.order, c < g.order.length
  nbr_mem : ∀ c ∈ g.order, ∀ d, some d ∈ g.nbrs c → d ∈ g.order
  nbr_ne : ∀ c ∈ g.order, some c ∉ g.nbrs c
  nbr_symm : ∀ c ∈ g.order, ∀ d, some d ∈ g.nbrs c → some c ∈ g.nbrs d
  nbr_once : ∀ c ∈ g.order, ∀ (i j : Nat) (d : Nat), (g.nbrs c)[i]? = some (some d) → (g.nbrs c)[j]? = some (some d) → i = j

/-- A face of a cell: cell index and local index, with its neighbour. -/
def IsFace (g : Grid) (c i : Nat) (nb : Option Nat) : Prop := c ∈ g.order ∧ (g.nbrs c)[i]? = some nb

/-- Two faces of cells are the same face of the grid: equal, or the two sides of an interior face. -/
def SameFace (c i : Nat) (nb : Option Nat) (c' i' : Nat) (nb' : Option Nat) : Prop :=
  (c = c' ∧ i = i') ∨ (nb = some c' ∧ nb' = some c)

/-- The number that the tables give to a face of a cell. -/
def Numbers.at? (n : Numbers) (c i : Nat) : Option Nat := do
  let k ← n.cell c
  let r ← n.rows[k]?
  r[i]?

end Verif.Numbering
