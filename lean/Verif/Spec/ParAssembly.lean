import Verif.Model.ParAssembly

/-! What C98 says about grids, constraints and threads. -/

namespace Verif.Asm

variable {K : Type}

/-- Position of cell `g` of an `n1` times `n2` times `n3` grid in direction `d`. -/
def cellIndex (n1 n2 : Nat) (g d : Nat) : Nat := if d = 0 then g % n1 else if d = 1 then g / n1 % n2 else g / n1 / n2

/-- Number of cells in direction `d`. -/
def extent (n1 n2 n3 d : Nat) : Nat := if d = 0 then n1 else if d = 1 then n2 else n3

/-- The nodes have places in a logically Cartesian grid: element number `k`, which is cell `cells[k]`, has its vertices at the
corners of the cell. -/
def AtCorners (n1 n2 : Nat) (cells : List Nat) (es : List (Element K)) (place : Nat → Nat → Nat) : Prop :=
  ∀ (k : Nat) (e : Element K) (g : Nat), es[k]? = some e → cells[k]? = some g → ∀ v ∈ e.vertex, ∀ d < 3,
    place v d = cellIndex n1 n2 g d ∨ place v d = cellIndex n1 n2 g d + 1

/-- Constraints join nodes at the same place, or carry a node on the last plane of the grid to the first one. -/
def Matching (n1 n2 n3 : Nat) (h : Handler K) (place : Nat → Nat → Nat) : Prop :=
  ∀ n i c, i < h.dim → h.mpcs (n * h.dim + i) = some c → ∀ a ∈ c.masters, ∀ d < 3,
    place a.node d = place n d ∨ (place n d = extent n1 n2 n3 d ∧ place a.node d = 0)

/-- The masters are unknowns of the grid. -/
def ProperMasters (h : Handler K) : Prop := ∀ s c, h.mpcs s = some c → ∀ a ∈ c.masters, a.node < h.nodes ∧ a.dof < h.dim

/-- The vertices are nodes of the grid. -/
def ProperVertices (h : Handler K) (es : List (Element K)) : Prop := ∀ e ∈ es, ∀ v ∈ e.vertex, v < h.nodes

/-- The locations two lists of additions write to. -/
def Apart (l l' : List (Loc × K)) : Prop := ∀ x ∈ l, ∀ y ∈ l', x.1 ≠ y.1

end Verif.Asm
