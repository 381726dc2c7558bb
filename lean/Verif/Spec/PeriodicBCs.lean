import Verif.Model.PeriodicBCs
import Verif.Spec.ElasticUpscale
import Verif.Spec.BoundaryFaces

/-!
Meshes of boxes whose opposite sides match, and what the periodic constraints on them are.
-/

namespace Verif.PBC

variable {K : Type} [Field K] [LinearOrder K]

/-- Node `n` belongs to the side of the cell that is lower in direction `d`: bit `d` of its vertex number is not set. -/
def LowerSide (d : Fin 3) (cell : List Nat) (n : Nat) : Prop := ∃ f < 8, f.testBit d = false ∧ cell[f]? = some n

/-- The sides of the mesh in the box from `mn` to `mx` match: `opp d n` is the node opposite to node `n` of the upper side in
direction `d`. -/
structure Matched (tol : K) (M : Mesh K) (mn mx : Fin 3 → K) (opp : Fin 3 → Nat → Nat) : Prop where
  pos : 0 < tol
  thick : ∀ d, mn d + tol ≤ mx d
  /-- Cells are hexahedra. -/
  hexahedra : ∀ c ∈ M.cells, c.length = 8 ∧ ∀ n ∈ c, n < M.nodes
  /-- A node lies on a side or farther from it than the tolerance. -/
  clear : ∀ n < M.nodes, ∀ d, M.X n d = mn d ∨ M.X n d = mx d ∨ (mn d + tol ≤ M.X n d ∧ M.X n d + tol ≤ mx d)
  /-- Opposite nodes. -/
  opposite : ∀ n < M.nodes, ∀ d, M.X n d = mx d →
    opp d n < M.nodes ∧ M.X (opp d n) d = mn d ∧ ∀ e ≠ d, M.X (opp d n) e = M.X n e
  /-- Different nodes of a lower side are not closer to each other than the tolerance of the search. -/
  apart : ∀ d, ∀ n < M.nodes, ∀ m < M.nodes, M.X n d = mn d → M.X m d = mn d → (∀ e ≠ d, |M.X n e - M.X m e| < 1 / 10 ^ 8) → n = m
  /-- Every node of a lower side belongs to a cell with a side there which is not too small. -/
  covered : ∀ d, ∀ n < M.nodes, M.X n d = mn d → ∃ c ∈ M.cells, LowerSide d c n ∧ (∀ m, LowerSide d c m → M.X m d = mn d) ∧
    ∀ e e' : Fin 3, d ≠ e → d ≠ e' → e ≠ e' → ∃ a b a' b', LowerSide d c a ∧ LowerSide d c b ∧ LowerSide d c a' ∧ LowerSide d c b' ∧
      M.X a e ≤ M.X b e ∧ M.X a' e' ≤ M.X b' e' ∧ 1 / 10 ^ 7 ≤ (M.X b e - M.X a e) * (M.X b' e' - M.X a' e')
  /-- The smallest rectangle around a cell side that lies on a lower side of the mesh contains no other nodes. -/
  boxed : ∀ d, ∀ c ∈ M.cells, (∀ m, LowerSide d c m → M.X m d = mn d) → ∀ n < M.nodes, M.X n d = mn d →
    (∀ e ≠ d, (∃ a, LowerSide d c a ∧ M.X a e ≤ M.X n e + 1 / 10 ^ 8) ∧ ∃ b, LowerSide d c b ∧ M.X n e ≤ M.X b e + 1 / 10 ^ 8) →
    LowerSide d c n

/-- The node is at a corner of the box. -/
def Corner (M : Mesh K) (mn mx : Fin 3 → K) (n : Nat) : Prop := ∀ d, M.X n d = mn d ∨ M.X n d = mx d

/-- The displacements are zero at the corners and equal at opposite nodes. -/
def PeriodicField (M : Mesh K) (mn mx : Fin 3 → K) (opp : Fin 3 → Nat → Nat) (v : Nat → Nat → K) : Prop :=
  (∀ n < M.nodes, Corner M mn mx n → ∀ i < 3, v n i = 0) ∧
  ∀ n < M.nodes, ∀ d, M.X n d = mx d → ∀ i < 3, v n i = v (opp d n) i

open Verif.ElasticUp in
/-- A sample that can be upscaled, apart from its constraints: see `Verif.ElasticUp.Sound`. -/
structure Measured (S : Sample K) (D : Cell K → Fin 6 → Fin 6 → K) : Prop where
  order : S.color.flatten.flatten.Perm (List.range S.cells.length)
  material : ∀ c ∈ S.cells, ∀ C, ∃ b, c.mat.constitutive false C = some (b, fun i k => D c i k * scale S)
  symm : ∀ c ∈ S.cells, ∀ i k, D c i k = D c k i
  psd : ∀ c ∈ S.cells, ∀ e : Fin 6 → K, 0 ≤ ∑ i, e i * ∑ k, D c i k * e k
  weight : ∀ c ∈ S.cells, ∀ q ∈ c.pts, 0 ≤ q.w
  volume : 0 < volume S.cells
  emin : 0 < S.Escale → 0 < S.Emin

/-- Every cell has a neighbour in every direction: they share a side, or they lie at opposite sides of the box. -/
def Neighbours (M : Mesh K) (mx : Fin 3 → K) (opp : Fin 3 → Nat → Nat) (next : Fin 3 → Equiv.Perm (Fin M.cells.length)) : Prop :=
  ∀ (a : Fin 3) (c : Fin M.cells.length),
    (∀ f < 8, f.testBit a → (M.cells[c]).getD f 0 = (M.cells[next a c]).getD (f - 2 ^ a.val) 0) ∨
    (∀ f < 8, f.testBit a → M.X ((M.cells[c]).getD f 0) a = mx a ∧
      (M.cells[next a c]).getD (f - 2 ^ a.val) 0 = opp a ((M.cells[c]).getD f 0))

/-! ### Box grids -/

/-- The digits of `k` to the radices `R 0`, `R 1`; the last one is not bounded. -/
def digits (R : Fin 3 → Nat) (k : Nat) : Fin 3 → Nat := ![k % R 0, k / R 0 % R 1, k / R 0 / R 1]

/-- The number with these digits. -/
def number (R c : Fin 3 → Nat) : Nat := c 0 + R 0 * (c 1 + R 1 * c 2)

/-- The nodes of the cell whose lower corner has the indices `c`: vertex `f` is shifted in direction `d` if bit `d` of `f` is set. -/
def boxCell (N c : Fin 3 → Nat) : List Nat :=
  (List.range 8).map fun f => number (fun d => N d + 1) fun d => c d + (f.testBit d).toNat

/-- Grid of boxes with `N d` cells in direction `d` and planes at `pts d i`. -/
def boxMesh (N : Fin 3 → Nat) (pts : Fin 3 → Nat → K) : Mesh K where
  nodes := (N 0 + 1) * (N 1 + 1) * (N 2 + 1)
  X n d := pts d (digits (fun d => N d + 1) n d)
  cells := (List.range (N 0 * N 1 * N 2)).map fun k => boxCell N (digits N k)

/-- The node opposite to `n` in direction `d`. -/
def boxOpp (N : Fin 3 → Nat) (d : Fin 3) (n : Nat) : Nat :=
  number (fun d => N d + 1) (Function.update (digits (fun d => N d + 1) n) d 0)

/-- Cells exist, and planes are at a distance of at least `g`, which exceeds the tolerance for planes; sides of cells are larger than
the smallest quads that are kept. -/
structure Spaced (tol g : K) (N : Fin 3 → Nat) (pts : Fin 3 → Nat → K) : Prop where
  cells : ∀ d, 0 < N d
  pos : 0 < tol
  tol : tol ≤ g
  area : 1 / 10 ^ 7 ≤ g * g
  gap : ∀ d, ∀ i < N d, pts d i + g ≤ pts d (i + 1)

/-- Quadrature points of a box with edges `h`. -/
def boxPts (F : List (Shape.Linear K 3)) (rule : List (K × (Fin 3 → K))) (h : Fin 3 → K) : List (Elastic.QP K 6) :=
  rule.map fun p => ⟨p.1 * (h 0 * h 1 * h 2), Elastic.B3 (Elastic.physGrad F (fun e k => if e = k then 1 / h e else 0) p.2)⟩

/-- Edges of a cell. -/
def edges (pts : Fin 3 → Nat → K) (l : Fin 3 → Nat) (d : Fin 3) : K := pts d (l d + 1) - pts d (l d)

end Verif.PBC
