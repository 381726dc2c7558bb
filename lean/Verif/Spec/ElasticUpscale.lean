import Verif.Model.ElasticUpscale
import Verif.Spec.Asm
import Mathlib.LinearAlgebra.Matrix.Determinant.Basic

/-!
What the upscaled elasticity matrix is: the stiffness of the whole sample, i.e. the smallest energy that a prescribed mean strain
can have when the displacements satisfy the constraints.
-/

namespace Verif.ElasticUp

open Verif.Elastic Verif.Asm

variable {K : Type} [Field K]

/-- Strain of the displacements `v` (node, direction) at a quadrature point of a cell: entry `3 * f + d` of the unknowns of the
cell is direction `d` of its vertex `f`. -/
def strainAt (v : Nat → Nat → K) (c : Cell K) (q : QP K 6) (i : Fin 6) : K :=
  ∑ j ∈ Finset.range 24, q.B i j * v (c.vertex.getD (j / 3) 0) (j % 3)

/-- Twice the elastic energy of the mean strain `x` and the displacements `v` when cell `c` has the elasticity matrix `D c`. -/
def energy (D : Cell K → Fin 6 → Fin 6 → K) (cells : List (Cell K)) (x : Fin 6 → K) (v : Nat → Nat → K) : K :=
  (cells.map fun c => (c.pts.map fun q => q.w * ∑ i, (x i + strainAt v c q i) * ∑ k, D c i k * (x k + strainAt v c q k)).sum).sum

/-- Volume of the sample. -/
def volume (cells : List (Cell K)) : K := (cells.map fun c => (c.pts.map fun q => q.w).sum).sum

/-- Displacements that are zero where they are prescribed and satisfy all constraints. -/
def Admissible (h : Handler K) (v : Nat → Nat → K) : Prop :=
  (∀ n i, Prescribed h n i → v n i = 0) ∧
  ∀ n i m, n < h.nodes → i < h.dim → h.mpcs (n * h.dim + i) = some m →
    v n i = (m.masters.map fun a => a.coeff * v a.node a.dof).sum

variable [LinearOrder K]

/-- Factor by which the moduli were multiplied when they were read. -/
def scale (S : Sample K) : K := if 0 < S.Escale then S.Escale / S.Emin else 1

/-- A sample that can be upscaled. `D c` is the elasticity matrix of cell `c` before scaling. -/
structure Sound (S : Sample K) (D : Cell K → Fin 6 → Fin 6 → K) : Prop where
  dim : S.handler.dim = 3
  /-- Equations have not been numbered before. -/
  fresh : S.handler.maxeqn = 0
  /-- The colouring contains every cell once. -/
  order : S.color.flatten.flatten.Perm (List.range S.cells.length)
  /-- Cells are hexahedra between nodes of the grid. -/
  corners : ∀ c ∈ S.cells, c.vertex.length = 8
  inside : ∀ c ∈ S.cells, ∀ n ∈ c.vertex, n < S.handler.nodes
  /-- The materials supply the scaled matrices, whatever the matrix they are given contains. -/
  material : ∀ c ∈ S.cells, ∀ C, ∃ b, c.mat.constitutive false C = some (b, fun i k => D c i k * scale S)
  symm : ∀ c ∈ S.cells, ∀ i k, D c i k = D c k i
  psd : ∀ c ∈ S.cells, ∀ e : Fin 6 → K, 0 ≤ ∑ i, e i * ∑ k, D c i k * e k
  weight : ∀ c ∈ S.cells, ∀ q ∈ c.pts, 0 ≤ q.w
  volume : 0 < volume S.cells
  emin : 0 < S.Escale → 0 < S.Emin
  /-- Prescribed values are zero and belong to nodes of the grid. -/
  fixedIn : ∀ n f, S.handler.fixed n = some f → n < S.handler.nodes
  fixedZero : ∀ n f, S.handler.fixed n = some f → ∀ i, f.dir.testBit i = true → f.val i = 0
  /-- Prescribed unknowns are not constrained. -/
  apart : ∀ n i, Prescribed S.handler n i → ¬ Slave S.handler n i
  /-- The constraints have no cycles, and slaves and masters are unknowns of the grid. -/
  ranked : ∃ rank : Nat → Nat, Ranked S.handler.dim rank S.handler.mpcs ∧ ∀ s, rank s < S.fuel
  slaves : ∀ s c, S.handler.mpcs s = some c → s < S.handler.nodes * S.handler.dim
  masters : ∀ s c, S.handler.mpcs s = some c → ∀ a ∈ c.masters, a.node < S.handler.nodes ∧ a.dof < S.handler.dim

/-- A quadrature rule on the unit cube (weight, point) that is exact for products of quadratic functions of the coordinates, such as
the Gauss rule with two points in each direction that the program uses. -/
def ExactRule {K : Type} [Field K] (rule : List (K × (Fin 3 → K))) : Prop :=
  ∀ i j k : Nat, i ≤ 2 → j ≤ 2 → k ≤ 2 →
    (rule.map fun p => p.1 * p.2 0 ^ i * p.2 1 ^ j * p.2 2 ^ k).sum = 1 / ((i + 1) * (j + 1) * (k + 1))

/-- Derivative of coordinate `d` of the trilinear map of the unit cube to the cell `c`, whose nodes are at `X`, in direction `k`. -/
def jacobian {K : Type} [Field K] (F : List (Shape.Linear K 3)) (X : Nat → Fin 3 → K) (c : Cell K) (x : Fin 3 → K) (d k : Fin 3) : K :=
  ∑ f ∈ Finset.range 8, X (c.vertex.getD f 0) d * refGrad F x f k

/-- The quadrature points of the cell belong to the hexahedron with nodes at `X`: weights are multiplied by the determinant of the
derivative, and the gradients of the shape functions by the inverse transposed. -/
def Hexahedron {K : Type} [Field K] (F : List (Shape.Linear K 3)) (X : Nat → Fin 3 → K) (rule : List (K × (Fin 3 → K))) (c : Cell K) :
    Prop :=
  ∃ Jinv : (Fin 3 → K) → Fin 3 → Fin 3 → K,
    (∀ p ∈ rule, ∀ d e, ∑ k, jacobian F X c p.2 d k * Jinv p.2 e k = if d = e then 1 else 0) ∧
    c.pts = rule.map fun p => ⟨p.1 * (Matrix.of (jacobian F X c p.2)).det, B3 (physGrad F (Jinv p.2) p.2)⟩

/-- A periodic sample of conforming hexahedra with nodes at `X`. Behind cell `c` in direction `a` comes cell `next a c`; the first one
comes behind the last one. Where two cells meet, the nodes of their faces are at the same places up to a translation, and admissible
displacements are the same. Vertex `f` of a cell lies on the upper side in direction `a` if bit `a` of `f` is set. -/
structure Torus {K : Type} [Field K] [LinearOrder K] (S : Sample K) (F : List (Shape.Linear K 3)) (X : Nat → Fin 3 → K)
    (rule : List (K × (Fin 3 → K))) (next : Fin 3 → Equiv.Perm (Fin S.cells.length)) : Prop where
  shapes : Shape.p1Set 3 = some F
  exact : ExactRule rule
  hexahedra : ∀ c ∈ S.cells, Hexahedron F X rule c
  meet : ∀ (a : Fin 3) (c : Fin S.cells.length), ∃ L : Fin 3 → K, ∀ f < 8, f.testBit a →
    (∀ d, X ((S.cells[c]).vertex.getD f 0) d = X ((S.cells[next a c]).vertex.getD (f - 2 ^ a.val) 0) d + L d) ∧
    ∀ v, Admissible S.handler v → ∀ i < 3,
      v ((S.cells[c]).vertex.getD f 0) i = v ((S.cells[next a c]).vertex.getD (f - 2 ^ a.val) 0) i

/-- A linear solver that returns a solution whenever there is one. -/
def Exact (solver : Nat → (Nat → Nat → K) → (Nat → K) → Nat → K) : Prop :=
  ∀ N A b, (∃ x : Nat → K, ∀ r < N, ∑ c ∈ Finset.range N, A r c * x c = b r) →
    ∀ r < N, ∑ c ∈ Finset.range N, A r c * solver N A b c = b r

end Verif.ElasticUp
