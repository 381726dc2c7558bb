import Verif.Spec.Laminate

/-! What it means to turn, mirror, move, enlarge and renumber an elastic sample. -/

namespace Verif.ElasticUp

open Verif.Elastic Verif.Asm

variable {K : Type} [Field K]

/-- The matrix of a strain (order xx, yy, zz, xy, xz, yz; the shear strains are twice the entries of the matrix). -/
def sym3 (x : Fin 6 → K) : Fin 3 → Fin 3 → K :=
  ![![x 0, x 3 / 2, x 4 / 2], ![x 3 / 2, x 1, x 5 / 2], ![x 4 / 2, x 5 / 2, x 2]]

/-- The matrix `H` in turned axes. -/
def turn (Q H : Fin 3 → Fin 3 → K) (d e : Fin 3) : K := ∑ f, ∑ g, Q d f * H f g * Q e g

/-- A strain in turned axes. -/
def turnStrain (Q : Fin 3 → Fin 3 → K) (x : Fin 6 → K) : Fin 6 → K := Spec.strain3 (turn Q (sym3 x))

/-- The stress that belongs to the strain `x`, as a matrix. -/
def stressOf (D : Fin 6 → Fin 6 → K) (x : Fin 6 → K) : Fin 3 → Fin 3 → K := stress3 fun i => ∑ j, D i j * x j

/-- `D'` is the elasticity matrix `D` in turned axes: the stress of a turned strain is the turned stress. -/
def TurnedMatrix (Q : Fin 3 → Fin 3 → K) (D D' : Fin 6 → Fin 6 → K) : Prop :=
  ∀ x, stressOf D' (turnStrain Q x) = turn Q (stressOf D x)

/-- Displacements (node, direction) in turned axes, when node `m` becomes node `node m`. -/
def turnDisplacement (Q : Fin 3 → Fin 3 → K) (node : Equiv.Perm Nat) (v : Nat → Nat → K) (m d : Nat) : K :=
  if h : d < 3 then ∑ e : Fin 3, Q ⟨d, h⟩ e * v (node.symm m) e else 0

/-- A rotation, or one combined with a reflection. -/
structure Rotation (Q : Fin 3 → Fin 3 → K) : Prop where
  orth : ∀ d e, ∑ f, Q f d * Q f e = if d = e then 1 else 0
  orth' : ∀ d e, ∑ f, Q d f * Q e f = if d = e then 1 else 0

/-- Another way to number the vertices of a hexahedron: direction `k` of the new numbering is direction `axis k` of the old one, in the
opposite sense if `down k`. -/
structure Local where
  axis : Equiv.Perm (Fin 3)
  down : Fin 3 → Bool

/-- New coordinates of a point of the unit cube. -/
def Local.point (φ : Local) (x : Fin 3 → K) (k : Fin 3) : K := if φ.down k then 1 - x (φ.axis k) else x (φ.axis k)

variable [LinearOrder K]

/-- The sample `S'` is the sample `S` with other numbers of nodes and cells, and of the vertices in each cell, turned by `Q`, enlarged `l`
times and moved by `o`: nodes, materials and constraints. The quadrature rule does not depend on the numbering of vertices. -/
structure Turned (S S' : Sample K) (D D' : Cell K → Fin 6 → Fin 6 → K) (F : List (Shape.Linear K 3)) (rule : List (K × (Fin 3 → K)))
    (X X' : Nat → Fin 3 → K) (Q : Fin 3 → Fin 3 → K) (l : K) (o : Fin 3 → K) (node : Equiv.Perm Nat)
    (cell : Fin S.cells.length ≃ Fin S'.cells.length) (vertex : Fin S.cells.length → Local) : Prop where
  shapes : Shape.p1Set 3 = some F
  rotation : Rotation Q
  larger : 0 < l
  hexahedra : ∀ c ∈ S.cells, Hexahedron F X rule c
  hexahedra' : ∀ c ∈ S'.cells, Hexahedron F X' rule c
  symmetric : ∀ c, (rule.map fun p => (p.1, (vertex c).point p.2)).Perm rule
  vertices : ∀ c : Fin S.cells.length, ∀ f < 8, ∀ f' < 8,
    (∀ k : Fin 3, f'.testBit k = (f.testBit ((vertex c).axis k) != (vertex c).down k)) →
      (S'.cells[cell c]).vertex.getD f' 0 = node ((S.cells[c]).vertex.getD f 0)
  places : ∀ m d, X' (node m) d = l * ∑ e, Q d e * X m e + o d
  material : ∀ c : Fin S.cells.length, TurnedMatrix Q (D S.cells[c]) (D' S'.cells[cell c])
  constraints : ∀ v, Admissible S.handler v → Admissible S'.handler (turnDisplacement Q node v)
  constraints' : ∀ v, Admissible S'.handler v → Admissible S.handler (turnDisplacement (fun d e => Q e d) node.symm v)

end Verif.ElasticUp
