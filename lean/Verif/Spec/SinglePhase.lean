import Verif.Model.SinglePhase
import Verif.Spec.Boundary
import Verif.Spec.Hybrid
import Mathlib.Logic.Relation

/-! What the properties of single-phase upscaling ask of grid, rock, fluid and linear solver, and the averages that bound the
result. -/

namespace Verif.SinglePhase

variable {K : Type} [Field K] [LinearOrder K]

/-- The cells are closed polyhedra (divergence theorem: `∑ area n = 0`, `∑ area n_d (x - x_c)_e = vol δ_de`) with positive
volume and face areas. The cell on the other side of an interior face is a different cell that has a face with the first cell
on its other side, of the same area and centroid and opposite normal; two cells share at most one face. Every cell can be
reached from every other one over interior faces. -/
structure Tiling (G : Grid K) : Prop where
  area : ∀ p, 0 < (G.face p).area
  volume : ∀ c, 0 < (G.cell c).volume
  surface : ∀ c d, ∑ i, ((G.cell c).face i).area * ((G.cell c).face i).normal d = 0
  closed : ∀ c d e, ∑ i, ((G.cell c).face i).area * ((G.cell c).face i).normal d *
      (((G.cell c).face i).centroid e - (G.cell c).centroid e) = if d = e then (G.cell c).volume else 0
  mate : ∀ p d, (G.face p).nbr = some d → ∃ q : Half G, q.1.val = d ∧ q.1 ≠ p.1 ∧ (G.face q).nbr = some p.1.val ∧
    (G.face q).area = (G.face p).area ∧ (G.face q).centroid = (G.face p).centroid ∧
    ∀ d, (G.face q).normal d = -(G.face p).normal d
  once : ∀ c i j d, ((G.cell c).face i).nbr = some d → ((G.cell c).face j).nbr = some d → i = j
  connected : ∀ a b, Relation.ReflTransGen (fun a b : Fin G.nc => ∃ i, ((G.cell a).face i).nbr = some b.val) a b

/-- The grid fills the box `[lo, hi]`: every boundary face is on the side `side` (`2 d` is the low, `2 d + 1` the high side of
direction `d`), with outward normal and centroid accordingly; no side is empty. Interior faces, and no others, have boundary
identifier zero. -/
structure FillsBox (G : Grid K) (lo hi : Fin 3 → K) (side : Boundary.Face K → Nat) : Prop where
  bid : ∀ p, (G.face p).bid = 0 ↔ (G.face p).nbr ≠ none
  sides : ∀ p, (G.face p).nbr = none → ∃ d : Fin 3,
    (side (G.bface p) = 2 * d.val ∧ (G.face p).centroid d = lo d ∧ (G.face p).normal = fun i => if i = d then -1 else 0) ∨
    (side (G.bface p) = 2 * d.val + 1 ∧ (G.face p).centroid d = hi d ∧ (G.face p).normal = fun i => if i = d then 1 else 0)
  ne : ∀ s < 6, ∃ p, (G.face p).nbr = none ∧ side (G.bface p) = s
  lt : ∀ d, lo d < hi d

/-- Boundary identifiers are side numbers. -/
def SideIds (G : Grid K) (side : Boundary.Face K → Nat) : Prop :=
  ∀ p, (G.face p).nbr = none → (G.face p).bid = side (G.bface p) + 1

/-- Boundary identifiers are unique, and the centroid of every boundary face is at its side, and at no side that comes before,
of the bounding box of the centroids, within 1e-6. -/
structure FaceIds (G : Grid K) (lo hi : Fin 3 → K) (side : Boundary.Face K → Nat) : Prop where
  unique : Boundary.UniqueIds (Boundary.outerFaces G.bfaces)
  extents : Boundary.Extents (Boundary.outerFaces G.bfaces) lo hi
  at_side : ∀ f ∈ Boundary.outerFaces G.bfaces, Boundary.AtSide (1 / 10 ^ 6) lo hi f.centroid (side f)

/-- Opposite sides match: every boundary face has a face with the same area and the same tangential centroid on the opposite
side, and is close (within 1e-6) to no other one. -/
structure Matching (G : Grid K) (side : Boundary.Face K → Nat) : Prop where
  image : ∀ p, (G.face p).nbr = none → ∃ q, (G.face q).nbr = none ∧ side (G.bface p) / 2 = side (G.bface q) / 2 ∧
    side (G.bface p) ≠ side (G.bface q) ∧ (G.face p).area = (G.face q).area ∧
    ∀ d : Fin 3, d.val ≠ side (G.bface p) / 2 → (G.face p).centroid d = (G.face q).centroid d
  single : Boundary.SingleImage (Boundary.outerFaces G.bfaces) side

/-- The grid fits the type of boundary conditions: side numbers as boundary identifiers for fixed conditions, unique ones for
linear and periodic conditions, opposite sides that match for periodic ones; all three directions. -/
def Suited (I : Input K) (lo hi : Fin 3 → K) (side : Boundary.Face K → Nat) : Prop :=
  match I.bct with
  | .fixed => SideIds I.G side
  | .linear => FaceIds I.G lo hi side ∧ I.twodim = false
  | .periodic => FaceIds I.G lo hi side ∧ Matching I.G side ∧ I.twodim = false

/-- Symmetric positive definite permeabilities, positive total mobility; `orthogonalizeColumns` gives an orthonormal basis;
`sort` permutes; the linear solver solves every solvable system exactly. -/
structure Regular (I : Input K) : Prop where
  symm : ∀ c i j, I.perm c i j = I.perm c j i
  posdef : ∀ c, Mimetic.PosDef (I.perm c)
  mob : ∀ c, 0 < (I.mob c).sum
  basis : ∀ c, Mimetic.OrthBasis (Mimetic.cmat (I.G.geo c)) (I.Q c)
  sort : ∀ l, (I.sort l).Perm l
  solver : ∀ s N, (∃ x, Hybrid.Solves s N x) → Hybrid.Solves s N (I.solver s N)

/-- The same without gravity. -/
structure Sound (I : Input K) : Prop extends Regular I where
  gravity : I.gravity = 0

/-- Total mobility times permeability of a cell. -/
def cond (I : Input K) (c : Fin I.G.nc) (i j : Fin 3) : K := (I.mob c).sum * I.perm c i j

/-- Total volume. -/
def vol (I : Input K) : K := ∑ c, (I.G.cell c).volume

/-- Volume weighted average of a cell quantity. -/
def mean (I : Input K) (f : Fin I.G.nc → K) : K := (∑ c, (I.G.cell c).volume * f c) / vol I

/-- `R c` is the inverse of the conductivity of cell `c`. -/
def Inverse (I : Input K) (R : Fin I.G.nc → Fin 3 → Fin 3 → K) : Prop :=
  ∀ c i j, ∑ k, cond I c i k * R c k j = if i = j then 1 else 0

/-- The same grid with other permeabilities, mobilities and densities. -/
abbrev withRock (I : Input K) (perm : Fin I.G.nc → Fin 3 → Fin 3 → K) (mob rho : Fin I.G.nc → List K) : Input K :=
  { I with perm := perm, mob := mob, rho := rho }

/-- The same without gravity. -/
abbrev noGravity (I : Input K) : Input K := { I with gravity := 0 }

/-- The density of the mixture (weighted by mobilities) is `ω` everywhere. -/
def Density (I : Input K) (ω : K) : Prop := ∀ c, (List.zipWith (· * ·) (I.rho c) (I.mob c)).sum = ω * (I.mob c).sum

end Verif.SinglePhase
