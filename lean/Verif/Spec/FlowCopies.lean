import Verif.Spec.SinglePhase
import Mathlib.Logic.Equiv.Defs

/-!
Specification of C163: a sample made of copies of another one.
-/

namespace Verif.SinglePhase

variable {K : Type} [Field K] [LinearOrder K]

/-- The places of the copies: `M d` of them in direction `d`. -/
abbrev Place (M : Fin 3 → Nat) := (d : Fin 3) → Fin (M d)

/-- The grid `G'` consists of `M 0 × M 1 × M 2` copies of `G`, which fills the box from `lo` to `hi`, put next to each other in the three directions. The copy of
cell `c` at place `k` has the number `σ (k, c)`, and the copy of its face `i` the number `τ (k, c) i`; it is moved by `k d` times the length of `G` in
direction `d` (and, with the whole sample, by `t`). Faces between two cells of `G` are between the copies of these cells at the same place. A face on the
high side of `G` is, in the last copies, on the boundary of `G'`; in the others it is shared with the next copy of the cell whose face is opposite to it on the
low side of `G`. -/
structure StackedGrid (G G' : Grid K) (lo hi t : Fin 3 → K) (M : Fin 3 → Nat) (σ : Place M × Fin G.nc ≃ Fin G'.nc)
    (τ : (x : Place M × Fin G.nc) → Fin (G.cell x.2).nf ≃ Fin (G'.cell (σ x)).nf) : Prop where
  area : ∀ x i, ((G'.cell (σ x)).face (τ x i)).area = ((G.cell x.2).face i).area
  normal : ∀ x i d, ((G'.cell (σ x)).face (τ x i)).normal d = ((G.cell x.2).face i).normal d
  face : ∀ x i d, ((G'.cell (σ x)).face (τ x i)).centroid d = ((G.cell x.2).face i).centroid d + ((x.1 d).val * (hi d - lo d) + t d)
  cell : ∀ x d, (G'.cell (σ x)).centroid d = (G.cell x.2).centroid d + ((x.1 d).val * (hi d - lo d) + t d)
  volume : ∀ x, (G'.cell (σ x)).volume = (G.cell x.2).volume
  inner : ∀ k c i (b : Fin G.nc), ((G.cell c).face i).nbr = some b.val → ((G'.cell (σ (k, c))).face (τ (k, c) i)).nbr = some (σ (k, b)).val
  low : ∀ (k : Place M) c i d, ((G.cell c).face i).nbr = none → ((G.cell c).face i).normal d = -1 → (k d).val = 0 →
    ((G'.cell (σ (k, c))).face (τ (k, c) i)).nbr = none
  high : ∀ (k : Place M) c i d, ((G.cell c).face i).nbr = none → ((G.cell c).face i).normal d = 1 → (k d).val + 1 = M d →
    ((G'.cell (σ (k, c))).face (τ (k, c) i)).nbr = none
  next : ∀ (k l : Place M) c i b j d, ((G.cell c).face i).nbr = none → ((G.cell c).face i).normal d = 1 →
    ((G.cell b).face j).nbr = none → ((G.cell b).face j).normal d = -1 → ((G.cell c).face i).area = ((G.cell b).face j).area →
    (∀ e, e ≠ d → ((G.cell c).face i).centroid e = ((G.cell b).face j).centroid e) →
    (l d).val = (k d).val + 1 → (∀ e, e ≠ d → l e = k e) →
    ((G'.cell (σ (k, c))).face (τ (k, c) i)).nbr = some (σ (l, b)).val ∧ ((G'.cell (σ (l, b))).face (τ (l, b) j)).nbr = some (σ (k, c)).val

/-- `I'` consists of copies of `I`: so does its grid, and mobility times permeability is that of the original cell. -/
structure Stacked (I I' : Input K) (lo hi t : Fin 3 → K) (M : Fin 3 → Nat) (σ : Place M × Fin I.G.nc ≃ Fin I'.G.nc)
    (τ : (x : Place M × Fin I.G.nc) → Fin (I.G.cell x.2).nf ≃ Fin (I'.G.cell (σ x)).nf) : Prop extends StackedGrid I.G I'.G lo hi t M σ τ where
  rock : ∀ x i j, cond I' (σ x) i j = cond I x.2 i j

end Verif.SinglePhase
