import Verif.Spec.SinglePhase
import Mathlib.Logic.Equiv.Fin.Basic

/-!
Specification of C158: two descriptions of the same sample.
-/

namespace Verif.SinglePhase

variable {K : Type} [Field K] [LinearOrder K]

/-- `G'` describes the same grid as `G`, with other numbers, unit of length, origin and names of the axes: cell `c` has the number `σ c`, its face `i` the
number `τ c i`, direction `k` is called `π k`, lengths are multiplied by `a` (areas by `a²`, volumes by `a³`), and the origin is moved by `t`. -/
structure SameGrid (G G' : Grid K) (a : K) (t : Fin 3 → K) (π : Equiv.Perm (Fin 3)) (σ : Fin G.nc ≃ Fin G'.nc)
    (τ : (c : Fin G.nc) → Fin (G.cell c).nf ≃ Fin (G'.cell (σ c)).nf) : Prop where
  unit : 0 < a
  outer : ∀ c i, ((G'.cell (σ c)).face (τ c i)).nbr = none ↔ ((G.cell c).face i).nbr = none
  inner : ∀ c i (d : Fin G.nc), ((G.cell c).face i).nbr = some d.val → ((G'.cell (σ c)).face (τ c i)).nbr = some (σ d).val
  area : ∀ c i, ((G'.cell (σ c)).face (τ c i)).area = a ^ 2 * ((G.cell c).face i).area
  normal : ∀ c i k, ((G'.cell (σ c)).face (τ c i)).normal (π k) = ((G.cell c).face i).normal k
  face : ∀ c i k, ((G'.cell (σ c)).face (τ c i)).centroid (π k) = a * ((G.cell c).face i).centroid k + t k
  cell : ∀ c k, (G'.cell (σ c)).centroid (π k) = a * (G.cell c).centroid k + t k
  volume : ∀ c, (G'.cell (σ c)).volume = a ^ 3 * (G.cell c).volume

/-- `I'` describes the same sample as `I`: the same grid, mobility times permeability is the same tensor, and the type of boundary conditions is the same. -/
structure SameSample (I I' : Input K) (a : K) (t : Fin 3 → K) (π : Equiv.Perm (Fin 3)) (σ : Fin I.G.nc ≃ Fin I'.G.nc)
    (τ : (c : Fin I.G.nc) → Fin (I.G.cell c).nf ≃ Fin (I'.G.cell (σ c)).nf) : Prop extends SameGrid I.G I'.G a t π σ τ where
  rock : ∀ c i j, cond I' (σ c) (π i) (π j) = cond I c i j
  conditions : I'.bct = I.bct

end Verif.SinglePhase
