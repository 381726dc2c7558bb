import Verif.Spec.RelPermChain

/-!
Layered samples in relative permeability upscaling: the permeabilities of the cells, and when no floor changes them.
-/

namespace Verif.RelPermChain

variable {K : Type} [Field K] [LinearOrder K]

/-- The permeability of a cell of the grid. -/
def absK (J : Job K) (c : Fin J.I.G.nc) : K := J.S.permx (J.S.globalCell.getD c.val 0)

/-- The permeability of a cell for a phase: that of the cell times the relative permeability of its rock at its saturation. -/
def phaseK (J : Job K) (kr : Nat → K → K) (s : Nat → K) (c : Fin J.I.G.nc) : K :=
  kr (J.S.satnum (J.S.globalCell.getD c.val 0) - 1).toNat (s (J.S.globalCell.getD c.val 0)) * absK J c

/-- Every cell has a rock, no phase permeability is below the least permeability, and all are within the allowed contrast. -/
structure NoFloor (J : Job K) (kr : Nat → K → K) (s : Nat → K) : Prop where
  rock : ∀ c ∈ J.S.globalCell, 0 < J.S.satnum c
  least : ∀ c, J.minPerm ≤ phaseK J kr s c
  phase : ∀ c c', phaseK J kr s c' ≤ J.contrast * phaseK J kr s c
  single : ∀ c c', absK J c' ≤ J.contrast * absK J c

/-- The value does not change from cell to cell in direction `d`: neighbours whose common face is not parallel to the direction have
the same one. -/
def AlongLayers (G : SinglePhase.Grid K) (d : Fin 3) (f : Fin G.nc → K) : Prop :=
  ∀ p q : SinglePhase.Half G, (G.face p).nbr = some q.1.val → (G.face q).nbr = some p.1.val → (G.face p).normal d ≠ 0 → f p.1 = f q.1

/-- The value is the same in cells at opposite sides of the box. -/
def EndsMatch (G : SinglePhase.Grid K) (lo hi : Fin 3 → K) (d : Fin 3) (f : Fin G.nc → K) : Prop :=
  ∀ p q : SinglePhase.Half G, (G.face p).nbr = none → (G.face q).nbr = none → (G.face p).centroid d = lo d →
    (G.face q).centroid d = hi d → (∀ k, k ≠ d → (G.face p).centroid k = (G.face q).centroid k) → f p.1 = f q.1

/-- The value is a function of the coordinate in direction `d`: it is the slope of a function of the coordinate within every cell. -/
def AcrossLayers (G : SinglePhase.Grid K) (d : Fin 3) (f : Fin G.nc → K) : Prop :=
  ∃ (F : K → K) (q : Fin G.nc → K), ∀ p : SinglePhase.Half G,
    F ((G.face p).centroid d) = q p.1 + f p.1 * ((G.face p).centroid d - (G.cell p.1).centroid d)

end Verif.RelPermChain
