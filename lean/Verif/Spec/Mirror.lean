import Verif.Spec.SinglePhase

/-!
Specification of C159: mirror images of a sample.
-/

namespace Verif.SinglePhase

variable {K : Type} [Field K] [LinearOrder K]

/-- The grid with coordinate `k` multiplied by `s k` (one or minus one); `bid` are the boundary identifiers of the image. -/
def mirrorGrid (s : Fin 3 → K) (G : Grid K) (bid : Half G → Nat) : Grid K where
  nc := G.nc
  cell c :=
    { nf := (G.cell c).nf
      face := fun i =>
        { nbr := ((G.cell c).face i).nbr
          bid := bid ⟨c, i⟩
          area := ((G.cell c).face i).area
          centroid := fun k => s k * ((G.cell c).face i).centroid k
          normal := fun k => s k * ((G.cell c).face i).normal k }
      centroid := fun k => s k * (G.cell c).centroid k
      volume := (G.cell c).volume }

/-- The mirror image of a sample: coordinates and permeabilities change, nothing else. -/
def mirror (s : Fin 3 → K) (I : Input K) (bid : Half I.G → Nat) : Input K where
  G := mirrorGrid s I.G bid
  perm c i j := s i * s j * I.perm c i j
  Q := I.Q
  gravity := I.gravity
  mob := I.mob
  rho := I.rho
  bct := I.bct
  twodim := I.twodim
  sort := I.sort
  solver := I.solver

end Verif.SinglePhase
