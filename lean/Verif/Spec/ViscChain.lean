import Verif.Model.ViscChain
import Verif.Spec.ViscLimit
import Verif.Spec.RelPermChain

/-!
Specification for upscaled relative permeability in the viscous limit: when a job is well posed, and what the curves must satisfy.
-/

namespace Verif.ViscChain

open Verif.Dense Verif.SinglePhase Verif.RelPerm

variable {K : Type} [Field K] [LinearOrder K]

/-- The upscaler can compute: a grid that fills a box and fits the type of boundary conditions, an exact linear solver, no gravity; `invert` inverts
regular matrices. Nothing is said about the permeabilities it holds. -/
structure Ready (J : Job K) (lo hi : Fin 3 → K) (side : Boundary.Face K → Nat) : Prop where
  tiling : Tiling J.I.G
  box : FillsBox J.I.G lo hi side
  suited : Suited J.I lo hi side
  basis : ∀ c, Mimetic.OrthBasis (Mimetic.cmat (J.I.G.geo c)) (J.I.Q c)
  sort : ∀ l, (J.I.sort l).Perm l
  solver : ∀ s N, (∃ x, Hybrid.Solves s N x) → Hybrid.Solves s N (J.I.solver s N)
  gravity : J.I.gravity = 0
  invert : ∀ A (M : Matrix (Fin 3) (Fin 3) K), Represents A M → IsUnit M → Represents (J.invert A) M⁻¹

/-- The input: one entry for every cell of the grid, rock types that exist, volumes and porosities that are not negative, some pore volume, and the pore
volumes of the rock types; no negative permeability, positive least permeability, contrast at least one. -/
structure Valid (J : Job K) : Prop where
  cells : J.cells.length = J.I.G.nc
  typed : ∀ c ∈ J.cells, Visc.Spec.Typed J.C.length c
  volume : 0 < (J.cells.map Visc.Spec.pv).sum
  vols : J.vols.length = J.C.length ∧ ∀ r < J.C.length,
    J.vols[r]? = some ((J.cells.filter fun c => c.satnum = (r : Int) + 1).map fun c => c.vol * c.poro).sum
  perm : ∀ c ∈ J.cells, ∀ d, 0 ≤ c.perm d
  minPerm : 0 < J.O.minPerm
  contrast : 1 ≤ J.O.contrast

/-- The saturation of a rock type does not fall when the ratio of mobilities rises. -/
def Rising (J : Job K) : Prop := ∀ c ∈ J.C, ∀ d x y, x ≤ y → (c d).eval x ≤ (c d).eval y

/-- The relative permeabilities of the rock types are between zero and one. -/
def UnitRange (kr : Nat → Fin 3 → Curve K) : Prop := ∀ r d s, 0 ≤ (kr r d).eval s ∧ (kr r d).eval s ≤ 1

/-- No permeability of rock in any direction is larger than all in the x direction. -/
def XLargest (J : Job K) : Prop :=
  ∀ c ∈ J.cells, 0 < c.satnum → ∀ d, ∃ c' ∈ J.cells, 0 < c'.satnum ∧ c.perm d ≤ c'.perm 0

/-- The mean of the saturations of the cells at the ratio `v`, weighted with pore volume. -/
def MeanSat (J : Job K) (v w : K) : Prop :=
  w * (J.cells.map Visc.Spec.pv).sum =
    (J.cells.map fun c => (J.C[(c.satnum - 1).toNat]?).elim 0 (fun q => Visc.Spec.rockSat J.aniso q v) * Visc.Spec.pv c).sum

end Verif.ViscChain
