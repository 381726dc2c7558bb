import Verif.Model.RelPermChain
import Verif.Spec.RelPerm
import Verif.Spec.SinglePhase
import Verif.Spec.Dense
import Mathlib.LinearAlgebra.Matrix.NonsingularInverse

/-!
Specification for upscaled relative permeability: when a job is well posed, and what the rock data must satisfy.
-/

namespace Verif.RelPermChain

open Verif.Dense Verif.SinglePhase

variable {K : Type} [Field K] [LinearOrder K]

/-- The upscaler can compute: a grid that fills a box and fits the type of boundary conditions, an exact linear solver, no
gravity; `invert` inverts regular matrices. Nothing is said about the permeabilities it holds. -/
structure Ready (J : Job K) (lo hi : Fin 3 → K) (side : Boundary.Face K → Nat) : Prop where
  tiling : Tiling J.I.G
  box : FillsBox J.I.G lo hi side
  suited : Suited J.I lo hi side
  basis : ∀ c, Mimetic.OrthBasis (Mimetic.cmat (J.I.G.geo c)) (J.I.Q c)
  sort : ∀ l, (J.I.sort l).Perm l
  solver : ∀ s N, (∃ x, Hybrid.Solves s N x) → Hybrid.Solves s N (J.I.solver s N)
  gravity : J.I.gravity = 0
  invert : ∀ A (M : Matrix (Fin 3) (Fin 3) K), Represents A M → IsUnit M → Represents (J.invert A) M⁻¹

/-- The input: one rock number for every cell of the grid, a head for every cell with rock, some pore volume, no negative
permeability, positive least permeability, contrast at least one. -/
structure Valid (J : Job K) : Prop where
  cells : J.S.globalCell.length = J.I.G.nc
  heads : ∀ c ∈ J.S.globalCell, 0 < J.S.satnum c → ∃ h, RelPerm.Spec.Head J.S c h
  volume : (J.S.globalCell.map (RelPerm.Spec.pv J.S)).sum ≠ 0
  perm : ∀ c ∈ J.S.globalCell, 0 ≤ J.S.permx c
  minPerm : 0 < J.minPerm
  contrast : 1 ≤ J.contrast

/-- Saturation falls with capillary pressure in every rock type; J-scaling is not negative, pore volumes are not. -/
structure FallingRocks (J : Job K) : Prop where
  scale : ∀ c ∈ J.S.globalCell, 0 < J.S.satnum c → 0 ≤ RelPerm.Spec.scale J.S c
  pv : ∀ c ∈ J.S.globalCell, 0 ≤ RelPerm.Spec.pv J.S c
  falls : ∀ c ∈ J.S.globalCell, 0 < J.S.satnum c → ∀ x y, x ≤ y →
    (RelPerm.Spec.curve J.S c).eval y ≤ (RelPerm.Spec.curve J.S c).eval x

/-- The relative permeabilities of the rock types are between zero and one. -/
def UnitRange (kr : Nat → K → K) : Prop := ∀ r s, 0 ≤ kr r s ∧ kr r s ≤ 1

/-- The tensor with the given Voigt entries xx, yy, zz, yz, xz, xy, zy, zx, yx. -/
def ofVoigt (r : Fin 9 → K) : Matrix (Fin 3) (Fin 3) K :=
  !![r 0, r 5, r 4; r 8, r 1, r 3; r 7, r 6, r 2]

end Verif.RelPermChain
