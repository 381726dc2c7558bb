import Verif.Spec.ViscChain
import Verif.Spec.RelPermLayers

/-!
Layered samples in relative permeability upscaling of the viscous limit: the permeabilities of the cells, and when no floor changes them.
-/

namespace Verif.ViscChain

open Verif.Visc

variable {K : Type} [Field K] [LinearOrder K]

/-- The permeability of the cell with number `c`. -/
def absK (J : Job K) (c : Nat) : K := (J.cells[c]?).elim 0 fun x => x.perm 0

/-- The permeability of a cell for a phase at the ratio `v`: that of the cell times the relative permeability of its rock at the rock's saturation. -/
def mobK (J : Job K) (kr : Nat → Fin 3 → RelPerm.Curve K) (v : K) (x : Cell K) : K :=
  (kr (x.satnum - 1).toNat 0).eval ((J.C[(x.satnum - 1).toNat]?).elim 0 fun q => Visc.Spec.rockSat false q v) * x.perm 0

/-- The same for the cell with number `c`. -/
def phaseK (J : Job K) (kr : Nat → Fin 3 → RelPerm.Curve K) (v : K) (c : Nat) : K := (J.cells[c]?).elim 0 (mobK J kr v)

/-- Every cell has a rock, no phase permeability is below the least permeability, and all are within the allowed contrast. -/
structure NoFloor (J : Job K) (kr : Nat → Fin 3 → RelPerm.Curve K) (v : K) : Prop where
  rock : ∀ x ∈ J.cells, 0 < x.satnum
  least : ∀ x ∈ J.cells, J.O.minPerm ≤ mobK J kr v x
  phase : ∀ x ∈ J.cells, ∀ x' ∈ J.cells, mobK J kr v x' ≤ J.O.contrast * mobK J kr v x
  single : ∀ x ∈ J.cells, ∀ x' ∈ J.cells, x'.perm 0 ≤ J.O.contrast * x.perm 0

end Verif.ViscChain
