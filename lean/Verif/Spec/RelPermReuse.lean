import Verif.Model.RelPermOutput
import Verif.Spec.RelPerm
import Verif.Spec.Control

/-!
Specification for the table of `upscale_relperm` as input of the same program, and for the pressures in it.
-/

namespace Verif.RelPermOut.Spec

variable {K : Type}

/-- The letter of a direction. -/
def dirName (d : Nat) : Char := if d = 0 then 'x' else if d = 1 then 'y' else 'z'

/-- The file holds the table `t`: the curve read from two of its columns (counted from 1) has one point for each row, in any order. -/
def TableFile [Zero K] (load : Name → Int → Int → Option (Curve K)) (f : Name) (t : List (List K)) : Prop :=
  ∀ x y : Nat, 1 ≤ x → 1 ≤ y → (∀ r ∈ t, x ≤ r.length ∧ y ≤ r.length) →
    ∃ c, load f x y = some c ∧ c.Perm (t.map fun r => (r.getD (x - 1) 0, r.getD (y - 1) 0))

/-- `w` is the mean saturation of the system at capillary pressure `p` (no gravity) for the surface tension `sigma`. The curve of a rock gives the saturation for
the J-function `sqrt(k/phi) p / sigma` or, for anisotropic input, for the capillary pressure itself. -/
def SaturationAt [Field K] [LinearOrder K] (S : RelPerm.Sys K) (sigma p w : K) : Prop :=
  ∃ s : Nat → K, (∀ c ∈ S.globalCell, 0 < S.satnum c → s c = (RelPerm.Spec.curve S c).eval
      (if S.aniso then p else S.sqrt (S.permx c / S.poro c) * p / sigma)) ∧
    (S.globalCell.map (RelPerm.Spec.pv S)).sum ≠ 0 ∧
    w * (S.globalCell.map (RelPerm.Spec.pv S)).sum = (S.globalCell.map fun c => s c * RelPerm.Spec.pv S c).sum

end Verif.RelPermOut.Spec
