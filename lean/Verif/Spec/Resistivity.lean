import Verif.Model.Resistivity
import Mathlib.Algebra.Order.Field.Basic
import Mathlib.Algebra.BigOperators.Group.List.Basic

/-!
What resistivity upscaling should compute.
-/

namespace Verif.Resist.Spec

open Verif.Resist Verif.RelPerm Verif.Collect

variable {K : Type} [Field K] [LinearOrder K]

/-- The cells that are rock. -/
def rocks (cells : List (Cell K)) : List (Cell K) := cells.filter fun c => decide (0 < c.satnum)

/-- Pore volume of the rock. -/
def poreVolume (cells : List (Cell K)) : K := ((rocks cells).map fun c => c.vol * c.poro).sum

/-- Leverett factor of a cell. -/
def leverett (O : Opts K) (c : Cell K) : K := O.sqrt (c.perm * O.mD / c.poro)

/-- Saturation of a rock cell at capillary pressure `p`. -/
def saturation (O : Opts K) (J : Nat → JCurve K) (p : K) (c : Cell K) : K :=
  (J (c.satnum.toNat - 1)).eval (leverett O c * p / O.sigma)

/-- The exponents in use for a cell: those of its rock type if given as positive numbers, else the common ones. -/
def cementation (O : Opts K) (c : Cell K) : K := if 0 < O.cemOpt c.satnum.toNat then O.cemOpt c.satnum.toNat else O.cem

def satExponent (O : Opts K) (c : Cell K) : K := if 0 < O.satOpt c.satnum.toNat then O.satOpt c.satnum.toNat else O.sat

def isMud (O : Opts K) (c : Cell K) : Prop := 0 < c.satnum ∧ (c.satnum = O.mud1 ∨ c.satnum = O.mud2)

/-- Archie's law: `R` is the resistivity of a cell with saturation `s`. Without rock, and where porosity or saturation vanish, it is the
cutoff; mud has its own value. -/
structure IsResistivity (O : Opts K) (c : Cell K) (s R : K) : Prop where
  void : c.satnum ≤ 0 → R = O.cutoff
  mud : isMud O c → R = O.mud
  dry : 0 < c.satnum → ¬ isMud O c → O.pow c.poro (cementation O c) * O.pow s (satExponent O c) = 0 → R = O.cutoff
  wet : 0 < c.satnum → ¬ isMud O c → O.pow c.poro (cementation O c) * O.pow s (satExponent O c) ≠ 0 →
    R = min (O.litho * O.water / (O.pow c.poro (cementation O c) * O.pow s (satExponent O c))) O.cutoff

/-- What is needed of the power function: positive at positive arguments, not negative at zero, increasing for positive exponents. -/
structure PowerLike (pow : K → K → K) : Prop where
  pos : ∀ x e, 0 < x → 0 < pow x e
  zero : ∀ e, 0 ≤ pow 0 e
  mono : ∀ x y e, 0 < e → 0 ≤ x → x ≤ y → pow x e ≤ pow y e

/-- Sensible options. -/
structure Sensible (O : Opts K) : Prop where
  cutoff : 0 < O.cutoff
  mud : 0 < O.mud
  litho : 0 < O.litho
  water : 0 < O.water
  cem : 0 < O.cem
  sat : 0 < O.sat
  sigma : 0 < O.sigma
  mD : 0 < O.mD
  sqrt : ∀ x, 0 < x → 0 < O.sqrt x
  pow : PowerLike O.pow

/-- A cell as the check leaves it, with a positive porosity limit and no negative volume; curves keep between their extreme values. -/
structure Checked (O : Opts K) (J : Nat → JCurve K) (c : Cell K) : Prop where
  vol : 0 < c.vol
  poro : 0 < c.satnum → 0 < c.poro
  perm : 0 < c.satnum → 0 < c.perm
  lo : ∀ x, (J (c.satnum.toNat - 1)).minF ≤ (J (c.satnum.toNat - 1)).eval x
  hi : ∀ x, (J (c.satnum.toNat - 1)).eval x ≤ (J (c.satnum.toNat - 1)).maxF
  nonneg : 0 ≤ (J (c.satnum.toNat - 1)).minF

end Verif.Resist.Spec
