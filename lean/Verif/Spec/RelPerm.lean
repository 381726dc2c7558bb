import Verif.Model.RelPerm

/-!
What the quantities of relperm upscaling mean, in terms of the input of the system.
-/

namespace Verif.RelPerm.Spec

variable {K : Type} [Field K] [LinearOrder K]

/-- The saturation curve of a cell: of the rock type given by its rock number (counted from 1). -/
def curve (S : Sys K) (c : Nat) : Curve K :=
  if S.aniso then S.swpc (S.satnum c - 1).toNat else S.invJ (S.satnum c - 1).toNat

/-- Leverett scaling of the pressure; none for anisotropic input. -/
def scale (S : Sys K) (c : Nat) : K := if S.aniso then 1 else S.sqrt (S.permx c / S.poro c)

/-- `h` is the gravity head of a cell: 0 without gravity, else the stored one. -/
def Head (S : Sys K) (c : Nat) (h : K) : Prop := S.dP = [] ∧ h = 0 ∨ S.dP ≠ [] ∧ S.dP[c]? = some h

/-- `s` is the water saturation of a cell with rock at system pressure `p`. -/
def CellSat (S : Sys K) (p : K) (c : Nat) (s : K) : Prop :=
  ∃ h, Head S c h ∧ s = (curve S c).eval (scale S c * (p - h))

/-- Pore volume of a cell. -/
def pv (S : Sys K) (c : Nat) : K := if 0 < S.satnum c then S.volume c * S.poro c else 0

/-- `w` is the pore-volume weighted mean of the cell saturations at pressure `p`. -/
def MeanSat (S : Sys K) (p w : K) : Prop :=
  ∃ s : Nat → K, (∀ c ∈ S.globalCell, 0 < S.satnum c → CellSat S p c (s c)) ∧
    (S.globalCell.map (pv S)).sum ≠ 0 ∧
    w * (S.globalCell.map (pv S)).sum = (S.globalCell.map fun c => s c * pv S c).sum

/-- `lo..hi` is the range of capillary pressures covered by the curve of the cell. -/
def CellRange (S : Sys K) (c : Nat) (lo hi : K) : Prop :=
  ∃ first last, (curve S c).pts.head? = some first ∧ (curve S c).pts.getLast? = some last ∧
    scale S c ≠ 0 ∧ scale S c * lo = first.1 ∧ scale S c * hi = last.1

/-- A saturation curve: falling values, constant outside the tabulated range. -/
def Falling (c : Curve K) : Prop :=
  (∀ i j : Nat, ∀ p q, i ≤ j → c.pts[i]? = some p → c.pts[j]? = some q → q.2 ≤ p.2) ∧
  (∀ p, c.pts.head? = some p → ∀ x ≤ p.1, c.eval x = p.2) ∧
  (∀ p, c.pts.getLast? = some p → ∀ x, p.1 ≤ x → c.eval x = p.2)

/-- `k` is the phase permeability of a cell with rock: relperm at its saturation times x-permeability. -/
def RawPerm (S : Sys K) (kr : Nat → K → K) (p : K) (c : Nat) (k : K) : Prop :=
  ∃ s, CellSat S p c s ∧ k = kr (S.satnum c - 1).toNat s * S.permx c

end Verif.RelPerm.Spec
