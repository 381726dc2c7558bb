import Verif.Model.ViscLimit
import Mathlib.Algebra.BigOperators.Fin

/-!
What upscaling in the viscous limit should compute.
-/

namespace Verif.Visc.Spec

open Verif.RelPerm Verif.Visc

variable {K : Type} [Field K] [LinearOrder K]

/-- The ratio of the mobilities of water and oil. -/
def mobRatio (muw muo kw ko : K) : K := (kw / muw) / (ko / muo)

/-- What a constructor of monotone interpolators promises for points with increasing arguments and values that do not fall: the curve passes through the
points, it does not fall, and is constant outside. -/
def Interpolates (mk : List (K × K) → Curve K) : Prop :=
  ∀ t : List (K × K), (t.Pairwise fun a b => a.1 < b.1) → (t.Pairwise fun a b => a.2 ≤ b.2) →
    (mk t).pts = t ∧ (∀ p ∈ t, (mk t).eval p.1 = p.2) ∧ (∀ x y, x ≤ y → (mk t).eval x ≤ (mk t).eval y) ∧
    (∀ p, t.head? = some p → ∀ x ≤ p.1, (mk t).eval x = p.2) ∧ ∀ p, t.getLast? = some p → ∀ x, p.1 ≤ x → (mk t).eval x = p.2

/-- Pore volume of a cell; rock type 0 is no rock. -/
def pv (c : Cell K) : K := if c.satnum > 0 then c.vol * c.poro else 0

/-- The saturation of a rock type when the ratio of mobilities is `v`: the curve, or the mean of the curves of the three directions. -/
def rockSat (aniso : Bool) (c : Fin 3 → Curve K) (v : K) : K := if aniso then (∑ d, (c d).eval v) / 3 else (c 0).eval v

/-- The cell has rock and its rock type is one of `n`. -/
def Typed (n : Nat) (c : Cell K) : Prop := c.satnum ≤ n ∧ 0 ≤ c.vol ∧ 0 ≤ c.poro

/-- On the interval from `l` to `r` water flows not worse and oil not better with more water, and one of them, limited below by `eps`, strictly so. -/
def Physical (eps : K) (w o : K → K) (l r : K) : Prop :=
  ∀ x y, l ≤ x → x < y → y ≤ r → w x ≤ w y ∧ o y ≤ o x ∧ (max (w x) eps < max (w y) eps ∨ max (o y) eps < max (o x) eps)

/-- The `i`-th of `n` values from `a` to `b` in equal steps. -/
def evenly (a b : K) (n i : Nat) : K := a + (i : K) * ((b - a) / ((n : K) - 1))

/-- The curves in use: all three directions, or the first. -/
def used (aniso : Bool) (C : List (Fin 3 → Curve K)) : List (Curve K) := C.flatMap fun c => if aniso then [c 0, c 1, c 2] else [c 0]

/-- The phase permeability of a cell in direction `d`: relative permeability at the saturation of its rock type times permeability; without rock the least
permeability. Without directions the first permeability and the first curve count for all. -/
def phasePerm (minPerm : K) (aniso : Bool) (kr : Nat → Fin 3 → Curve K) (s : Nat → K) (c : Cell K) (d : Fin 3) : K :=
  if c.satnum > 0 then
    (kr (c.satnum - 1).toNat (if aniso then d else 0)).eval (s (c.satnum - 1).toNat) * c.perm (if aniso then d else 0)
  else minPerm

/-- All entries of all diagonals are positive and no two differ by a factor of more than `r`. -/
def Contrast (r : K) (l : List (Fin 3 → K)) : Prop := ∀ x ∈ l, ∀ y ∈ l, ∀ d e, 0 < x d ∧ x d ≤ r * y e

end Verif.Visc.Spec
