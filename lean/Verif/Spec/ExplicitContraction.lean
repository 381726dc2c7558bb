import Verif.Spec.Euler
import Mathlib.Algebra.Order.Group.Abs

/-!
C153: what it takes for explicit transport steps to keep the order of states, and how much two states differ.
-/

namespace Verif.SimRange

open Verif.Euler Verif.Euler.Spec
open scoped BigOperators

variable {K : Type} [Field K] [LinearOrder K]

/-- In every cell the fractional flow of water does not fall with the saturation, and rises with a slope of at most `1 / factor`. Different cells may have different
rocks. -/
structure Rising (S : Setup K K) (factor : K) : Prop where
  mono : ∀ c s t, 0 ≤ s → s ≤ t → t ≤ 1 → fw S c s ≤ fw S c t
  slope : ∀ c s t, 0 ≤ s → s ≤ t → t ≤ 1 → fw S c t - fw S c s ≤ (t - s) / factor

/-- `t` has no less water than `s` in any of the `n` cells. -/
def Below (n : Nat) (s t : Nat → K) : Prop := ∀ i < n, s i ≤ t i

/-- Water that `s` has more than `t`, counted only in the cells in which it has more; `pv` are the pore volumes of the `n` cells. -/
def excess (n : Nat) (pv : List K) (s t : Nat → K) : K := ∑ i ∈ Finset.range n, pv.getD i 0 * max (s i - t i) 0

/-- Water by which the two states differ. -/
def distance (n : Nat) (pv : List K) (s t : Nat → K) : K := ∑ i ∈ Finset.range n, pv.getD i 0 * |s i - t i|

/-- All cells have the same fractional flow. -/
def OneRock (S : Setup K K) : Prop := ∀ c c' s, fw S c s = fw S c' s

/-- Fluid that enters through the outer boundary has a saturation of at least `a`. -/
def EntersAbove (S : Setup K K) (a : K) : Prop :=
  ∀ c < S.grid.length, ∀ f ∈ facesOf S.grid c, ∀ bid s, f.kind = .boundary bid → S.bcs.cond bid = .dirichlet s → f.flux < 0 → a ≤ s

/-- Fluid that enters through the outer boundary has a saturation of at most `b`. -/
def EntersBelow (S : Setup K K) (b : K) : Prop :=
  ∀ c < S.grid.length, ∀ f ∈ facesOf S.grid c, ∀ bid s, f.kind = .boundary bid → S.bcs.cond bid = .dirichlet s → f.flux < 0 → s ≤ b

end Verif.SimRange
