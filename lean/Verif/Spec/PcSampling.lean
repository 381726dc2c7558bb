import Verif.Model.PcSampling
import Mathlib.Algebra.Order.Group.Abs

/-!
What the library's `getMissingX` does, and what a good table of samples is.
-/

namespace Verif.RelPerm.Spec

variable {K : Type} [Field K] [LinearOrder K]

/-- `(x, gap)` is the midpoint and the size of the largest jump between neighbouring points of the table. -/
def LargestGap (t : List (K × K)) (x gap : K) : Prop :=
  ∃ l₁ a b l₂, t = l₁ ++ a :: b :: l₂ ∧ x = (a.1 + b.1) / 2 ∧ gap = |b.2 - a.2| ∧
    ∀ m₁ c d m₂, t = m₁ ++ c :: d :: m₂ → |d.2 - c.2| ≤ gap

/-- `getMissingX`: for tables with at least two points the midpoint and the size of the largest gap. -/
def Missing (missing : List (K × K) → K × K) : Prop :=
  ∀ t, 2 ≤ t.length → LargestGap t (missing t).1 (missing t).2

/-- A table that covers the pressures from `lo` to `hi`: increasing pressures, `lo` the first, `hi` the last. -/
def Covers (t : List (K × K)) (lo hi : K) : Prop :=
  (∀ l₁ a b l₂, t = l₁ ++ a :: b :: l₂ → a.1 < b.1) ∧ (∃ w, t.head? = some (lo, w)) ∧ ∃ w, t.getLast? = some (hi, w)

/-- No two neighbouring saturations differ by more than `d`. -/
def Resolved (t : List (K × K)) (d : K) : Prop := ∀ l₁ a b l₂, t = l₁ ++ a :: b :: l₂ → |b.2 - a.2| ≤ d

end Verif.RelPerm.Spec
