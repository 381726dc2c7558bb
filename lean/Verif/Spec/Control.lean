import Verif.Model.Control

/-!
Specification vocabulary for the steady-state managers.
-/

namespace Verif.Spec

variable {K : Type}

/-- The nine Voigt components xx, yy, zz, yz, xz, xy, zy, zx, yx as (row, column) pairs. -/
def voigtComponents : List (Nat × Nat) :=
  [(0, 0), (1, 1), (2, 2), (1, 2), (0, 2), (0, 1), (2, 1), (2, 0), (1, 0)]

/-- Formatting `x` gives a non-empty word without blanks that is read back as `round x`. -/
def PrintsAs (N : Verif.Control.NumFmt K) (round : K → K) (x : K) : Prop :=
  N.print x ≠ [] ∧ (∀ c ∈ N.print x, c ≠ ' ' ∧ c ≠ '\n' ∧ c ≠ '\t') ∧ N.parse (N.print x) = some (round x)

/-- `l` has `n` elements, starts at `lo`, ends at `hi` and never decreases. -/
structure IsRange [LinearOrder K] (l : List K) (n : Nat) (lo hi : K) : Prop where
  length : l.length = n
  first : 1 ≤ n → l.head? = some lo
  last : 2 ≤ n → l.getLast? = some hi
  mono : lo ≤ hi → l.Pairwise (· ≤ ·)
  strict : lo < hi → l.Pairwise (· < ·)

/-- The state the `k`-th computation of a saturation starts from, given the results of the earlier ones: the state left
by the last successful one, or the initial profile. -/
def lastGood {S T : Type} (init : S) (earlier : List (Verif.Control.Outcome (K := K) S T)) : S :=
  match (earlier.filter fun o => o.success).getLast? with
  | some o => o.state
  | none => init

end Verif.Spec
