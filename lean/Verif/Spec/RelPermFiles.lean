import Verif.Model.RelPermOutput

/-!
Specification for the saturation functions of the rock types: which file belongs to a type, which curve is read from it, and when a curve can be inverted.
-/

namespace Verif.RelPermOut.Spec

variable {K : Type} [LinearOrder K]

/-- The file of rock type `i` (from 0) among `n` types: its own, or the only one. -/
def FileOf (n : Nat) (files : List Name) (i : Nat) (f : Name) : Prop :=
  (files.length = n ∧ files[i]? = some f) ∨ files = [f]

/-- The curve can be inverted: it rises strictly or falls strictly. -/
def Invertible (c : Curve K) : Prop :=
  (∀ p ∈ c, ∀ q ∈ c, p.1 < q.1 → p.2 < q.2) ∨ (∀ p ∈ c, ∀ q ∈ c, p.1 < q.1 → q.2 < p.2)

/-- `L` holds for each of the `n` types the curve from columns `x` and `y` of its file. -/
def Columns (load : Name → Int → Int → Option (Curve K)) (n : Nat) (files : List Name) (x y : Int) (L : List (Curve K)) : Prop :=
  L.length = n ∧ ∀ (i : Nat) (c : Curve K), L[i]? = some c → ∃ f, FileOf n files i f ∧ load f x y = some c

/-- `L` holds for each of the `n` types the inverse of the curve from columns `x` and `y` of its file: exchanged coordinates of an invertible curve. -/
def Inverses (load : Name → Int → Int → Option (Curve K)) (n : Nat) (files : List Name) (x y : Int) (L : List (Curve K)) : Prop :=
  L.length = n ∧ ∀ (i : Nat) (c : Curve K), L[i]? = some c → ∃ f g, FileOf n files i f ∧ load f x y = some g ∧ Invertible g ∧ c = g.map Prod.swap

end Verif.RelPermOut.Spec
