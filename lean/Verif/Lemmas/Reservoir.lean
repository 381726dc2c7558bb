import Verif.Spec.Reservoir
import Mathlib.Tactic.FinCases
import Mathlib.Data.Fintype.Basic

/-!
Facts about sets of permeability components, by going through all of them.
-/

namespace Verif.Reservoir

/-- Nine Boolean values as a function. -/
def ofBits (b0 b1 b2 b3 b4 b5 b6 b7 b8 : Bool) : Fin 9 → Bool := ![b0, b1, b2, b3, b4, b5, b6, b7, b8]

theorem ofBits_eta (has : Fin 9 → Bool) :
    has = ofBits (has 0) (has 1) (has 2) (has 3) (has 4) (has 5) (has 6) (has 7) (has 8) := by
  funext p; fin_cases p <;> rfl

theorem bits (P : (Fin 9 → Bool) → Prop) (h : ∀ b0 b1 b2 b3 b4 b5 b6 b7 b8, P (ofBits b0 b1 b2 b3 b4 b5 b6 b7 b8)) (has : Fin 9 → Bool) :
    P has := by
  rw [ofBits_eta has]; exact h _ _ _ _ _ _ _ _ _

theorem classify_spec (has : Fin 9 → Bool) :
    (classify has = .invalid ↔ ¬ Admissible has) ∧
    (classify has = .tensor ↔ Admissible has ∧ ∃ p, has p = true ∧ Off p) ∧
    (classify has = .none ↔ ∀ p, has p = false) ∧
    (classify has = .scalar ↔ (∀ p, has p = true → ¬ Off p) ∧ ∃ p, has p = true ∧ ∀ q, has q = true → q = p) ∧
    (classify has = .diagonal ↔ (∀ p, has p = true → ¬ Off p) ∧ ∃ p q, p ≠ q ∧ has p = true ∧ has q = true) := by
  revert has
  refine bits _ ?_
  unfold Admissible
  decide +kernel

/-- The filling with the components' own numbers as fields. -/
def ids (has : Fin 9 → Bool) : (Fin 9 → Nat) × List (Option (Fin 9)) :=
  fill none fun p => if has p then some (some p) else none

theorem ids_spec (has : Fin 9 → Bool) :
    (∀ p, (ids has).2[(ids has).1 p]? = some (sourceOf has p)) ∧
    (∀ o ∈ (ids has).2.tail, ∃ q, has q = true ∧ o = some q) ∧
    (∀ q, has q = true → some q ∈ (ids has).2.tail) ∧
    (1 < (ids has).2.length ↔ ∃ q, has q = true) := by
  revert has
  refine bits _ ?_
  decide +kernel

theorem source_given (has : Fin 9 → Bool) : ∀ p q, sourceOf has p = some q → has q = true := by
  revert has
  refine bits _ ?_
  decide +kernel

theorem source_mirror (has : Fin 9 → Bool) : ∀ p, Off p → sourceOf has (mirror p) = sourceOf has p := by
  revert has
  refine bits _ ?_
  decide +kernel

theorem source_own (has : Fin 9 → Bool) : ∀ p, has p = true → (rowOf p < colOf p → has (mirror p) = false) → sourceOf has p = some p := by
  revert has
  refine bits _ ?_
  decide +kernel

theorem scalar_source (has : Fin 9 → Bool) : classify has = .scalar →
    (∀ p, Off p → sourceOf has p = none) ∧ ∀ p, ¬ Off p → sourceOf has p = sourceOf has 0 := by
  revert has
  refine bits _ ?_
  decide +kernel

theorem diagonal_source (has : Fin 9 → Bool) : classify has = .diagonal → ∀ p, Off p → sourceOf has p = none := by
  revert has
  refine bits _ ?_
  decide +kernel

end Verif.Reservoir
