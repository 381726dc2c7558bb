import Verif.Model.Average
import Mathlib.Tactic.Ring
import Mathlib.Tactic.FieldSimp
import Mathlib.Tactic.Linarith
import Mathlib.Tactic.Positivity
import Mathlib.Tactic.NormNum

/-!
C23: the averages of two numbers.
-/

namespace Verif.Average

/-- For positive arguments: min ≤ harmonic ≤ geometric ≤ arithmetic ≤ max. -/
theorem C23_chain (a b : ℝ) (ha : 0 < a) (hb : 0 < b) :
    min a b ≤ harmonicAverage a b ∧ harmonicAverage a b ≤ geometricAverage a b ∧
    geometricAverage a b ≤ arithmeticAverage a b ∧ arithmeticAverage a b ≤ max a b := by
  have hab : ¬ a * b ≤ 0 := not_le.mpr (mul_pos ha hb)
  have hs : 0 < a + b := add_pos ha hb
  have hsq : Real.sqrt (a * b) * Real.sqrt (a * b) = a * b := Real.mul_self_sqrt (le_of_lt (mul_pos ha hb))
  have hpos : 0 < Real.sqrt (a * b) := Real.sqrt_pos.mpr (mul_pos ha hb)
  have hga : Real.sqrt (a * b) ≤ (a + b) * (1 / 2) := by
    rw [Real.sqrt_le_left (by positivity)]
    nlinarith [sq_nonneg (a - b)]
  simp only [harmonicAverage, geometricAverage, arithmeticAverage, if_neg hab]
  refine ⟨?_, ?_, hga, ?_⟩
  · rw [le_div_iff₀ hs]
    rcases le_total a b with h | h
    · rw [min_eq_left h]; nlinarith
    · rw [min_eq_right h]; nlinarith
  · rw [div_le_iff₀ hs]
    have : 2 * a * b = 2 * (Real.sqrt (a * b) * Real.sqrt (a * b)) := by rw [hsq]; ring
    rw [this]
    nlinarith
  · rcases le_total a b with h | h
    · rw [max_eq_right h]; linarith
    · rw [max_eq_left h]; linarith

/-- The averages are symmetric in their arguments. -/
theorem C23_symmetric (a b : ℝ) :
    arithmeticAverage a b = arithmeticAverage b a ∧ geometricAverage a b = geometricAverage b a ∧
    harmonicAverage a b = harmonicAverage b a := by
  refine ⟨?_, ?_, ?_⟩
  · simp only [arithmeticAverage, add_comm]
  · simp only [geometricAverage, mul_comm]
  · simp only [harmonicAverage, mul_comm b a, add_comm b a, show 2 * b * a = 2 * a * b by ring]

/-- Harmonic and geometric averages vanish exactly when the product is not positive or, for the harmonic one, never
otherwise. -/
theorem C23_vanish (a b : ℝ) :
    (geometricAverage a b = 0 ↔ a * b ≤ 0) ∧ (harmonicAverage a b = 0 ↔ a * b ≤ 0) := by
  by_cases h : a * b ≤ 0
  · simp [geometricAverage, harmonicAverage, h]
  · have hp : 0 < a * b := not_le.mp h
    have h1 : a ≠ 0 := fun e => by simp [e] at hp
    have h2 : b ≠ 0 := fun e => by simp [e] at hp
    have h3 : a + b ≠ 0 := by
      intro e
      have : b = -a := by linarith
      subst this
      nlinarith [sq_nonneg a]
    simp only [geometricAverage, harmonicAverage, if_neg h]
    refine ⟨⟨fun e => ?_, fun e => absurd e h⟩, ⟨fun e => ?_, fun e => absurd e h⟩⟩
    · exact absurd e (ne_of_gt (Real.sqrt_pos.mpr hp))
    · rw [div_eq_zero_iff] at e
      rcases e with e | e
      · simp [h1, h2] at e
      · exact absurd e h3

/-- The defining equations: the arithmetic average is half the sum, the geometric one squares to the product, the
reciprocal of the harmonic one is the mean of the reciprocals; equal arguments are reproduced. -/
theorem C23_defining (a b : ℝ) (ha : 0 < a) (hb : 0 < b) :
    2 * arithmeticAverage a b = a + b ∧ geometricAverage a b ^ 2 = a * b ∧
    1 / harmonicAverage a b = (1 / a + 1 / b) / 2 ∧
    arithmeticAverage a a = a ∧ geometricAverage a a = a ∧ harmonicAverage a a = a := by
  have hab : ¬ a * b ≤ 0 := not_le.mpr (mul_pos ha hb)
  have haa : ¬ a * a ≤ 0 := not_le.mpr (mul_pos ha ha)
  simp only [harmonicAverage, geometricAverage, arithmeticAverage, if_neg hab, if_neg haa]
  refine ⟨by ring, ?_, ?_, by ring, ?_, ?_⟩
  · exact Real.sq_sqrt (le_of_lt (mul_pos ha hb))
  · field_simp
    ring
  · exact Real.sqrt_mul_self (le_of_lt ha)
  · field_simp
    ring

example : harmonicAverage 1 3 = 3 / 2 ∧ arithmeticAverage 1 3 = 2 ∧ harmonicAverage (-1) 3 = 0 := by
  refine ⟨?_, ?_, ?_⟩ <;> norm_num [harmonicAverage, arithmeticAverage]

example : (1 : ℝ) ≤ harmonicAverage 1 3 := by
  have := (C23_chain 1 3 (by norm_num) (by norm_num)).1
  simpa using this

end Verif.Average
