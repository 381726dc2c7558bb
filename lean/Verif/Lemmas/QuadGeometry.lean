import Verif.Model.QuadGeometry
import Verif.Spec.QuadGeometry
import Mathlib.Algebra.Order.Archimedean.Basic
import Mathlib.Tactic.Ring
import Mathlib.Tactic.Linarith
import Mathlib.Tactic.Positivity
import Mathlib.Tactic.FieldSimp
import Mathlib.Tactic.LinearCombination
import Mathlib.Tactic.NormNum

/-! Auxiliary facts about the geometry of quads. -/

namespace Verif.QuadGeo

open Spec

variable {K : Type} [Field K]

theorem global_eq (c : Fin 4 → K × K) (l : K × K) :
    global c l = ((1 - l.1) * (1 - l.2) * (c 0).1 + l.1 * (1 - l.2) * (c 1).1 + (1 - l.1) * l.2 * (c 2).1 + l.1 * l.2 * (c 3).1,
   (1 - l.1) * (1 - l.2) * (c 0).2 + l.1 * (1 - l.2) * (c 1).2 + (1 - l.1) * l.2 * (c 2).2 + l.1 * l.2 * (c 3).2) := by
  change ((0 : K) + (c 0).1 * (1 * (1 - l.1) * (1 - l.2)) + (c 1).1 * (1 * l.1 * (1 - l.2)) + (c 2).1 * (1 * (1 - l.1) * l.2) +
    (c 3).1 * (1 * l.1 * l.2), (0 : K) + (c 0).2 * (1 * (1 - l.1) * (1 - l.2)) + (c 1).2 * (1 * l.1 * (1 - l.2)) +
    (c 2).2 * (1 * (1 - l.1) * l.2) + (c 3).2 * (1 * l.1 * l.2)) = _
  refine Prod.ext ?_ ?_ <;> dsimp only <;> ring

theorem row0_eq (c : Fin 4 → K × K) (l : K × K) : jacobianTransposed c l 0 =
    ((1 - l.2) * ((c 1).1 - (c 0).1) + l.2 * ((c 3).1 - (c 2).1), (1 - l.2) * ((c 1).2 - (c 0).2) + l.2 * ((c 3).2 - (c 2).2)) := by
  change ((0 : K) + (c 0).1 * (1 * -1 * (1 - l.2)) + (c 1).1 * (1 * 1 * (1 - l.2)) + (c 2).1 * (1 * -1 * l.2) + (c 3).1 * (1 * 1 * l.2),
    (0 : K) + (c 0).2 * (1 * -1 * (1 - l.2)) + (c 1).2 * (1 * 1 * (1 - l.2)) + (c 2).2 * (1 * -1 * l.2) + (c 3).2 * (1 * 1 * l.2)) = _
  refine Prod.ext ?_ ?_ <;> dsimp only <;> ring

theorem row1_eq (c : Fin 4 → K × K) (l : K × K) : jacobianTransposed c l 1 =
    ((1 - l.1) * ((c 2).1 - (c 0).1) + l.1 * ((c 3).1 - (c 1).1), (1 - l.1) * ((c 2).2 - (c 0).2) + l.1 * ((c 3).2 - (c 1).2)) := by
  change ((0 : K) + (c 0).1 * (1 * (1 - l.1) * -1) + (c 1).1 * (1 * l.1 * -1) + (c 2).1 * (1 * (1 - l.1) * 1) + (c 3).1 * (1 * l.1 * 1),
    (0 : K) + (c 0).2 * (1 * (1 - l.1) * -1) + (c 1).2 * (1 * l.1 * -1) + (c 2).2 * (1 * (1 - l.1) * 1) + (c 3).2 * (1 * l.1 * 1)) = _
  refine Prod.ext ?_ ?_ <;> dsimp only <;> ring

/-- First component of the direction of the errors. -/
def w0 (c : Fin 4 → K × K) : K :=
  ((c 0).1 - (c 1).1 - (c 2).1 + (c 3).1) * ((c 2).2 - (c 0).2) - ((c 2).1 - (c 0).1) * ((c 0).2 - (c 1).2 - (c 2).2 + (c 3).2)

/-- Second component of the direction of the errors. -/
def w1 (c : Fin 4 → K × K) : K :=
  ((c 1).1 - (c 0).1) * ((c 0).2 - (c 1).2 - (c 2).2 + (c 3).2) - ((c 0).1 - (c 1).1 - (c 2).1 + (c 3).1) * ((c 1).2 - (c 0).2)

/-- The determinant of the Jacobian. -/
def dt (c : Fin 4 → K × K) (l : K × K) : K := det2 (jacobianTransposed c l 0) (jacobianTransposed c l 1)

theorem dt_eq (c : Fin 4 → K × K) (l : K × K) : dt c l = cross (c 0) (c 1) (c 2) + l.2 * w0 c + l.1 * w1 c := by
  unfold dt det2 cross w0 w1
  rw [row0_eq, row1_eq]
  ring

theorem dt_corner (c : Fin 4 → K × K) : dt c (0, 0) = cross (c 0) (c 1) (c 2) ∧ dt c (1, 0) = cross (c 1) (c 3) (c 0) ∧
    dt c (1, 1) = cross (c 3) (c 2) (c 1) ∧ dt c (0, 1) = cross (c 2) (c 0) (c 3) := by
  unfold dt det2 cross
  simp only [row0_eq, row1_eq]
  refine ⟨?_, ?_, ?_, ?_⟩ <;> ring

/-- One Newton step from `x` towards `p`. -/
theorem step_err [LinearOrder K] (c : Fin 4 → K × K) (p x : K × K) (h : dt c x ≠ 0) :
    ∃ dx, newtonStep c (global c p) x = some dx ∧
      x.1 - dx.1 - p.1 = (x.1 - p.1) * (x.2 - p.2) / dt c x * w0 c ∧ x.2 - dx.2 - p.2 = (x.1 - p.1) * (x.2 - p.2) / dt c x * w1 c := by
  unfold newtonStep
  dsimp only
  rw [if_neg (by exact h)]
  refine ⟨_, rfl, ?_, ?_⟩
  · change x.1 - _ / dt c x - p.1 = _
    rw [div_mul_eq_mul_div, eq_div_iff h, sub_mul, sub_mul, div_mul_cancel₀ _ h]
    unfold dt det2 w0
    rw [row0_eq, row1_eq, global_eq, global_eq]
    ring
  · change x.2 - _ / dt c x - p.2 = _
    rw [div_mul_eq_mul_div, eq_div_iff h, sub_mul, sub_mul, div_mul_cancel₀ _ h]
    unfold dt det2 w1
    rw [row0_eq, row1_eq, global_eq, global_eq]
    ring

variable [LinearOrder K] [IsStrictOrderedRing K]

theorem small_of_sq {a b e : K} (he : 0 ≤ e) (h : a * a + b * b ≤ e * e) : |a| ≤ e ∧ |b| ≤ e := by
  refine ⟨abs_le_of_sq_le_sq ?_ he, abs_le_of_sq_le_sq ?_ he⟩
  · nlinarith [mul_self_nonneg b]
  · nlinarith [mul_self_nonneg a]

/-- A step from a point on the line through `p` in the direction `w`. -/
theorem line_step (c : Fin 4 → K × K) (p : K × K) (s : K) (hp : 0 < s * dt c p) (t : K) (x : K × K) (hx0 : x.1 - p.1 = t * w0 c)
    (hx1 : x.2 - p.2 = t * w1 c) (hd : 0 < s * dt c x) :
    ∃ (dx : K × K) (r : K), newtonStep c (global c p) x = some dx ∧ x.1 - dx.1 - p.1 = t * r * w0 c ∧ x.2 - dx.2 - p.2 = t * r * w1 c ∧
      dx.1 = (1 - r) * (t * w0 c) ∧ dx.2 = (1 - r) * (t * w1 c) ∧ r ≤ 1 / 2 ∧ 0 ≤ s * (w0 c * w1 c * (t * r)) ∧
      (0 ≤ s * (w0 c * w1 c * t) → 0 ≤ r) := by
  have hne : dt c x ≠ 0 := by rintro h; rw [h, mul_zero] at hd; exact lt_irrefl _ hd
  have hs : s ≠ 0 := by rintro h; rw [h, zero_mul] at hd; exact lt_irrefl _ hd
  have hdx : dt c x = dt c p + 2 * (w0 c * w1 c * t) := by
    rw [dt_eq, dt_eq]
    linear_combination w1 c * hx0 + w0 c * hx1
  obtain ⟨dx, e, h0, h1⟩ := step_err c p x hne
  have hr : w0 c * w1 c * t / dt c x = s * (w0 c * w1 c * t) / (s * dt c x) := by
    rw [mul_div_mul_left _ _ hs]
  refine ⟨dx, w0 c * w1 c * t / dt c x, e, ?_, ?_, ?_, ?_, ?_, ?_, ?_⟩
  · rw [h0, hx0, hx1]; ring
  · rw [h1, hx0, hx1]; ring
  · have : dx.1 = x.1 - p.1 - (x.1 - dx.1 - p.1) := by ring
    rw [this, h0, hx0, hx1]; ring
  · have : dx.2 = x.2 - p.2 - (x.2 - dx.2 - p.2) := by ring
    rw [this, h1, hx0, hx1]; ring
  · rw [hr, div_le_iff₀ hd, hdx]
    nlinarith
  · have : s * (w0 c * w1 c * (t * (w0 c * w1 c * t / dt c x))) = (w0 c * w1 c * t) * (w0 c * w1 c * t) * (s * s) / (s * dt c x) := by
      field_simp
    rw [this]
    exact div_nonneg (mul_nonneg (mul_self_nonneg _) (mul_self_nonneg _)) hd.le
  · intro h
    rw [hr]
    exact div_nonneg h hd.le

/-- When the loop stops after a step along the line the result is close. -/
theorem stop_close {t r a b eps : K} (he : 0 ≤ eps) (hr : r ≤ 1 / 2)
    (h : (1 - r) * (t * a) * ((1 - r) * (t * a)) + (1 - r) * (t * b) * ((1 - r) * (t * b)) ≤ eps * eps) :
    |t * r * a| ≤ eps ∧ |t * r * b| ≤ eps := by
  obtain ⟨h0, h1⟩ := small_of_sq he h
  have hab : |r| ≤ |1 - r| := by
    rw [abs_of_nonneg (by linarith : (0 : K) ≤ 1 - r), abs_le]
    constructor <;> linarith
  constructor
  · refine le_trans ?_ h0
    rw [show t * r * a = r * (t * a) by ring, abs_mul r, abs_mul (1 - r)]
    exact mul_le_mul_of_nonneg_right hab (abs_nonneg _)
  · refine le_trans ?_ h1
    rw [show t * r * b = r * (t * b) by ring, abs_mul r, abs_mul (1 - r)]
    exact mul_le_mul_of_nonneg_right hab (abs_nonneg _)

/-- Later passes: the error is `t • w`. `s` is the sign of the orientation. -/
theorem late (c : Fin 4 → K × K) (p : K × K) (s : K) (hp : 0 < s * dt c p) :
    ∀ (N : Nat) (t : K) (x : K × K), x.1 - p.1 = t * w0 c → x.2 - p.2 = t * w1 c → 0 ≤ s * (w0 c * w1 c * t) →
      |t * w0 c| ≤ (1 / 10 ^ 10) / 2 * 2 ^ N → |t * w1 c| ≤ (1 / 10 ^ 10) / 2 * 2 ^ N → ∀ fuel, N + 1 ≤ fuel →
      ∃ x', localLoop c (global c p) fuel x = .done x' ∧ |x'.1 - p.1| ≤ 1 / 10 ^ 10 ∧ |x'.2 - p.2| ≤ 1 / 10 ^ 10 := by
  have heps : (0 : K) < 1 / 10 ^ 10 := by positivity
  intro N
  induction N with
  | zero =>
    intro t x hx0 hx1 hst h0 h1 fuel hf
    obtain ⟨f, rfl⟩ : ∃ f, fuel = f + 1 := ⟨fuel - 1, by omega⟩
    have hdx : dt c x = dt c p + 2 * (w0 c * w1 c * t) := by
      rw [dt_eq, dt_eq]
      linear_combination w1 c * hx0 + w0 c * hx1
    obtain ⟨dx, r, e, e0, e1, d0, d1, hr, -, hr0⟩ := line_step c p s hp t x hx0 hx1 (by rw [hdx]; linarith)
    have hr0 := hr0 hst
    have hstop : dx.1 * dx.1 + dx.2 * dx.2 ≤ (1 / 10 ^ 10) * (1 / 10 ^ 10) := by
      have a0 : |dx.1| ≤ (1 / 10 ^ 10) / 2 := by
        rw [d0, abs_mul, abs_of_nonneg (by linarith : (0 : K) ≤ 1 - r)]
        rw [pow_zero, mul_one] at h0
        nlinarith [abs_nonneg (t * w0 c)]
      have a1 : |dx.2| ≤ (1 / 10 ^ 10) / 2 := by
        rw [d1, abs_mul, abs_of_nonneg (by linarith : (0 : K) ≤ 1 - r)]
        rw [pow_zero, mul_one] at h1
        nlinarith [abs_nonneg (t * w1 c)]
      rw [← abs_mul_abs_self dx.1, ← abs_mul_abs_self dx.2]
      nlinarith [abs_nonneg dx.1, abs_nonneg dx.2]
    refine ⟨(x.1 - dx.1, x.2 - dx.2), ?_, ?_⟩
    · unfold localLoop
      rw [e]
      dsimp only
      rw [if_neg (not_lt.mpr hstop)]
    · rw [d0, d1] at hstop
      dsimp only
      rw [e0, e1]
      exact stop_close heps.le hr hstop
  | succ N ih =>
    intro t x hx0 hx1 hst h0 h1 fuel hf
    obtain ⟨f, rfl⟩ : ∃ f, fuel = f + 1 := ⟨fuel - 1, by omega⟩
    have hdx : dt c x = dt c p + 2 * (w0 c * w1 c * t) := by
      rw [dt_eq, dt_eq]
      linear_combination w1 c * hx0 + w0 c * hx1
    obtain ⟨dx, r, e, e0, e1, d0, d1, hr, hn, hr0⟩ := line_step c p s hp t x hx0 hx1 (by rw [hdx]; linarith)
    have hr0 := hr0 hst
    unfold localLoop
    rw [e]
    dsimp only
    by_cases hstop : dx.1 * dx.1 + dx.2 * dx.2 > (1 / 10 ^ 10) * (1 / 10 ^ 10)
    · rw [if_pos hstop]
      refine ih (t * r) _ e0 e1 hn ?_ ?_ f (by omega)
      · rw [show t * r * w0 c = r * (t * w0 c) by ring, abs_mul, abs_of_nonneg hr0]
        rw [pow_succ 2 N, ← mul_assoc] at h0
        generalize (1 / 10 ^ 10 : K) / 2 * 2 ^ N = q at h0 ⊢
        nlinarith [abs_nonneg (t * w0 c)]
      · rw [show t * r * w1 c = r * (t * w1 c) by ring, abs_mul, abs_of_nonneg hr0]
        rw [pow_succ 2 N, ← mul_assoc] at h1
        generalize (1 / 10 ^ 10 : K) / 2 * 2 ^ N = q at h1 ⊢
        nlinarith [abs_nonneg (t * w1 c)]
    · rw [if_neg hstop]
      refine ⟨_, rfl, ?_⟩
      rw [gt_iff_lt, not_lt, d0, d1] at hstop
      dsimp only
      rw [e0, e1]
      exact stop_close heps.le hr hstop

theorem convex_sign (c : Fin 4 → K × K) (h : Convex c) : ∃ s : K, s * s = 1 ∧ (0 < s * dt c (0, 0) ∧ 0 < s * dt c (1, 0) ∧
    0 < s * dt c (1, 1) ∧ 0 < s * dt c (0, 1)) := by
  obtain ⟨a, b, d, e⟩ := dt_corner c
  rw [a, b, d, e]
  rcases h with ⟨h0, h1, h2, h3⟩ | ⟨h0, h1, h2, h3⟩
  · exact ⟨1, by ring, by linarith, by linarith, by linarith, by linarith⟩
  · exact ⟨-1, by ring, by linarith, by linarith, by linarith, by linarith⟩

theorem convex_inside (c : Fin 4 → K × K) (s : K) (h : 0 < s * dt c (0, 0) ∧ 0 < s * dt c (1, 0) ∧ 0 < s * dt c (1, 1) ∧
    0 < s * dt c (0, 1)) (p : K × K) (hp : InSquare p) : 0 < s * dt c p := by
  obtain ⟨h0, h1, h2, h3⟩ := h
  obtain ⟨p0, p1, p2, p3⟩ := hp
  have e : s * dt c p = (1 - p.1) * ((1 - p.2) * (s * dt c (0, 0)) + p.2 * (s * dt c (0, 1))) +
      p.1 * ((1 - p.2) * (s * dt c (1, 0)) + p.2 * (s * dt c (1, 1))) := by
    simp only [dt_eq]
    ring
  rw [e]
  have low : ∀ a b t : K, 0 < a → 0 < b → 0 ≤ t → t ≤ 1 → 0 < (1 - t) * a + t * b := by
    intro a b t ha hb ht ht1
    rcases ht.eq_or_lt with rfl | ht
    · simpa using ha
    · have := mul_pos ht hb
      have := mul_nonneg (sub_nonneg.mpr ht1) ha.le
      linarith
  exact low _ _ _ (low _ _ _ h0 h3 p2 p3) (low _ _ _ h1 h2 p2 p3) p0 p1

/-- The determinant after the first step from the centre. -/
theorem first_pos {al be d : K} (h : |al| + |be| < d) : 0 < d * d - (al + be) * d + 2 * (al * be) := by
  have key : ∀ t q : K, 0 ≤ t → 0 ≤ q → t + q < d → 0 < d * d - (t - q) * d - 2 * (t * q) := by
    intro t q ht hq hd
    by_cases h2 : 2 * t ≤ d
    · nlinarith
    · push Not at h2
      nlinarith [mul_pos (sub_pos.mpr hd) (sub_pos.mpr h2)]
  rcases le_total 0 al with ha | ha <;> rcases le_total 0 be with hb | hb
  · rw [abs_of_nonneg ha, abs_of_nonneg hb] at h
    nlinarith [mul_nonneg ha hb, mul_pos (by linarith : 0 < d - al) (by linarith : 0 < d - be)]
  · rw [abs_of_nonneg ha, abs_of_nonpos hb] at h
    have := key al (-be) ha (by linarith) h
    linarith
  · rw [abs_of_nonpos ha, abs_of_nonneg hb] at h
    have := key be (-al) hb (by linarith) (by linarith)
    linarith
  · rw [abs_of_nonpos ha, abs_of_nonpos hb] at h
    nlinarith [mul_nonneg_of_nonpos_of_nonpos ha hb]

theorem abs_add_lt {a b d : K} (h0 : a + b < d) (h1 : a - b < d) (h2 : -a + b < d) (h3 : -a - b < d) : |a| + |b| < d := by
  rcases le_total 0 a with ha | ha <;> rcases le_total 0 b with hb | hb
  all_goals first | rw [abs_of_nonneg ha] | rw [abs_of_nonpos ha]
  all_goals first | rw [abs_of_nonneg hb] | rw [abs_of_nonpos hb]
  all_goals linarith

theorem first_small {a b W0 W1 d0 d1 eps : K} (ha : a ≤ 1 / 2) (hb : b ≤ 1 / 2) (ha0 : 0 ≤ a) (hb0 : 0 ≤ b)
    (hA : W0 + W1 ≤ 2 * (a * b)) (hB : a ≤ W0 + d0) (hC : b ≤ W1 + d1) (h0 : d0 ≤ eps) (h1 : d1 ≤ eps) : W0 + W1 ≤ 2 * eps := by
  have : 4 * (a * b) ≤ a + b := by nlinarith
  linarith

/-- The run from the centre. -/
theorem run_converges [Archimedean K] (c : Fin 4 → K × K) (hc : Convex c) (p : K × K) (hp : InSquare p) :
    ∃ N, ∀ fuel, N ≤ fuel → ∃ x, localRun c (global c p) fuel = .done x ∧ |x.1 - p.1| ≤ 2 * (1 / 10 ^ 10) ∧ |x.2 - p.2| ≤ 2 * (1 / 10 ^ 10) := by
  have heps : (0 : K) < 1 / 10 ^ 10 := by positivity
  obtain ⟨s, hs, hcor⟩ := convex_sign c hc
  have hpos := convex_inside c s hcor p hp
  obtain ⟨p0, p1, p2, p3⟩ := hp
  -- the centre
  set m : K × K := (1 / 2, 1 / 2) with hm
  have hdm : 0 < s * dt c m := convex_inside c s hcor m ⟨by simp [hm], by norm_num [hm], by simp [hm], by norm_num [hm]⟩
  have hs0 : s ≠ 0 := by rintro rfl; simp at hs
  have hne : dt c m ≠ 0 := by rintro h; rw [h, mul_zero] at hdm; exact lt_irrefl _ hdm
  obtain ⟨dx, e, e0, e1⟩ := step_err c p m hne
  set tau : K := (m.1 - p.1) * (m.2 - p.2) / dt c m with htau
  set x1 : K × K := (m.1 - dx.1, m.2 - dx.2) with hx1
  -- size of the direction
  have hw : |s * w0 c| + |s * w1 c| < 2 * (s * dt c m) := by
    obtain ⟨g0, g1, g2, g3⟩ := hcor
    simp only [dt_eq, hm] at g0 g1 g2 g3 ⊢
    apply abs_add_lt <;> linarith
  have hm0 : |m.1 - p.1| ≤ 1 / 2 := by rw [abs_le]; simp only [hm]; constructor <;> linarith
  have hm1 : |m.2 - p.2| ≤ 1 / 2 := by rw [abs_le]; simp only [hm]; constructor <;> linarith
  have hdt : ∀ (x : K × K) (t : K), x.1 - p.1 = t * w0 c → x.2 - p.2 = t * w1 c → dt c x = dt c p + 2 * (w0 c * w1 c * t) := by
    intro x t a b
    rw [dt_eq, dt_eq]
    linear_combination w1 c * a + w0 c * b
  have hd1 : 0 < s * dt c x1 := by
    have hprod : s * dt c x1 * (s * dt c m) = s * dt c m * (s * dt c m) -
        (s * w0 c * (m.2 - p.2) + s * w1 c * (m.1 - p.1)) * (s * dt c m) + 2 * (s * w0 c * (m.2 - p.2) * (s * w1 c * (m.1 - p.1))) := by
      have a : dt c p = dt c m - w0 c * (m.2 - p.2) - w1 c * (m.1 - p.1) := by rw [dt_eq, dt_eq]; ring
      have b : tau * dt c m = (m.1 - p.1) * (m.2 - p.2) := by rw [htau, div_mul_cancel₀ _ hne]
      rw [hdt x1 tau e0 e1, a]
      linear_combination s * s * 2 * w0 c * w1 c * b
    have hsum : |s * w0 c * (m.2 - p.2)| + |s * w1 c * (m.1 - p.1)| < s * dt c m := by
      rw [abs_mul, abs_mul (s * w1 c)]
      nlinarith [abs_nonneg (s * w0 c), abs_nonneg (s * w1 c)]
    have := first_pos hsum
    rw [← hprod] at this
    exact (mul_pos_iff_of_pos_right hdm).mp this
  -- second step
  obtain ⟨dx2, r, f, f0, f1, d0, d1, hr, hn, -⟩ := line_step c p s hpos tau x1 e0 e1 hd1
  obtain ⟨N, hN⟩ : ∃ N : Nat, |tau * r * w0 c| + |tau * r * w1 c| ≤ (1 / 10 ^ 10) / 2 * 2 ^ N := by
    obtain ⟨N, hN⟩ := pow_unbounded_of_one_lt ((|tau * r * w0 c| + |tau * r * w1 c|) / ((1 / 10 ^ 10) / 2)) (one_lt_two : (1 : K) < 2)
    refine ⟨N, ?_⟩
    have := (div_lt_iff₀ (by positivity)).mp hN
    linarith
  refine ⟨N + 3, fun fuel hf => ?_⟩
  obtain ⟨k, rfl⟩ : ∃ k, fuel = k + 2 := ⟨fuel - 2, by omega⟩
  unfold localRun localLoop
  rw [← hm, e]
  dsimp only
  by_cases hstop : dx.1 * dx.1 + dx.2 * dx.2 > (1 / 10 ^ 10) * (1 / 10 ^ 10)
  · rw [if_pos hstop]
    unfold localLoop
    rw [← hx1, f]
    dsimp only
    by_cases hstop2 : dx2.1 * dx2.1 + dx2.2 * dx2.2 > (1 / 10 ^ 10) * (1 / 10 ^ 10)
    · rw [if_pos hstop2]
      obtain ⟨x, hx, a, b⟩ := late c p s hpos N (tau * r) (x1.1 - dx2.1, x1.2 - dx2.2) f0 f1 hn
        (by linarith [abs_nonneg (tau * r * w1 c)]) (by linarith [abs_nonneg (tau * r * w0 c)]) k (by omega)
      exact ⟨x, hx, by linarith, by linarith⟩
    · rw [if_neg hstop2]
      refine ⟨_, rfl, ?_⟩
      rw [gt_iff_lt, not_lt, d0, d1] at hstop2
      dsimp only
      rw [f0, f1]
      obtain ⟨a, b⟩ := stop_close heps.le hr hstop2
      exact ⟨by linarith, by linarith⟩
  · rw [if_neg hstop]
    refine ⟨_, rfl, ?_⟩
    obtain ⟨a, b⟩ := small_of_sq heps.le (not_lt.mp hstop)
    dsimp only
    rw [e0, e1]
    -- the errors are at most the increments, in the sum norm
    have hq : ∀ w : K, |tau * w| * (s * dt c m) = |m.1 - p.1| * |m.2 - p.2| * |s * w| := by
      intro w
      have : tau * dt c m = (m.1 - p.1) * (m.2 - p.2) := by rw [htau, div_mul_cancel₀ _ hne]
      rw [← abs_of_pos hdm, ← abs_mul, ← abs_mul, ← abs_mul]
      congr 1
      linear_combination s * w * this
    have hA : |tau * w0 c| + |tau * w1 c| ≤ 2 * (|m.1 - p.1| * |m.2 - p.2|) := by
      have h1 : (|tau * w0 c| + |tau * w1 c|) * (s * dt c m) ≤ 2 * (|m.1 - p.1| * |m.2 - p.2|) * (s * dt c m) := by
        rw [add_mul, hq, hq]
        nlinarith [mul_nonneg (abs_nonneg (m.1 - p.1)) (abs_nonneg (m.2 - p.2))]
      exact le_of_mul_le_mul_right h1 hdm
    have hB : |m.1 - p.1| ≤ |tau * w0 c| + |dx.1| := by
      have : m.1 - p.1 = tau * w0 c + dx.1 := by linear_combination e0
      calc |m.1 - p.1| = |tau * w0 c + dx.1| := by rw [← this]
        _ ≤ _ := abs_add_le _ _
    have hC : |m.2 - p.2| ≤ |tau * w1 c| + |dx.2| := by
      have : m.2 - p.2 = tau * w1 c + dx.2 := by linear_combination e1
      calc |m.2 - p.2| = |tau * w1 c + dx.2| := by rw [← this]
        _ ≤ _ := abs_add_le _ _
    have hD := first_small hm0 hm1 (abs_nonneg _) (abs_nonneg _) hA hB hC a b
    have n0 := abs_nonneg (tau * w0 c)
    have n1 := abs_nonneg (tau * w1 c)
    exact ⟨by linarith only [hD, n1], by linarith only [hD, n0]⟩

end Verif.QuadGeo
