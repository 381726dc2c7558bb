import Verif.Lemmas.QuadGeometry
import Verif.Props.Shape
import Verif.Props.BoundaryUniform
import Mathlib.Data.Rat.Defs
import Mathlib.Algebra.Order.Archimedean.Basic
import Mathlib.Data.Rat.Floor

/-! C105: the geometry of boundary quads and the local coupling matrices. -/

namespace Verif.QuadGeo

open Spec Verif.Shape

variable {K : Type} [Field K] [LinearOrder K] [IsStrictOrderedRing K]

/-- C105: the map to global coordinates is the bilinear interpolation of the corners; it takes the corners of the square to the corners, and every half plane
that holds the corners holds the image of the square. -/
theorem C105_map (c : Fin 4 → K × K) :
    (∀ p, global c p = blend c p) ∧ global c (0, 0) = c 0 ∧ global c (1, 0) = c 1 ∧ global c (0, 1) = c 2 ∧ global c (1, 1) = c 3 ∧
    ∀ (p : K × K) (a b d : K), InSquare p → (∀ i, a * (c i).1 + b * (c i).2 ≤ d) → a * (global c p).1 + b * (global c p).2 ≤ d := by
  refine ⟨fun p => global_eq c p, ?_, ?_, ?_, ?_, ?_⟩
  · rw [global_eq]; refine Prod.ext ?_ ?_ <;> dsimp only <;> ring
  · rw [global_eq]; refine Prod.ext ?_ ?_ <;> dsimp only <;> ring
  · rw [global_eq]; refine Prod.ext ?_ ?_ <;> dsimp only <;> ring
  · rw [global_eq]; refine Prod.ext ?_ ?_ <;> dsimp only <;> ring
  · rintro ⟨u, v⟩ a b d ⟨hu, hu1, hv, hv1⟩ h
    rw [global_eq]
    dsimp only at *
    have e : a * ((1 - u) * (1 - v) * (c 0).1 + u * (1 - v) * (c 1).1 + (1 - u) * v * (c 2).1 + u * v * (c 3).1) +
        b * ((1 - u) * (1 - v) * (c 0).2 + u * (1 - v) * (c 1).2 + (1 - u) * v * (c 2).2 + u * v * (c 3).2) =
        (1 - u) * (1 - v) * (a * (c 0).1 + b * (c 0).2) + u * (1 - v) * (a * (c 1).1 + b * (c 1).2) +
        (1 - u) * v * (a * (c 2).1 + b * (c 2).2) + u * v * (a * (c 3).1 + b * (c 3).2) := by ring
    rw [e]
    have h0 := mul_le_mul_of_nonneg_left (h 0) (mul_nonneg (sub_nonneg.mpr hu1) (sub_nonneg.mpr hv1))
    have h1 := mul_le_mul_of_nonneg_left (h 1) (mul_nonneg hu (sub_nonneg.mpr hv1))
    have h2 := mul_le_mul_of_nonneg_left (h 2) (mul_nonneg (sub_nonneg.mpr hu1) hv)
    have h3 := mul_le_mul_of_nonneg_left (h 3) (mul_nonneg hu hv)
    have : (1 - u) * (1 - v) * d + u * (1 - v) * d + (1 - u) * v * d + u * v * d = d := by ring
    linarith

/-- C105: row `d` of the transposed Jacobian is the rate of change along direction `d`, exactly and for every step. The reported inverse is an inverse of it, and
it is refused exactly where the Jacobian is singular. -/
theorem C105_jacobian (c : Fin 4 → K × K) (p : K × K) :
    (∀ h : K, global c (p.1 + h, p.2) = ((global c p).1 + h * (jacobianTransposed c p 0).1, (global c p).2 + h * (jacobianTransposed c p 0).2) ∧
      global c (p.1, p.2 + h) = ((global c p).1 + h * (jacobianTransposed c p 1).1, (global c p).2 + h * (jacobianTransposed c p 1).2)) ∧
    (∀ M, jacobianInverseTransposed c p = some M → ∀ i j : Fin 2,
      (jacobianTransposed c p i).1 * M 0 j + (jacobianTransposed c p i).2 * M 1 j = if i = j then 1 else 0) ∧
    (jacobianInverseTransposed c p = none ↔ integrationElement c p = 0) := by
  refine ⟨fun h => ?_, ?_, ?_⟩
  · rw [global_eq, global_eq, global_eq, row0_eq, row1_eq]
    constructor <;> refine Prod.ext ?_ ?_ <;> dsimp only <;> ring
  · intro M hM
    unfold jacobianInverseTransposed at hM
    dsimp only at hM
    split at hM
    · exact absurd hM (by simp)
    next hd =>
    have hM := Option.some.inj hM
    subst hM
    unfold det2 at hd ⊢
    intro i j
    rcases i with ⟨i, hi⟩
    rcases j with ⟨j, hj⟩
    have hi' : i = 0 ∨ i = 1 := by omega
    have hj' : j = 0 ∨ j = 1 := by omega
    rcases hi' with rfl | rfl <;> rcases hj' with rfl | rfl
    · change (jacobianTransposed c p 0).1 * (_ / _) + (jacobianTransposed c p 0).2 * (_ / _) = 1
      field_simp
      ring
    · change (jacobianTransposed c p 0).1 * (_ / _) + (jacobianTransposed c p 0).2 * (_ / _) = 0
      field_simp
      ring
    · change (jacobianTransposed c p 1).1 * (_ / _) + (jacobianTransposed c p 1).2 * (_ / _) = 0
      field_simp
      ring
    · change (jacobianTransposed c p 1).1 * (_ / _) + (jacobianTransposed c p 1).2 * (_ / _) = 1
      field_simp
      ring
  · unfold jacobianInverseTransposed integrationElement
    dsimp only
    rw [abs_eq_zero]
    split <;> simp_all

theorem element_eq (c : Fin 4 → K × K) (p : K × K) : integrationElement c p = |dt c p| := rfl

theorem area_eq (c : Fin 4 → K × K) (s : K) (hs : s * s = 1) (h : 0 < s * dt c (0, 0) ∧ 0 < s * dt c (1, 0) ∧ 0 < s * dt c (1, 1) ∧
    0 < s * dt c (0, 1)) : area c = s * dt c (1 / 2, 1 / 2) := by
  obtain ⟨h0, h1, h2, h3⟩ := h
  have e1 : cross (c 0) (c 1) (c 3) = dt c (1, 0) := by
    rw [(dt_corner c).2.1]; unfold cross; ring
  have e2 : cross (c 0) (c 3) (c 2) = dt c (0, 1) := by
    rw [(dt_corner c).2.2.2]; unfold cross; ring
  have ab : ∀ a : K, 0 < s * a → |a| = s * a := by
    intro a ha
    have hs1 : |s| = 1 := by
      have := abs_mul_abs_self s
      rw [hs] at this
      nlinarith [abs_nonneg s]
    calc |a| = |s| * |a| := by rw [hs1, one_mul]
      _ = |s * a| := (abs_mul _ _).symm
      _ = s * a := abs_of_pos ha
  unfold area
  rw [e1, e2, ab _ h1, ab _ h3]
  simp only [dt_eq]
  ring

theorem sum_affine (rule : List ((K × K) × K)) (a b d : K) :
    (rule.map fun r => r.2 * (a + r.1.2 * b + r.1.1 * d)).sum =
      a * (rule.map fun r => r.2).sum + b * (rule.map fun r => r.2 * r.1.2).sum + d * (rule.map fun r => r.2 * r.1.1).sum := by
  induction rule with
  | nil => simp
  | cons r l ih =>
    simp only [List.map_cons, List.sum_cons, ih]
    ring

theorem element_area (c : Fin 4 → K × K) (h : Convex c) (rule : List ((K × K) × K)) (hr : AffineRule rule)
    (hin : ∀ r ∈ rule, InSquare r.1) : (rule.map fun r => r.2 * integrationElement c r.1).sum = area c := by
  obtain ⟨s, hs, hcor⟩ := convex_sign c h
  have hs1 : |s| = 1 := by
    have := abs_mul_abs_self s
    rw [hs] at this
    nlinarith [abs_nonneg s]
  have e : (rule.map fun r => r.2 * integrationElement c r.1) =
      rule.map fun r => r.2 * (s * cross (c 0) (c 1) (c 2) + r.1.2 * (s * w0 c) + r.1.1 * (s * w1 c)) := by
    refine List.map_congr_left fun r hmem => ?_
    have hp := convex_inside c s hcor r.1 (hin r hmem)
    rw [element_eq, ← one_mul |dt c r.1|, ← hs1, ← abs_mul, abs_of_pos hp, dt_eq]
    ring
  rw [e, sum_affine, hr.1, hr.2.1, hr.2.2, area_eq c s hs hcor, dt_eq]
  ring

/-- C105: for strictly convex quads the integration element is positive in the square, and quadrature of it with any rule that is exact for affine functions
gives the area. -/
theorem C105_area (c : Fin 4 → K × K) (h : Convex c) :
    (∀ p, InSquare p → 0 < integrationElement c p) ∧
    ∀ rule, AffineRule rule → (∀ r ∈ rule, InSquare r.1) → (rule.map fun r => r.2 * integrationElement c r.1).sum = area c := by
  refine ⟨fun p hp => ?_, fun rule hr hin => element_area c h rule hr hin⟩
  obtain ⟨s, hs, hcor⟩ := convex_sign c h
  have := convex_inside c s hcor p hp
  rw [element_eq]
  refine abs_pos.mpr ?_
  rintro e
  rw [e, mul_zero] at this
  exact lt_irrefl _ this

/-- C105: no two points of the square have the same image in a strictly convex quad. -/
theorem C105_injective (c : Fin 4 → K × K) (h : Convex c) (p q : K × K) (hp : InSquare p) (hq : InSquare q)
    (e : global c p = global c q) : p = q := by
  obtain ⟨s, hs, hcor⟩ := convex_sign c h
  have hm := convex_inside c s hcor ((p.1 + q.1) / 2, (p.2 + q.2) / 2)
    ⟨by have := hp.1; have := hq.1; dsimp only; linarith, by have := hp.2.1; have := hq.2.1; dsimp only; linarith,
     by have := hp.2.2.1; have := hq.2.2.1; dsimp only; linarith, by have := hp.2.2.2; have := hq.2.2.2; dsimp only; linarith⟩
  have hne : dt c ((p.1 + q.1) / 2, (p.2 + q.2) / 2) ≠ 0 := by
    rintro e; rw [e, mul_zero] at hm; exact lt_irrefl _ hm
  rw [global_eq, global_eq] at e
  have e1 := congrArg Prod.fst e
  have e2 := congrArg Prod.snd e
  dsimp only at e1 e2
  unfold dt det2 at hne
  rw [row0_eq, row1_eq] at hne
  dsimp only at hne
  refine Prod.ext ?_ ?_
  · refine sub_eq_zero.mp ((mul_eq_zero.mp ?_).resolve_left hne)
    linear_combination ((1 - (p.1 + q.1) / 2) * ((c 2).2 - (c 0).2) + (p.1 + q.1) / 2 * ((c 3).2 - (c 1).2)) * e1 -
      ((1 - (p.1 + q.1) / 2) * ((c 2).1 - (c 0).1) + (p.1 + q.1) / 2 * ((c 3).1 - (c 1).1)) * e2
  · refine sub_eq_zero.mp ((mul_eq_zero.mp ?_).resolve_left hne)
    linear_combination ((1 - (p.2 + q.2) / 2) * ((c 1).1 - (c 0).1) + (p.2 + q.2) / 2 * ((c 3).1 - (c 2).1)) * e2 -
      ((1 - (p.2 + q.2) / 2) * ((c 1).2 - (c 0).2) + (p.2 + q.2) / 2 * ((c 3).2 - (c 2).2)) * e1

/-- C105: for every point of a strictly convex quad the map to local coordinates ends, and its result is within `2·10⁻¹⁰` of the coordinates of the point. -/
theorem C105_local [Archimedean K] (c : Fin 4 → K × K) (hc : Convex c) (p : K × K) (hp : InSquare p) :
    ∃ N, ∀ fuel, N ≤ fuel → ∃ x, localRun c (blend c p) fuel = .done x ∧ |x.1 - p.1| ≤ 2 / 10 ^ 10 ∧ |x.2 - p.2| ≤ 2 / 10 ^ 10 := by
  obtain ⟨N, h⟩ := run_converges c hc p hp
  refine ⟨N, fun fuel hf => ?_⟩
  obtain ⟨x, e, a, b⟩ := h fuel hf
  refine ⟨x, ?_, ?_, ?_⟩
  · rw [← e, (C105_map c).1]
  · rwa [mul_one_div] at a
  · rwa [mul_one_div] at b

theorem resid_loop (c : Fin 4 → K × K) (y : K × K) : ∀ (fuel : Nat) (x z : K × K), localLoop c y fuel x = .done z →
    ∃ d0 d1 : K, d0 * d0 + d1 * d1 ≤ (1 / 10 ^ 10) * (1 / 10 ^ 10) ∧
      (global c z).1 - y.1 = d0 * d1 * ((c 0).1 - (c 1).1 - (c 2).1 + (c 3).1) ∧
      (global c z).2 - y.2 = d0 * d1 * ((c 0).2 - (c 1).2 - (c 2).2 + (c 3).2) := by
  intro fuel
  induction fuel with
  | zero => intro x z h; exact absurd h (by simp [localLoop])
  | succ n ih =>
    intro x z h
    unfold localLoop at h
    cases hs : newtonStep c y x with
    | none => rw [hs] at h; exact absurd h (by simp)
    | some dx =>
      rw [hs] at h
      dsimp only at h
      by_cases hstop : dx.1 * dx.1 + dx.2 * dx.2 > (1 / 10 ^ 10) * (1 / 10 ^ 10)
      · rw [if_pos hstop] at h
        exact ih _ _ h
      · rw [if_neg hstop] at h
        have hz := Outcome.done.inj h
        subst hz
        refine ⟨dx.1, dx.2, not_lt.mp hstop, ?_⟩
        unfold newtonStep at hs
        dsimp only at hs
        split at hs
        · exact absurd hs (by simp)
        next hd =>
        have hs := Option.some.inj hs
        have hd' : dt c x ≠ 0 := hd
        have k0 : dx.1 * dt c x = ((global c x).1 - y.1) * (jacobianTransposed c x 1).2 - ((global c x).2 - y.2) * (jacobianTransposed c x 1).1 := by
          rw [← hs]; exact div_mul_cancel₀ _ hd'
        have k1 : dx.2 * dt c x = (jacobianTransposed c x 0).1 * ((global c x).2 - y.2) - (jacobianTransposed c x 0).2 * ((global c x).1 - y.1) := by
          rw [← hs]; exact div_mul_cancel₀ _ hd'
        -- the linear system
        have l0 : dx.1 * (jacobianTransposed c x 0).1 + dx.2 * (jacobianTransposed c x 1).1 = (global c x).1 - y.1 := by
          refine mul_right_cancel₀ hd' ?_
          have : dt c x = (jacobianTransposed c x 0).1 * (jacobianTransposed c x 1).2 - (jacobianTransposed c x 1).1 * (jacobianTransposed c x 0).2 := rfl
          linear_combination (jacobianTransposed c x 0).1 * k0 + (jacobianTransposed c x 1).1 * k1 - ((global c x).1 - y.1) * this
        have l1 : dx.1 * (jacobianTransposed c x 0).2 + dx.2 * (jacobianTransposed c x 1).2 = (global c x).2 - y.2 := by
          refine mul_right_cancel₀ hd' ?_
          have : dt c x = (jacobianTransposed c x 0).1 * (jacobianTransposed c x 1).2 - (jacobianTransposed c x 1).1 * (jacobianTransposed c x 0).2 := rfl
          linear_combination (jacobianTransposed c x 0).2 * k0 + (jacobianTransposed c x 1).2 * k1 - ((global c x).2 - y.2) * this
        rw [row0_eq, row1_eq, global_eq] at l0 l1
        rw [global_eq]
        dsimp only at *
        constructor
        · linear_combination -l0
        · linear_combination -l1

/-- C105: whatever the quad and the point, a result of the map to local coordinates is mapped back to the point up to `10⁻²⁰/2` times the deviation of the quad from a
parallelogram. -/
theorem C105_residual (c : Fin 4 → K × K) (y z : K × K) (fuel : Nat) (h : localRun c y fuel = .done z) :
    |(blend c z).1 - y.1| ≤ 1 / 10 ^ 20 / 2 * |(c 0).1 - (c 1).1 - (c 2).1 + (c 3).1| ∧
    |(blend c z).2 - y.2| ≤ 1 / 10 ^ 20 / 2 * |(c 0).2 - (c 1).2 - (c 2).2 + (c 3).2| := by
  obtain ⟨d0, d1, hd, a, b⟩ := resid_loop c y fuel _ z h
  rw [(C105_map c).1] at a b
  have hm : |d0 * d1| ≤ 1 / 10 ^ 20 / 2 := by
    have e : (1 : K) / 10 ^ 20 = (1 / 10 ^ 10) * (1 / 10 ^ 10) := by norm_num
    rw [e, abs_le]
    constructor <;> nlinarith [mul_self_nonneg (d0 + d1), mul_self_nonneg (d0 - d1)]
  rw [a, b, abs_mul (d0 * d1), abs_mul (d0 * d1)]
  exact ⟨mul_le_mul_of_nonneg_right hm (abs_nonneg _), mul_le_mul_of_nonneg_right hm (abs_nonneg _)⟩

/-- C105: in parallelograms that are not degenerate two passes suffice for every point, inside or outside, and the result is exact. -/
theorem C105_parallelogram (c : Fin 4 → K × K) (hp : Parallelogram c) (hd : cross (c 0) (c 1) (c 2) ≠ 0) (y : K × K) (fuel : Nat)
    (hf : 2 ≤ fuel) : ∃ x, localRun c y fuel = .done x ∧ blend c x = y := by
  have a0 : (c 0).1 - (c 1).1 - (c 2).1 + (c 3).1 = 0 := by linear_combination hp.1
  have a1 : (c 0).2 - (c 1).2 - (c 2).2 + (c 3).2 = 0 := by linear_combination hp.2
  have hw0 : w0 c = 0 := by unfold w0; rw [a0, a1]; ring
  have hw1 : w1 c = 0 := by unfold w1; rw [a0, a1]; ring
  have hdt : ∀ x, dt c x ≠ 0 := by
    intro x
    rw [dt_eq, hw0, hw1]
    simpa using hd
  -- the point
  obtain ⟨p, hpy⟩ : ∃ p, global c p = y := by
    refine ⟨(((y.1 - (c 0).1) * ((c 2).2 - (c 0).2) - (y.2 - (c 0).2) * ((c 2).1 - (c 0).1)) / cross (c 0) (c 1) (c 2),
      (((c 1).1 - (c 0).1) * (y.2 - (c 0).2) - ((c 1).2 - (c 0).2) * (y.1 - (c 0).1)) / cross (c 0) (c 1) (c 2)), ?_⟩
    have e3 : (c 3).1 = (c 1).1 + (c 2).1 - (c 0).1 := by linear_combination hp.1
    have e4 : (c 3).2 = (c 1).2 + (c 2).2 - (c 0).2 := by linear_combination hp.2
    rw [global_eq]
    dsimp only
    rw [e3, e4]
    refine Prod.ext ?_ ?_
    · dsimp only
      field_simp
      unfold cross
      ring
    · dsimp only
      field_simp
      unfold cross
      ring
  subst hpy
  obtain ⟨f, rfl⟩ : ∃ f, fuel = f + 2 := ⟨fuel - 2, by omega⟩
  obtain ⟨dx, e, e0, e1⟩ := step_err c p (1 / 2, 1 / 2) (hdt _)
  rw [hw0, mul_zero, sub_eq_zero] at e0
  rw [hw1, mul_zero, sub_eq_zero] at e1
  have ex : ((1 / 2, 1 / 2) : K × K).1 - dx.1 = p.1 := e0
  have ey : ((1 / 2, 1 / 2) : K × K).2 - dx.2 = p.2 := e1
  refine ⟨p, ?_, ((C105_map c).1 p).symm⟩
  unfold localRun localLoop
  rw [e]
  dsimp only at ex ey ⊢
  rw [ex, ey]
  split
  · obtain ⟨dx2, f2, f0, f1⟩ := step_err c p (p.1, p.2) (hdt _)
    rw [hw0, mul_zero] at f0
    rw [hw1, mul_zero] at f1
    dsimp only at f0 f1
    have g0 : dx2.1 = 0 := by linear_combination -f0
    have g1 : dx2.2 = 0 := by linear_combination -f1
    unfold localLoop
    rw [f2]
    dsimp only
    rw [g0, g1, sub_zero, sub_zero, if_neg]
    have : (0 : K) < 1 / 10 ^ 10 := by positivity
    rw [not_lt, mul_zero, add_zero]
    positivity
  · rfl

/-! ### Coupling matrices -/

theorem coupling_fold (ub : List (Linear K 2)) (lb : Nat → K × K → K) (lg hex : Fin 4 → K × K) (fuel : Nat) (rule : List ((K × K) × K))
    (l0 lE : Nat → Nat → K)
    (h : rule.foldlM (fun (lE : Nat → Nat → K) r => (locate lg hex fuel r.1).map fun loc i j =>
        lE i j + ((ub[i]?).map fun f => f.eval ![r.1.1, r.1.2]).getD 0 * lb j loc * integrationElement hex r.1 * r.2) l0 = some lE) :
    (∀ r ∈ rule, ∃ loc, locate lg hex fuel r.1 = some loc) ∧ ∀ i j, lE i j = l0 i j +
      (rule.map fun r => ((ub[i]?).map fun f => f.eval ![r.1.1, r.1.2]).getD 0 * lb j ((locate lg hex fuel r.1).getD (0, 0)) *
        integrationElement hex r.1 * r.2).sum := by
  induction rule generalizing l0 with
  | nil =>
    have := Option.some.inj h
    subst this
    exact ⟨by simp, fun i j => by simp⟩
  | cons r l ih =>
    rw [List.foldlM_cons] at h
    obtain ⟨l1, h1, h2⟩ := Option.bind_eq_some_iff.mp h
    obtain ⟨loc, hl, he⟩ := Option.map_eq_some_iff.mp h1
    obtain ⟨A, B⟩ := ih l1 h2
    refine ⟨?_, ?_⟩
    · intro r' hr'
      rcases List.mem_cons.mp hr' with rfl | hm
      · exact ⟨loc, hl⟩
      · exact A r' hm
    · intro i j
      rw [B, ← he, List.map_cons, List.sum_cons, hl, Option.getD_some]
      ring

theorem coupling_total (ub : List (Linear K 2)) (lb : Nat → K × K → K) (lg hex : Fin 4 → K × K) (fuel : Nat) (rule : List ((K × K) × K))
    (l0 : Nat → Nat → K) (h : ∀ r ∈ rule, ∃ loc, locate lg hex fuel r.1 = some loc) :
    ∃ lE, rule.foldlM (fun (lE : Nat → Nat → K) r => (locate lg hex fuel r.1).map fun loc i j =>
        lE i j + ((ub[i]?).map fun f => f.eval ![r.1.1, r.1.2]).getD 0 * lb j loc * integrationElement hex r.1 * r.2) l0 = some lE := by
  induction rule generalizing l0 with
  | nil => exact ⟨l0, rfl⟩
  | cons r l ih =>
    obtain ⟨loc, hl⟩ := h r (by simp)
    rw [List.foldlM_cons, hl]
    exact ih _ fun r' hr' => h r' (by simp [hr'])

theorem ubasis : ∃ ub : List (Linear K 2), p1Set 2 = some ub ∧ ∀ (f : Fin 4 → K) (u v : K),
    ((ub[0]?).map fun g => g.eval ![u, v]).getD 0 * f 0 + ((ub[1]?).map fun g => g.eval ![u, v]).getD 0 * f 1 +
    ((ub[2]?).map fun g => g.eval ![u, v]).getD 0 * f 2 + ((ub[3]?).map fun g => g.eval ![u, v]).getD 0 * f 3 = interp f u v := by
  obtain ⟨f0, h0, e0⟩ := p1_two (K := K) 0 (by omega)
  obtain ⟨f1, h1, e1⟩ := p1_two (K := K) 1 (by omega)
  obtain ⟨f2, h2, e2⟩ := p1_two (K := K) 2 (by omega)
  obtain ⟨f3, h3, e3⟩ := p1_two (K := K) 3 (by omega)
  refine ⟨[f0, f1, f2, f3], ?_, ?_⟩
  · simp [p1Set, setSize, List.range_succ, h0, h1, h2, h3]
  · intro f u v
    simp [e0, e1, e2, e3, hat, Fin.prod_univ_two, interp]

theorem locate_some (lg hex : Fin 4 → K × K) (hp : Parallelogram lg) (hd : cross (lg 0) (lg 1) (lg 2) ≠ 0) (fuel : Nat) (hf : 2 ≤ fuel)
    (r loc : K × K) (h : locate lg hex fuel r = some loc) : Accepted loc ∧ blend lg loc = blend hex r := by
  unfold locate at h
  obtain ⟨x, hx, hb⟩ := C105_parallelogram lg hp hd (global hex r) fuel hf
  rw [hx] at h
  dsimp only at h
  split at h
  next hin =>
    have := Option.some.inj h
    subst this
    refine ⟨⟨hin.2.1, ?_, hin.2.2.2, ?_⟩, ?_⟩
    · have := hin.1; norm_num at this ⊢; exact this
    · have := hin.2.2.1; norm_num at this ⊢; exact this
    · rw [hb, (C105_map hex).1]
  · exact absurd h (by simp)

theorem sum_swap {α : Type} (l : List α) (m : Nat) (g : α → Nat → K) :
    ((List.range m).map fun j => (l.map fun r => g r j).sum).sum = (l.map fun r => ((List.range m).map fun j => g r j).sum).sum := by
  induction l with
  | nil => simp
  | cons a l ih =>
    simp only [List.map_cons, List.sum_cons]
    rw [← ih, ← List.sum_map_add]

theorem sum_mul_const (l : List Nat) (g : Nat → K) (a : K) : (l.map fun j => a * g j).sum = a * (l.map g).sum := by
  induction l with
  | nil => simp
  | cons b l ih => simp only [List.map_cons, List.sum_cons, ih]; ring

/-- C105: the local coupling matrix of a boundary quad and a multiplier element that is a parallelogram. The local coordinates at which the multipliers are evaluated are
those of the points of the quadrature. Applied to values at the corners, column `j` is the quadrature of the multiplier `j` times their bilinear interpolation. If the
multipliers sum to one, the entries sum to the area of the quad. -/
theorem C105_coupling (lb : Nat → K × K → K) (lg hex : Fin 4 → K × K) (hp : Parallelogram lg) (hd : cross (lg 0) (lg 1) (lg 2) ≠ 0)
    (fuel : Nat) (hf : 2 ≤ fuel) (rule : List ((K × K) × K)) (lE : Nat → Nat → K) (h : couplingMatrix lb lg hex fuel rule = some lE) :
    ∃ loc : K × K → K × K, (∀ r ∈ rule, Accepted (loc r.1) ∧ blend lg (loc r.1) = blend hex r.1) ∧
      (∀ (f : Fin 4 → K) (j : Nat), lE 0 j * f 0 + lE 1 j * f 1 + lE 2 j * f 2 + lE 3 j * f 3 =
        (rule.map fun r => interp f r.1.1 r.1.2 * lb j (loc r.1) * integrationElement hex r.1 * r.2).sum) ∧
      ∀ m, (∀ x, ((List.range m).map fun j => lb j x).sum = 1) → Convex hex → AffineRule rule → (∀ r ∈ rule, InSquare r.1) →
        ((List.range m).map fun j => lE 0 j + lE 1 j + lE 2 j + lE 3 j).sum = area hex := by
  obtain ⟨ub, hub, hint⟩ := ubasis (K := K)
  unfold couplingMatrix at h
  rw [hub, Option.bind_some] at h
  obtain ⟨hloc, hE⟩ := coupling_fold ub lb lg hex fuel rule _ lE h
  have hform : ∀ (f : Fin 4 → K) (j : Nat), lE 0 j * f 0 + lE 1 j * f 1 + lE 2 j * f 2 + lE 3 j * f 3 =
      (rule.map fun r => interp f r.1.1 r.1.2 * lb j ((locate lg hex fuel r.1).getD (0, 0)) * integrationElement hex r.1 * r.2).sum := by
    intro f j
    rw [hE, hE, hE, hE]
    clear h hloc hE
    induction rule with
    | nil => simp
    | cons r l ih =>
      simp only [List.map_cons, List.sum_cons]
      simp only [zero_add] at ih ⊢
      rw [← ih, ← hint]
      ring
  refine ⟨fun p => (locate lg hex fuel p).getD (0, 0), ?_, hform, ?_⟩
  · intro r hr
    obtain ⟨loc, hl⟩ := hloc r hr
    dsimp only
    rw [hl, Option.getD_some]
    exact locate_some lg hex hp hd fuel hf r.1 loc hl
  · intro m hm hc hr hin
    have e : ∀ j, lE 0 j + lE 1 j + lE 2 j + lE 3 j =
        (rule.map fun r => r.2 * integrationElement hex r.1 * lb j ((locate lg hex fuel r.1).getD (0, 0))).sum := by
      intro j
      have := hform (fun _ => 1) j
      simp only [mul_one] at this
      rw [this]
      congr 1
      refine List.map_congr_left fun r _ => ?_
      unfold interp
      ring
    rw [List.map_congr_left fun j _ => e j, sum_swap, ← element_area hex hc rule hr hin]
    congr 1
    refine List.map_congr_left fun r _ => ?_
    rw [sum_mul_const, hm, mul_one]

/-- C105: the matrix is computed whenever all points of the quadrature lie in the multiplier element. -/
theorem C105_coupling_defined (lb : Nat → K × K → K) (lg hex : Fin 4 → K × K) (hp : Parallelogram lg) (hd : cross (lg 0) (lg 1) (lg 2) ≠ 0)
    (fuel : Nat) (hf : 2 ≤ fuel) (rule : List ((K × K) × K)) (hin : ∀ r ∈ rule, ∃ p, InSquare p ∧ blend lg p = blend hex r.1) :
    ∃ lE, couplingMatrix lb lg hex fuel rule = some lE := by
  obtain ⟨ub, hub, -⟩ := ubasis (K := K)
  unfold couplingMatrix
  rw [hub, Option.bind_some]
  refine coupling_total ub lb lg hex fuel rule _ fun r hr => ?_
  obtain ⟨p, hp1, hp2⟩ := hin r hr
  obtain ⟨x, hx, hb⟩ := C105_parallelogram lg hp hd (global hex r.1) fuel hf
  have hcv : Convex lg := by
    have q0 : (lg 3).1 = (lg 1).1 + (lg 2).1 - (lg 0).1 := by linear_combination hp.1
    have q1 : (lg 3).2 = (lg 1).2 + (lg 2).2 - (lg 0).2 := by linear_combination hp.2
    have c1 : cross (lg 1) (lg 3) (lg 0) = cross (lg 0) (lg 1) (lg 2) := by unfold cross; rw [q0, q1]; ring
    have c2 : cross (lg 3) (lg 2) (lg 1) = cross (lg 0) (lg 1) (lg 2) := by unfold cross; rw [q0, q1]; ring
    have c3 : cross (lg 2) (lg 0) (lg 3) = cross (lg 0) (lg 1) (lg 2) := by unfold cross; rw [q0, q1]; ring
    unfold Spec.Convex
    rw [c1, c2, c3]
    rcases lt_or_gt_of_ne hd with h | h
    · exact Or.inr ⟨h, h, h, h⟩
    · exact Or.inl ⟨h, h, h, h⟩
  have hxp : x = p := by
    -- the map of a parallelogram is injective everywhere
    have a0 : (lg 3).1 = (lg 1).1 + (lg 2).1 - (lg 0).1 := by linear_combination hp.1
    have a1 : (lg 3).2 = (lg 1).2 + (lg 2).2 - (lg 0).2 := by linear_combination hp.2
    have e : blend lg x = blend lg p := by rw [hb, hp2, (C105_map hex).1]
    have e1 := congrArg Prod.fst e
    have e2 := congrArg Prod.snd e
    unfold blend interp at e1 e2
    dsimp only at e1 e2
    rw [a0] at e1
    rw [a1] at e2
    refine Prod.ext ?_ ?_
    · refine sub_eq_zero.mp ((mul_eq_zero.mp ?_).resolve_left hd)
      unfold cross
      linear_combination ((lg 2).2 - (lg 0).2) * e1 - ((lg 2).1 - (lg 0).1) * e2
    · refine sub_eq_zero.mp ((mul_eq_zero.mp ?_).resolve_left hd)
      unfold cross
      linear_combination ((lg 1).1 - (lg 0).1) * e2 - ((lg 1).2 - (lg 0).2) * e1
  subst hxp
  refine ⟨x, ?_⟩
  unfold locate
  rw [hx]
  dsimp only
  have t : (0 : K) ≤ 1 / 10 ^ 4 := by positivity
  rw [if_pos ⟨by linarith [hp1.2.1], hp1.1, by linarith [hp1.2.2.2], hp1.2.2.1⟩]

/-! ### The corners -/

/-- C105: a quad of a face of the grid gets the positions of its nodes without the coordinate normal to the face. -/
theorem C105_corners (verts : List (Nat × (Fin 3 → K))) (huniq : ∀ v ∈ verts, ∀ v' ∈ verts, v.1 = v'.1 → v = v') (nodes : Fin 4 → Nat)
    (hn : ∀ i, ∃ v ∈ verts, v.1 = nodes i) (dir : Fin 3) :
    ∃ c, ofGrid verts nodes dir = some c ∧ ∀ i, ∀ v ∈ verts, v.1 = nodes i →
      c i = (![(v.2 1, v.2 2), (v.2 0, v.2 2), (v.2 0, v.2 1)] : Fin 3 → K × K) dir := by
  have hex : ∀ x : Fin 3 → K, extract x dir = some ((![(x 1, x 2), (x 0, x 2), (x 0, x 1)] : Fin 3 → K × K) dir) := by
    intro x
    rcases dir with ⟨d, hd⟩
    have : d = 0 ∨ d = 1 ∨ d = 2 := by omega
    rcases this with rfl | rfl | rfl <;> rfl
  have hfind : ∀ i, ∃ v ∈ verts, v.1 = nodes i ∧ verts.find? (fun v => v.1 == nodes i) = some v := by
    intro i
    obtain ⟨v, hv, e⟩ := hn i
    cases hf : verts.find? (fun v => v.1 == nodes i) with
    | none =>
      have := List.find?_eq_none.mp hf v hv
      simp [e] at this
    | some v' => exact ⟨v', List.mem_of_find?_eq_some hf, by simpa using List.find?_some hf, rfl⟩
  choose g hg1 hg2 hg3 using hfind
  obtain ⟨q, hq⟩ : ∃ q : Fin 4 → K × K,
      ∀ i, q i = (![((g i).2 1, (g i).2 2), ((g i).2 0, (g i).2 2), ((g i).2 0, (g i).2 1)] : Fin 3 → K × K) dir := ⟨_, fun _ => rfl⟩
  refine ⟨q, ?_, ?_⟩
  · have hi : ∀ i, ((verts.find? fun v => v.1 == nodes i).bind fun v => extract v.2 dir) = some (q i) := by
      intro i
      rw [hg3 i, Option.bind_some, hex, hq]
    unfold ofGrid
    simp only [hi]
    change some (fun i : Fin 4 => [q 0, q 1, q 2, q 3].getD i (0, 0)) = _
    congr 1
    funext i
    rcases i with ⟨i, h⟩
    have : i = 0 ∨ i = 1 ∨ i = 2 ∨ i = 3 := by omega
    rcases this with rfl | rfl | rfl | rfl <;> rfl
  · intro i v hv e
    have : v = g i := huniq v hv _ (hg1 i) (e.trans (hg2 i).symm)
    rw [this, hq]

/-! ### Violations -/

/-- C105 (violated): the reported volume of a strictly convex quad need not be its area. -/
theorem C105_violated_volume : ∃ c : Fin 4 → ℚ × ℚ, Convex c ∧ volume c ≠ area c :=
  ⟨![(0, 0), (2, 0), (1, 1), (2, 1)], Or.inl (by decide +kernel), by decide +kernel⟩

/-- C105: it is the area for rectangles along the axes. -/
theorem C105_volume_rectangle (x0 x1 y0 y1 : K) (hx : x0 ≤ x1) (hy : y0 ≤ y1) :
    volume ![(x0, y0), (x1, y0), (x0, y1), (x1, y1)] = area ![(x0, y0), (x1, y0), (x0, y1), (x1, y1)] := by
  have h : 0 ≤ (x1 - x0) * (y1 - y0) := mul_nonneg (sub_nonneg.mpr hx) (sub_nonneg.mpr hy)
  change (x1 - x0) * (y1 - y0) = |(x1 - x0) * (y1 - y0) - (x1 - x0) * (y0 - y0)| / 2 + |(x1 - x0) * (y1 - y0) - (x0 - x0) * (y1 - y0)| / 2
  rw [sub_self, sub_self, mul_zero, zero_mul, sub_zero, abs_of_nonneg h]
  ring

/-- C105 (violated): for a point outside of a strictly convex quad the loop need not end. -/
theorem C105_violated_endless : ∃ (c : Fin 4 → ℚ × ℚ) (y : ℚ × ℚ), Convex c ∧ ∀ fuel, localRun c y fuel = .running := by
  refine ⟨![(0, 0), (1, 0), (1, 2), (2, 3)], (1, 21 / 4), Or.inl (by decide +kernel), ?_⟩
  have key : ∀ n, localLoop (![(0, 0), (1, 0), (1, 2), (2, 3)] : Fin 4 → ℚ × ℚ) (1, 21 / 4) n (1 / 2, 1 / 2) = .running ∧
      localLoop (![(0, 0), (1, 0), (1, 2), (2, 3)] : Fin 4 → ℚ × ℚ) (1, 21 / 4) n (-3 / 2, 5 / 2) = .running := by
    intro n
    induction n with
    | zero => exact ⟨rfl, rfl⟩
    | succ n ih =>
      have s1 : newtonStep (![(0, 0), (1, 0), (1, 2), (2, 3)] : Fin 4 → ℚ × ℚ) (1, 21 / 4) (1 / 2, 1 / 2) = some (2, -2) := by decide +kernel
      have s2 : newtonStep (![(0, 0), (1, 0), (1, 2), (2, 3)] : Fin 4 → ℚ × ℚ) (1, 21 / 4) (-3 / 2, 5 / 2) = some (-2, 2) := by decide +kernel
      refine ⟨?_, ?_⟩
      · unfold localLoop
        rw [s1]
        dsimp only
        rw [if_pos (by norm_num), show ((1 / 2 - 2, 1 / 2 - -2) : ℚ × ℚ) = (-3 / 2, 5 / 2) by norm_num]
        exact ih.2
      · unfold localLoop
        rw [s2]
        dsimp only
        rw [if_pos (by norm_num), show ((-3 / 2 - -2, 5 / 2 - 2) : ℚ × ℚ) = (1 / 2, 1 / 2) by norm_num]
        exact ih.1
  exact fun fuel => (key fuel).1

/-- The face `[0,1]×[-1,1]`. -/
def offFace : Fin 4 → K × K := ![(0, -1), (1, -1), (0, 1), (1, 1)]

/-- C105 (violated): the multiplier grid of one element over the face `[0,1]×[-1,1]` is not the face (see C46), so that the coupling matrix of a quad that covers the
face stops at the assertion on the local coordinates, for every quadrature rule with a point near the lower right corner. -/
theorem C105_violated_offset :
    ∃ lg : Fin 4 → K × K, ((Verif.BGrid.uniform ((0, -1) : K × K) (1, 1) 1 1 true).map fun g => g.quads.map ofQuad) = some [lg] ∧
      ∀ (lb : Nat → K × K → K) (fuel : Nat) (rule : List ((K × K) × K)), (∃ r ∈ rule, InSquare r.1 ∧ 2 * r.1.2 + 1 / 10 < r.1.1) →
        couplingMatrix lb lg offFace fuel rule = none := by
  refine ⟨![(0, -1), (1, 0), (0, 1), (1, 1)], ?_, ?_⟩
  · have h1 : (Verif.BGrid.cell ((0, -1) : K × K) (1, 1) 1 1 true 0 0) =
        ![⟨0, (0, -1)⟩, ⟨1, (1, 0)⟩, ⟨2, (0, 1)⟩, ⟨3, (1, 1)⟩] := by
      unfold Verif.BGrid.cell
      norm_num
    have h2 : Verif.BGrid.pairs 1 1 = [(0, 0)] := rfl
    unfold Verif.BGrid.uniform
    rw [h2]
    simp only [List.foldlM_cons, List.foldlM_nil, List.foldl_cons, List.foldl_nil, h1]
    change some (List.map ofQuad (Verif.BGrid.add [] _)) = _
    obtain ⟨q, hq, hv⟩ := Verif.BGrid.add_kept ([] : List (Verif.BGrid.Quad K))
      ![⟨0, (0, -1)⟩, ⟨1, (1, 0)⟩, ⟨2, (0, 1)⟩, ⟨3, (1, 1)⟩] 0 3 (dx := 1) (dy := 2) (by norm_num) (by norm_num) (by norm_num)
      (by change (0 : K) + 1 ≤ 1; norm_num) (by change (-1 : K) + 2 ≤ 1; norm_num)
    rw [hq, List.nil_append, List.map_cons, List.map_nil]
    congr 2
    funext i
    unfold ofQuad
    rw [hv]
    rcases i with ⟨i, h⟩
    have : i = 0 ∨ i = 1 ∨ i = 2 ∨ i = 3 := by omega
    rcases this with rfl | rfl | rfl | rfl <;> rfl
  · rintro lb fuel rule ⟨r, hr, hin, hlow⟩
    by_contra hne
    obtain ⟨lE, hE⟩ := Option.ne_none_iff_exists'.mp hne
    obtain ⟨ub, hub, -⟩ := ubasis (K := K)
    unfold couplingMatrix at hE
    rw [hub, Option.bind_some] at hE
    obtain ⟨loc, hloc⟩ := (coupling_fold ub lb _ _ fuel rule _ lE hE).1 r hr
    unfold locate at hloc
    cases hrun : localRun (![(0, -1), (1, 0), (0, 1), (1, 1)] : Fin 4 → K × K) (global offFace r.1) fuel with
    | running => rw [hrun] at hloc; exact absurd hloc (by simp)
    | singular => rw [hrun] at hloc; exact absurd hloc (by simp)
    | done z =>
      rw [hrun] at hloc
      dsimp only at hloc
      split at hloc
      next hz =>
        obtain ⟨a, b⟩ := C105_residual _ _ z fuel hrun
        rw [(C105_map offFace).1] at a b
        have b' := abs_le.mp b
        have a' := abs_le.mp a
        simp [blend, interp, offFace] at a' b'
        obtain ⟨q0, q1, q2, q3⟩ := hz
        have hz1 : z.1 = r.1.1 := by linarith [a'.1, a'.2]
        rw [hz1] at b'
        have hu1 := hin.2.1
        have : (10 ^ 20 : K)⁻¹ / 2 ≤ 1 / 20 := by norm_num
        nlinarith [b'.2, mul_nonneg q3 (by linarith : (0 : K) ≤ 2 - r.1.1)]
      · exact absurd hloc (by simp)

/-! ### Examples -/

/-- A trapezoid. -/
def trapezoid : Fin 4 → ℚ × ℚ := ![(0, 0), (4, 0), (1, 2), (3, 2)]

example : Convex trapezoid ∧ area trapezoid = 6 ∧ blend trapezoid (1 / 4, 1 / 2) = (5 / 4, 1) := by
  refine ⟨Or.inl (by decide +kernel), ?_, ?_⟩ <;> decide +kernel

example : AffineRule ([((0, 0), 1 / 4), ((1, 0), 1 / 4), ((0, 1), 1 / 4), ((1, 1), 1 / 4)] : List ((ℚ × ℚ) × ℚ)) ∧
    ([((0, 0), 1 / 4), ((1, 0), 1 / 4), ((0, 1), 1 / 4), ((1, 1), 1 / 4)].map fun (r : (ℚ × ℚ) × ℚ) => r.2 * integrationElement trapezoid r.1).sum = 6 := by
  refine ⟨⟨?_, ?_, ?_⟩, ?_⟩ <;> decide +kernel

/-- The second component is exact at once, the first after the second pass; the third pass confirms it. -/
example : localRun trapezoid (blend trapezoid (1 / 4, 3 / 4)) 3 = .done (1 / 4, 3 / 4) := by decide +kernel

/-- A sheared parallelogram, and the lower left quarter of it as a boundary quad. -/
example : Parallelogram (![(0, 0), (2, 0), (1, 2), (3, 2)] : Fin 4 → ℚ × ℚ) ∧ cross ((0, 0) : ℚ × ℚ) (2, 0) (1, 2) ≠ 0 ∧
    (couplingMatrix (fun _ _ => 1) (![(0, 0), (2, 0), (1, 2), (3, 2)] : Fin 4 → ℚ × ℚ) ![(0, 0), (1, 0), (1 / 2, 1), (3 / 2, 1)] 2
      [((1 / 4, 1 / 4), 1 / 4), ((3 / 4, 1 / 4), 1 / 4), ((1 / 4, 3 / 4), 1 / 4), ((3 / 4, 3 / 4), 1 / 4)]).map
        (fun lE => lE 0 0 + lE 1 0 + lE 2 0 + lE 3 0) = some 1 := by
  refine ⟨⟨?_, ?_⟩, ?_, ?_⟩ <;> decide +kernel

end Verif.QuadGeo
