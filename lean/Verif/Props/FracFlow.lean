import Verif.Model.FracFlow
import Mathlib.Tactic.Ring
import Mathlib.Tactic.FieldSimp
import Mathlib.Tactic.Linarith
import Mathlib.Tactic.Positivity
import Mathlib.Tactic.NormNum
import Mathlib.Tactic.LinearCombination
import Mathlib.Data.List.Range

/-! C15 (CFL factors), C16 (fractional flow and phase velocities), C60 (cell velocity estimates). -/

namespace Verif.FracFlow

open Verif.Euler (Vec Face Cell Err)
open scoped BigOperators

variable {K : Type} [Field K] [LinearOrder K] [IsStrictOrderedRing K]

/-! ### C15 -/

/-- What the sampling loop has established after processing the samples `1 … m`. -/
structure Inv (ff : Nat → K × K) (dpc : Nat → K) (m : Nat) (st : CflState K) : Prop where
  last : (st.last1, st.lastg) = ff m
  d1 : ∀ i, i < m → |(ff (i + 1)).1 - (ff i).1| / (1 / 256) ≤ st.max1
  dg : ∀ i, i < m → |(ff (i + 1)).2 - (ff i).2| / (1 / 256) ≤ st.maxg
  ext : ∀ i, i ≤ m → (ff i).2 ≤ st.ext
  pc : ∀ i, i ≤ m → dpc i ≤ st.maxpc

theorem inv_fold (big : K) (ff : Nat → K × K) (dpc : Nat → K) (m : Nat) :
    Inv ff dpc m (((List.range m).map (· + 1)).foldl (cflSample (1 / 256) ff dpc)
      ⟨(ff 0).1, (ff 0).2, -big, -big, (ff 0).2, dpc 0⟩) := by
  induction m with
  | zero =>
    refine ⟨rfl, by simp, by simp, ?_, ?_⟩
    · intro i hi; obtain rfl : i = 0 := by omega
      exact le_rfl
    · intro i hi; obtain rfl : i = 0 := by omega
      exact le_rfl
  | succ m ih =>
    rw [List.range_succ, List.map_append, List.foldl_append]
    set st := ((List.range m).map (· + 1)).foldl (cflSample (1 / 256) ff dpc)
      ⟨(ff 0).1, (ff 0).2, -big, -big, (ff 0).2, dpc 0⟩ with hst
    have hl1 : st.last1 = (ff m).1 := congrArg Prod.fst ih.last
    have hlg : st.lastg = (ff m).2 := congrArg Prod.snd ih.last
    simp only [List.map_cons, List.map_nil, List.foldl_cons, List.foldl_nil]
    refine ⟨rfl, ?_, ?_, ?_, ?_⟩
    · intro i hi
      simp only [cflSample]
      rcases Nat.lt_succ_iff_lt_or_eq.1 hi with h | h
      · exact (ih.d1 i h).trans (le_max_left _ _)
      · subst h; rw [hl1]; exact le_max_right _ _
    · intro i hi
      simp only [cflSample]
      rcases Nat.lt_succ_iff_lt_or_eq.1 hi with h | h
      · exact (ih.dg i h).trans (le_max_left _ _)
      · subst h; rw [hlg]; exact le_max_right _ _
    · intro i hi
      simp only [cflSample]
      rcases Nat.le_succ_iff.1 hi with h | h
      · exact (ih.ext i h).trans (le_max_left _ _)
      · subst h; exact le_max_right _ _
    · intro i hi
      simp only [cflSample]
      rcases Nat.le_succ_iff.1 hi with h | h
      · exact (ih.pc i h).trans (le_max_left _ _)
      · subst h; exact le_max_right _ _

theorem recipMin_le (acc x : K) : recipMin acc x ≤ acc := by
  unfold recipMin; split
  · exact le_rfl
  · exact min_le_left _ _

theorem recipMin_mul (acc x y : K) (hy : 0 ≤ y) (hxy : y ≤ x) (c : K) (hc : c ≤ recipMin acc x) : c * y ≤ 1 := by
  rcases hy.lt_or_eq with h | h
  · have hx : 0 < x := h.trans_le hxy
    unfold recipMin at hc
    rw [if_neg hx.ne'] at hc
    have h1 := hc.trans (min_le_right _ _)
    calc c * y ≤ 1 / x * y := mul_le_mul_of_nonneg_right h1 hy
      _ ≤ 1 / x * x := mul_le_mul_of_nonneg_left hxy (by positivity)
      _ = 1 := by field_simp
  · rw [← h, mul_zero]; exact zero_le_one

/-- The folded factors, rock by rock. -/
theorem cflFactors_fold (big : K) (rocks : List ((Nat → K × K) × (Nat → K))) (a : K × K × K) :
    let res := rocks.foldl (fun a r =>
      let f := singleRock big r.1 r.2
      (recipMin a.1 f.1, recipMin a.2.1 f.2.1, max a.2.2 f.2.2)) a
    (res.1 ≤ a.1 ∧ res.2.1 ≤ a.2.1 ∧ a.2.2 ≤ res.2.2) ∧
    ∀ r ∈ rocks, (∃ acc, res.1 ≤ recipMin acc (singleRock big r.1 r.2).1) ∧
      (∃ acc, res.2.1 ≤ recipMin acc (singleRock big r.1 r.2).2.1) ∧ (singleRock big r.1 r.2).2.2 ≤ res.2.2 := by
  induction rocks generalizing a with
  | nil => simp
  | cons r rocks ih =>
    intro res
    obtain ⟨⟨h1, h2, h3⟩, h4⟩ := ih (recipMin a.1 (singleRock big r.1 r.2).1, recipMin a.2.1 (singleRock big r.1 r.2).2.1,
      max a.2.2 (singleRock big r.1 r.2).2.2)
    refine ⟨⟨h1.trans (recipMin_le _ _), h2.trans (recipMin_le _ _), (le_max_left _ _).trans h3⟩, ?_⟩
    intro q hq
    rw [List.mem_cons] at hq
    rcases hq with rfl | hq
    · exact ⟨⟨a.1, h1⟩, ⟨a.2.1, h2⟩, (le_max_right _ _).trans h3⟩
    · exact h4 q hq

/-- **C15** Isotropic model: with the reported velocity factor, the slope of the water fractional flow between any two consecutive
samples of any rock times the factor is at most one. -/
theorem C15_velocity (big : K) (rocks : List ((Nat → K × K) × (Nat → K))) (r) (hr : r ∈ rocks) (i : Nat) (hi : i < 256) :
    (cflFactors big rocks).1 * (|(r.1 (i + 1)).1 - (r.1 i).1| / (1 / 256)) ≤ 1 := by
  obtain ⟨acc, h⟩ := ((cflFactors_fold big rocks (big, big, 0)).2 r hr).1
  exact recipMin_mul acc _ _ (by positivity) ((inv_fold big r.1 r.2 256).d1 i hi) _ h

/-- **C15** Isotropic model: the same for the gravity fractional flow. -/
theorem C15_gravity (big : K) (rocks : List ((Nat → K × K) × (Nat → K))) (r) (hr : r ∈ rocks) (i : Nat) (hi : i < 256) :
    (cflFactors big rocks).2.1 * (|(r.1 (i + 1)).2 - (r.1 i).2| / (1 / 256)) ≤ 1 := by
  obtain ⟨acc, h⟩ := ((cflFactors_fold big rocks (big, big, 0)).2 r hr).2.1
  exact recipMin_mul acc _ _ (by positivity) ((inv_fold big r.1 r.2 256).dg i hi) _ h

/-- **C15** Isotropic model: the capillary factor is an upper bound for the product of the gravity fractional flow and the
capillary pressure slope at all samples of all rocks. -/
theorem C15_capillary (big : K) (rocks : List ((Nat → K × K) × (Nat → K))) (r) (hr : r ∈ rocks)
    (hff : ∀ i, 0 ≤ (r.1 i).2) (hpc : ∀ i, 0 ≤ r.2 i) (i j : Nat) (hi : i ≤ 256) (hj : j ≤ 256) :
    (r.1 i).2 * r.2 j ≤ (cflFactors big rocks).2.2 := by
  have h := ((cflFactors_fold big rocks (big, big, 0)).2 r hr).2.2
  refine le_trans ?_ h
  have hinv := inv_fold big r.1 r.2 256
  exact mul_le_mul (hinv.ext i hi) (hinv.pc j hj) (hpc j) ((hff i).trans (hinv.ext i hi))

/-- Non-trivial sampled data: quadratic relative permeabilities. -/
def exFF : Nat → ℚ × ℚ := fun i =>
  let s : ℚ := i / 256
  let l1 := s * s
  let l2 := (1 - s) * (1 - s)
  (l1 / (l1 + l2), l1 * l2 / (l1 + l2))

set_option maxRecDepth 100000 in
example : (cflFactors (10 ^ 100 : ℚ) [(exFF, fun _ => 1)]).1 < 1 ∧ 0 < (cflFactors (10 ^ 100 : ℚ) [(exFF, fun _ => 1)]).1 := by
  decide +kernel

theorem aniso_fold_ext (delta : K) (ff : Nat → K × K) (l : List Nat) (st : CflState K) :
    (l.foldl (cflSampleAniso delta ff) st).ext ≤ st.ext := by
  induction l generalizing st with
  | nil => exact le_rfl
  | cons i l ih =>
    rw [List.foldl_cons]
    exact (ih _).trans (min_le_left _ _)

theorem aniso_ext (big : K) (ffs : Fin 3 → Nat → K × K) : (singleRockAniso big ffs).2.2 ≤ -big := by
  have hdir : ∀ (st : CflState K) (ff : Nat → K × K), (cflDirAniso (1 / 256) st ff).ext ≤ st.ext := by
    intro st ff
    unfold cflDirAniso
    exact (aniso_fold_ext _ _ _ _).trans (min_le_left _ _)
  unfold singleRockAniso
  simp only [List.foldl_cons, List.foldl_nil]
  exact (hdir _ _).trans ((hdir _ _).trans (hdir _ _))

/-- **C15** (violated) Anisotropic model with rocks: the capillary factor is the initial value 1e100, whatever the rocks are. -/
theorem C15_violated_aniso_capillary (big : K) (hbig : 0 ≤ big) (rocks : List (Fin 3 → Nat → K × K)) :
    (cflFactorsAniso big rocks).2.2 = big := by
  have : ∀ (l : List (Fin 3 → Nat → K × K)) (a : K × K × K), a.2.2 = big →
      (l.foldl (fun a r =>
        let f := singleRockAniso big r
        (recipMin a.1 f.1, recipMin a.2.1 f.2.1, max a.2.2 f.2.2)) a).2.2 = big := by
    intro l
    induction l with
    | nil => intro a h; exact h
    | cons r l ih =>
      intro a h
      rw [List.foldl_cons]
      apply ih
      simp only
      rw [h]
      exact max_eq_left ((aniso_ext big r).trans (by linarith))
  exact this rocks _ rfl

/-- **C15** (violated) Consequently the capillary time-step limit is the smallest spatial contribution divided by 1e100: practically zero,
whatever the fluid and rock data are. -/
theorem C15_violated_aniso_limit (big : K) (hbig : 0 < big) (rocks : List (Fin 3 → Nat → K × K)) (spatial : List K) (x : K)
    (hx : x ∈ spatial) : cflCapillary big (cflFactorsAniso big rocks).2.2 spatial ≤ x / big := by
  rw [C15_violated_aniso_capillary big hbig.le]
  have : ∀ (l : List K) (dt : K), (l.foldl (fun dt x => if big = 0 then dt else min dt (x / big)) dt ≤ dt) ∧
      (x ∈ l → l.foldl (fun dt x => if big = 0 then dt else min dt (x / big)) dt ≤ x / big) := by
    intro l
    induction l with
    | nil => intro dt; exact ⟨le_rfl, fun h => by cases h⟩
    | cons y l ih =>
      intro dt
      rw [List.foldl_cons, if_neg hbig.ne']
      obtain ⟨h1, h2⟩ := ih (min dt (y / big))
      refine ⟨h1.trans (min_le_left _ _), fun h => ?_⟩
      rw [List.mem_cons] at h
      rcases h with rfl | h
      · exact h1.trans (min_le_right _ _)
      · exact h2 h
  exact (this spatial big).2 hx

/-- **C15** (violated) Anisotropic model without rocks: the capillary factor is at most -1e100, so the limit is negative as soon as
some spatial contribution is positive. -/
theorem C15_violated_aniso_norock (big : K) (ffs : Fin 3 → Nat → K × K) :
    capFactorAnisoNoRock big ffs ≤ -big := aniso_ext big ffs

/-- What a sampling loop of the anisotropic model establishes. -/
structure InvA (ff : Nat → K × K) (m : Nat) (st0 st : CflState K) : Prop where
  last : (st.last1, st.lastg) = ff m
  m1 : st0.max1 ≤ st.max1
  mg : st0.maxg ≤ st.maxg
  d1 : ∀ i, i < m → |(ff (i + 1)).1 - (ff i).1| / (1 / 256) ≤ st.max1
  dg : ∀ i, i < m → |(ff (i + 1)).2 - (ff i).2| / (1 / 256) ≤ st.maxg

theorem invA_fold (ff : Nat → K × K) (st0 : CflState K) (h0 : (st0.last1, st0.lastg) = ff 0) (m : Nat) :
    InvA ff m st0 (((List.range m).map (· + 1)).foldl (cflSampleAniso (1 / 256) ff) st0) := by
  induction m with
  | zero => exact ⟨h0, le_rfl, le_rfl, by simp, by simp⟩
  | succ m ih =>
    rw [List.range_succ, List.map_append, List.foldl_append]
    set st := ((List.range m).map (· + 1)).foldl (cflSampleAniso (1 / 256) ff) st0 with hst
    have hl1 : st.last1 = (ff m).1 := congrArg Prod.fst ih.last
    have hlg : st.lastg = (ff m).2 := congrArg Prod.snd ih.last
    simp only [List.map_cons, List.map_nil, List.foldl_cons, List.foldl_nil]
    refine ⟨rfl, ih.m1.trans (le_max_left _ _), ih.mg.trans (le_max_left _ _), ?_, ?_⟩
    · intro i hi
      simp only [cflSampleAniso]
      rcases Nat.lt_succ_iff_lt_or_eq.1 hi with h | h
      · exact (ih.d1 i h).trans (le_max_left _ _)
      · subst h; rw [hl1]; exact le_max_right _ _
    · intro i hi
      simp only [cflSampleAniso]
      rcases Nat.lt_succ_iff_lt_or_eq.1 hi with h | h
      · exact (ih.dg i h).trans (le_max_left _ _)
      · subst h; rw [hlg]; exact le_max_right _ _

theorem invA_dir (st0 : CflState K) (ff : Nat → K × K) : InvA ff 256 st0 (cflDirAniso (1 / 256) st0 ff) := by
  have := invA_fold ff { st0 with last1 := (ff 0).1, lastg := (ff 0).2, ext := min st0.ext (ff 0).2 } rfl 256
  exact ⟨this.last, this.m1, this.mg, this.d1, this.dg⟩

theorem singleRockAniso_bounds (big : K) (ffs : Fin 3 → Nat → K × K) (d : Fin 3) (i : Nat) (hi : i < 256) :
    |(ffs d (i + 1)).1 - (ffs d i).1| / (1 / 256) ≤ (singleRockAniso big ffs).1 ∧
    |(ffs d (i + 1)).2 - (ffs d i).2| / (1 / 256) ≤ (singleRockAniso big ffs).2.1 := by
  unfold singleRockAniso
  simp only [List.foldl_cons, List.foldl_nil]
  set s0 : CflState K := ⟨0, 0, -big, -big, -big, 0⟩
  have i1 := invA_dir s0 (ffs 0)
  set s1 := cflDirAniso (1 / 256) s0 (ffs 0)
  have i2 := invA_dir s1 (ffs 1)
  set s2 := cflDirAniso (1 / 256) s1 (ffs 1)
  have i3 := invA_dir s2 (ffs 2)
  set s3 := cflDirAniso (1 / 256) s2 (ffs 2)
  match d with
  | 0 => exact ⟨(i1.d1 i hi).trans (i2.m1.trans i3.m1), (i1.dg i hi).trans (i2.mg.trans i3.mg)⟩
  | 1 => exact ⟨(i2.d1 i hi).trans i3.m1, (i2.dg i hi).trans i3.mg⟩
  | 2 => exact ⟨i3.d1 i hi, i3.dg i hi⟩

/-- **C15** (partial) Anisotropic model: the velocity and gravity factors are safe for every rock, direction and sample. What is
missing: the capillary factor, see the `violated` theorems. -/
theorem C15_aniso_partial (big : K) (rocks : List (Fin 3 → Nat → K × K)) (r) (hr : r ∈ rocks) (d : Fin 3) (i : Nat)
    (hi : i < 256) :
    (cflFactorsAniso big rocks).1 * (|(r d (i + 1)).1 - (r d i).1| / (1 / 256)) ≤ 1 ∧
    (cflFactorsAniso big rocks).2.1 * (|(r d (i + 1)).2 - (r d i).2| / (1 / 256)) ≤ 1 := by
  have key : ∀ (l : List (Fin 3 → Nat → K × K)) (a : K × K × K),
      let res := l.foldl (fun a r =>
        let f := singleRockAniso big r
        (recipMin a.1 f.1, recipMin a.2.1 f.2.1, max a.2.2 f.2.2)) a
      (res.1 ≤ a.1 ∧ res.2.1 ≤ a.2.1) ∧
      ∀ r ∈ l, (∃ acc, res.1 ≤ recipMin acc (singleRockAniso big r).1) ∧
        (∃ acc, res.2.1 ≤ recipMin acc (singleRockAniso big r).2.1) := by
    intro l
    induction l with
    | nil => intro a; simp
    | cons q l ih =>
      intro a res
      obtain ⟨⟨h1, h2⟩, h4⟩ := ih (recipMin a.1 (singleRockAniso big q).1, recipMin a.2.1 (singleRockAniso big q).2.1,
        max a.2.2 (singleRockAniso big q).2.2)
      refine ⟨⟨h1.trans (recipMin_le _ _), h2.trans (recipMin_le _ _)⟩, ?_⟩
      intro p hp
      rw [List.mem_cons] at hp
      rcases hp with rfl | hp
      · exact ⟨⟨a.1, h1⟩, ⟨a.2.1, h2⟩⟩
      · exact h4 p hp
  obtain ⟨⟨a1, h1⟩, ⟨a2, h2⟩⟩ := (key rocks (big, big, big)).2 r hr
  obtain ⟨b1, b2⟩ := singleRockAniso_bounds big r d i hi
  exact ⟨recipMin_mul a1 _ _ (by positivity) b1 _ h1, recipMin_mul a2 _ _ (by positivity) b2 _ h2⟩

/-! ### C16 -/

/-- **C16** For non-negative mobilities, not both zero, the fractional flow exists and lies in `[0,1]`; it is 0 or 1 when one phase is
immobile; and water and oil fractional flow add up to one. -/
theorem C16_fractional_flow (l1 l2 : K) (h1 : 0 ≤ l1) (h2 : 0 ≤ l2) (h : l1 ≠ 0 ∨ l2 ≠ 0) :
    ∃ f, fractionalFlow l1 l2 = some f ∧ 0 ≤ f ∧ f ≤ 1 ∧ (l1 = 0 → f = 0) ∧ (l2 = 0 → f = 1) ∧
      fractionalFlow l2 l1 = some (1 - f) := by
  have hp : 0 < l1 + l2 := by
    rcases h with h | h
    · have := lt_of_le_of_ne h1 h.symm; linarith
    · have := lt_of_le_of_ne h2 h.symm; linarith
  refine ⟨l1 / (l1 + l2), by rw [fractionalFlow, if_neg hp.ne'], by positivity, ?_, ?_, ?_, ?_⟩
  · rw [div_le_one hp]; linarith
  · intro h; simp [h]
  · intro h; rw [h, add_zero] at hp ⊢; exact div_self hp.ne'
  · rw [fractionalFlow, if_neg (by rw [add_comm]; exact hp.ne')]
    congr 1; rw [add_comm l2 l1]; field_simp; ring

example : fractionalFlow (1 : ℚ) 3 = some (1 / 4) := by decide +kernel

/-- **C16** The fractional flow of the anisotropic model also lies in `[0,1]`. -/
theorem C16_fractional_flow_aniso (l1 l2 : Fin 3 → K) (h1 : ∀ i, 0 ≤ l1 i) (h2 : ∀ i, 0 ≤ l2 i)
    (h : ∀ i, l1 i ≠ 0 ∨ l2 i ≠ 0) :
    ∃ f, fractionalFlowAniso l1 l2 = some f ∧ 0 ≤ f ∧ f ≤ 1 ∧
      (∀ l m, (∀ i, l1 i = l) → (∀ i, l2 i = m) → fractionalFlow l m = some f) := by
  obtain ⟨f0, a0, b0, c0, _⟩ := C16_fractional_flow (l1 0) (l2 0) (h1 0) (h2 0) (h 0)
  obtain ⟨f1, a1, b1, c1, _⟩ := C16_fractional_flow (l1 1) (l2 1) (h1 1) (h2 1) (h 1)
  obtain ⟨f2, a2, b2, c2, _⟩ := C16_fractional_flow (l1 2) (l2 2) (h1 2) (h2 2) (h 2)
  refine ⟨(0 + f0 + f1 + f2) / 3, by simp [fractionalFlowAniso, a0, a1, a2], by positivity, ?_, ?_⟩
  · rw [div_le_one (by norm_num)]; linarith
  · intro l m hl hm
    rw [hl, hm] at a0 a1 a2
    rw [a0] at a1 a2
    rw [a0]
    injection a1 with a1; injection a2 with a2
    rw [← a1, ← a2]
    congr 1; field_simp; ring

/-- **C16** Water and oil phase velocities add up to the total velocity in every cell, and each is the total velocity scaled by the fractional
flow of its phase. -/
theorem C16_phase_velocities (ff : Nat → K → Option K) (sat : List K) (vel w o : List (Vec K))
    (h : computePhaseVelocities ff sat vel = some (w, o)) :
    w.length = vel.length ∧ o.length = vel.length ∧
    ∀ (c : Nat) (v : Vec K), vel[c]? = some v → ∃ s f vw vo, sat[c]? = some s ∧ ff c s = some f ∧ w[c]? = some vw ∧ o[c]? = some vo ∧
      (∀ i, vw i + vo i = v i) ∧ (∀ i, vw i = f * v i) := by
  unfold computePhaseVelocities at h
  split at h
  · rename_i hlen
    have key : ∀ (l : List (K × Vec K)) (n : Nat) (r : List (Vec K × Vec K)),
        (l.zipIdx n).mapM (fun e => do let f ← ff e.2 e.1.1; pure (phaseVelocities f e.1.2)) = some r →
        r.length = l.length ∧ ∀ (c : Nat) (e : K × Vec K), l[c]? = some e → ∃ f, ff (n + c) e.1 = some f ∧ r[c]? = some (phaseVelocities f e.2) := by
      intro l
      induction l with
      | nil => intro n r hr; simp at hr; subst hr; simp
      | cons a l ih =>
        intro n r hr
        rw [List.zipIdx_cons, List.mapM_cons] at hr
        cases hf : ff n a.1 with
        | none => simp [hf] at hr
        | some f =>
          cases hm : (l.zipIdx (n + 1)).mapM (fun e => do let f ← ff e.2 e.1.1; pure (phaseVelocities f e.1.2)) with
          | none =>
            simp only [hf] at hr
            change (do let x ← some (phaseVelocities f a.2); let y ← List.mapM _ _; pure (x :: y)) = _ at hr
            rw [hm] at hr; cases hr
          | some r' =>
            simp only [hf] at hr
            change (do let x ← some (phaseVelocities f a.2); let y ← List.mapM _ _; pure (x :: y)) = _ at hr
            rw [hm] at hr
            injection hr with hr
            subst hr
            obtain ⟨i1, i2⟩ := ih (n + 1) r' hm
            refine ⟨by simp [i1], ?_⟩
            intro c e hc
            cases c with
            | zero => simp at hc; subst hc; exact ⟨f, by simpa using hf, rfl⟩
            | succ c =>
              simp at hc
              obtain ⟨g, hg, hg2⟩ := i2 c e hc
              exact ⟨g, by rw [← hg]; congr 1; omega, by simpa using hg2⟩
    cases hm : (sat.zip vel).zipIdx.mapM (fun e => do let f ← ff e.2 e.1.1; pure (phaseVelocities f e.1.2)) with
    | none => rw [hm] at h; cases h
    | some r =>
      rw [hm] at h
      injection h with h
      injection h with hw ho
      obtain ⟨k1, k2⟩ := key _ 0 r hm
      have hzl : (sat.zip vel).length = vel.length := by simp [hlen]
      refine ⟨by rw [← hw]; simp [k1, hzl, hlen], by rw [← ho]; simp [k1, hzl, hlen], ?_⟩
      intro c v hc
      have hcl : c < vel.length := by rw [List.getElem?_eq_some_iff] at hc; exact hc.1
      have hs : sat[c]? = some sat[c] := List.getElem?_eq_getElem (by omega)
      have hz : (sat.zip vel)[c]? = some (sat[c], v) := by
        rw [List.getElem?_zip_eq_some]; exact ⟨hs, hc⟩
      obtain ⟨f, hf, hr⟩ := k2 c _ hz
      rw [Nat.zero_add] at hf
      refine ⟨sat[c], f, (phaseVelocities f v).1, (phaseVelocities f v).2, hs, hf, ?_, ?_, ?_, ?_⟩
      · rw [← hw, List.getElem?_map, hr]; rfl
      · rw [← ho, List.getElem?_map, hr]; rfl
      · intro i; simp only [phaseVelocities]; ring
      · intro i; simp only [phaseVelocities]; ring
  · cases h

example : (computePhaseVelocities (fun _ s => fractionalFlow s (1 - s)) [(1 : ℚ) / 2, 1 / 4] [fun _ => 1, fun _ => 2]).isSome = true := by
  decide +kernel

/-- **C16** Without rock tables the mobilities and their reported derivatives are consistent: the water entry is the derivative of the
water mobility with respect to the water saturation, the oil entry that of the oil mobility with respect to the oil saturation
(exact second-order expansion). -/
theorem C16_quadratic_derivative (v1 v2 s h : K) :
    let d := phaseMobilitiesDeriv (quadRelPermDeriv false) (quadRelPermDeriv true) v1 v2 s
    mobility (quadRelPerm false) v1 (s + h) = mobility (quadRelPerm false) v1 s + d.1 * h + h * h / v1 ∧
    mobility (quadRelPerm true) v2 (s - h) = mobility (quadRelPerm true) v2 s + d.2.2.2 * h + h * h / v2 ∧
    d.2.1 = 0 ∧ d.2.2.1 = 0 := by
  refine ⟨?_, ?_, rfl, rfl⟩
  · simp [mobility, quadRelPerm, phaseMobilitiesDeriv, quadRelPermDeriv]; ring
  · simp [mobility, quadRelPerm, phaseMobilitiesDeriv, quadRelPermDeriv]; ring

/-- **C16** Without rock tables the mobilities are non-negative for positive viscosities and never both zero, so the fractional flow
exists for every saturation. -/
theorem C16_quadratic_mobility (v1 v2 s : K) (h1 : 0 < v1) (h2 : 0 < v2) :
    0 ≤ mobility (quadRelPerm false) v1 s ∧ 0 ≤ mobility (quadRelPerm true) v2 s ∧
    (mobility (quadRelPerm false) v1 s ≠ 0 ∨ mobility (quadRelPerm true) v2 s ≠ 0) := by
  simp only [mobility, quadRelPerm, Bool.false_eq_true, if_false, if_true]
  refine ⟨div_nonneg (mul_self_nonneg s) h1.le, div_nonneg (mul_self_nonneg _) h2.le, ?_⟩
  by_cases hs : s = 0
  · right; rw [hs]; simp [h2.ne']
  · left; exact div_ne_zero (mul_ne_zero hs hs) h1.ne'

/-! ### C60 -/

theorem cellVelocity_fold (cc : Vec K) (vol : K) (l : List (Face K)) (v0 : Vec K) (i : Fin 3) :
    l.foldl (fun v f i => v i + (f.centroid i - cc i) * (f.flux / vol)) v0 i =
      v0 i + (l.map fun f => (f.centroid i - cc i) * f.flux).sum / vol := by
  induction l generalizing v0 with
  | nil => simp
  | cons f l ih =>
    rw [List.foldl_cons, ih, List.map_cons, List.sum_cons]
    ring

/-- **C60** A constant velocity field is reproduced exactly on every cell that satisfies the divergence identity
`Σ_f (x_f - x_c)_i A_f n_f,j = V δ_ij` (true for every polyhedron with planar faces), when the fluxes are those of the field. -/
theorem C60_constant_velocity (c : Cell K) (u : Vec K) (hv : c.volume ≠ 0)
    (hflux : ∀ f ∈ c.faces, f.flux = f.area * ∑ j, f.normal j * u j)
    (hgauss : ∀ i j : Fin 3, (c.faces.map fun f => (f.centroid i - c.centroid i) * (f.area * f.normal j)).sum =
      if i = j then c.volume else 0) :
    cellVelocity c = u := by
  funext i
  unfold cellVelocity
  rw [cellVelocity_fold, zero_add]
  have h1 : (c.faces.map fun f => (f.centroid i - c.centroid i) * f.flux).sum =
      ∑ j, (c.faces.map fun f => (f.centroid i - c.centroid i) * (f.area * f.normal j)).sum * u j := by
    have : ∀ l : List (Face K), (∀ f ∈ l, f.flux = f.area * ∑ j, f.normal j * u j) →
        (l.map fun f => (f.centroid i - c.centroid i) * f.flux).sum =
        ∑ j, (l.map fun f => (f.centroid i - c.centroid i) * (f.area * f.normal j)).sum * u j := by
      intro l
      induction l with
      | nil => intro _; simp
      | cons f l ih =>
        intro hl
        simp only [List.map_cons, List.sum_cons, add_mul, Finset.sum_add_distrib]
        rw [← ih (fun g hg => hl g (List.mem_cons_of_mem _ hg)), hl f List.mem_cons_self]
        congr 1
        rw [Finset.mul_sum, Finset.mul_sum]
        apply Finset.sum_congr rfl
        intro j _; ring
    exact this _ hflux
  rw [h1]
  simp only [hgauss]
  rw [Finset.sum_congr rfl (g := fun j => if i = j then c.volume * u j else 0)]
  · rw [Finset.sum_ite_eq]; simp; field_simp
  · intro j _; split <;> simp_all

/-- A unit cube with its six faces. -/
def exCube (u : Vec ℚ) : Cell ℚ where
  centroid := ![0, 0, 0]
  volume := 8
  faces := (List.finRange 3).flatMap fun d => [
    ⟨.boundary 1, 4, fun i => if i = d then 1 else 0, fun i => if i = d then 1 else 0, 4 * u d⟩,
    ⟨.boundary 1, 4, fun i => if i = d then -1 else 0, fun i => if i = d then -1 else 0, -4 * u d⟩]

example : cellVelocity (exCube ![1, 2, 3]) = ![1, 2, 3] := by
  apply C60_constant_velocity
  · decide
  · decide +kernel
  · decide +kernel

/-- **C60** The estimate does not depend on the order of the faces. -/
theorem C60_order (c c' : Cell K) (hp : c.faces.Perm c'.faces) (hc : c.centroid = c'.centroid) (hv : c.volume = c'.volume) :
    cellVelocity c = cellVelocity c' := by
  funext i
  unfold cellVelocity
  rw [cellVelocity_fold, cellVelocity_fold, hc, hv, (hp.map _).sum_eq]

/-- **C60** The partitioned variant gives zero outside the selected partition and the same value inside. -/
theorem C60_partition (part : Nat → Int) (mine : Int) (c : Nat) (cell : Cell K) :
    (part c = mine → cellVelocityPart part mine c cell = cellVelocity cell) ∧
    (part c ≠ mine → cellVelocityPart part mine c cell = fun _ => 0) := by
  unfold cellVelocityPart
  exact ⟨fun h => if_neg (by simpa using h), fun h => if_pos h⟩

/-- The faces of cell `k` as half-faces with outward fluxes, taken from a list of faces with two sides each. -/
def halfFaces (faces : List (SFace K)) (k : Nat) : List (Vec K × K) :=
  faces.flatMap fun f =>
    (if f.c0 = some k then [(f.centroid, f.flux)] else []) ++ (if f.c1 = some k then [(f.centroid, - f.flux)] else [])

/-- **C60** The face-based estimate gives every cell the same value as the cell-based one applied to its half-faces with outward fluxes. -/
theorem C60_simple_interface (cc : Nat → Vec K) (vol : Nat → K) (faces : List (SFace K)) (k : Nat) (i : Fin 3) :
    cellVelocitySimple cc vol faces k i =
      ((halfFaces faces k).map fun h => (h.1 i - cc k i) * (h.2 / vol k)).sum := by
  have : ∀ (l : List (SFace K)) (v : Nat → Vec K), l.foldl (simpleStep cc vol) v k i =
      v k i + ((halfFaces l k).map fun h => (h.1 i - cc k i) * (h.2 / vol k)).sum := by
    intro l
    induction l with
    | nil => intro v; simp [halfFaces]
    | cons f l ih =>
      intro v
      rw [List.foldl_cons, ih]
      have hh : halfFaces (f :: l) k = ((if f.c0 = some k then [(f.centroid, f.flux)] else []) ++
        (if f.c1 = some k then [(f.centroid, - f.flux)] else [])) ++ halfFaces l k := by
        simp [halfFaces]
      rw [hh, List.map_append, List.sum_append, ← add_assoc]
      congr 1
      unfold simpleStep
      cases h0 : f.c0 with
      | none =>
        cases h1 : f.c1 with
        | none => simp
        | some b =>
          by_cases hb : k = b
          · subst hb; simp; ring
          · have : ¬ b = k := fun e => hb e.symm
            simp [hb, this]
      | some a =>
        by_cases ha : k = a
        · subst ha
          cases h1 : f.c1 with
          | none => simp
          | some b =>
            by_cases hb : k = b
            · subst hb; simp; ring
            · have : ¬ b = k := fun e => hb e.symm
              simp [hb, this]
        · have ha' : ¬ a = k := fun e => ha e.symm
          cases h1 : f.c1 with
          | none => simp [ha, ha']
          | some b =>
            by_cases hb : k = b
            · subst hb; simp [ha, ha']; ring
            · have : ¬ b = k := fun e => hb e.symm
              simp [ha, ha', hb, this]
  have h := this faces (fun _ _ => 0)
  rw [zero_add] at h
  exact h

example : halfFaces [⟨some 0, some 1, fun _ => (0 : ℚ), 1⟩] 1 = [(fun _ => 0, -1)] := rfl

end Verif.FracFlow
