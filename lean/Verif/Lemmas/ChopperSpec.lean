import Verif.Lemmas.Chopper
import Verif.Spec.Chopper

/-!
The chopper's layer search and limits, in terms of corners of the Eclipse grid (C29, C30).
-/

namespace Verif.Chopper

open Verif.Spec.Chop

variable {K : Type} [Field K] [LinearOrder K]

/-! ### the layers -/

theorem zcornNo_eq (nx ny i j k cc : Nat) (hc : cc < 8) :
    cornerIndex nx ny i j k cc = zcornNo nx ny i j k (cc % 2) (cc / 2 % 2) (cc / 4) :=
  cornerIndex_eq nx ny i j k cc hc

theorem zcornNo_corner (nx ny i j k a b c : Nat) (ha : a < 2) (hb : b < 2) (hc : c < 2) :
    zcornNo nx ny i j k a b c = cornerIndex nx ny i j k (a + 2 * b + 4 * c) := by
  rw [zcornNo_eq _ _ _ _ _ _ (by omega)]
  congr 1 <;> omega

theorem mem_slice {α : Type} (l : List α) (s n : Nat) (x : α) :
    x ∈ (l.drop s).take n ↔ ∃ p, s ≤ p ∧ p < s + n ∧ l[p]? = some x := by
  rw [List.mem_iff_getElem?]
  constructor
  · rintro ⟨q, hq⟩
    rw [List.getElem?_take] at hq
    split at hq
    · rename_i hlt
      rw [List.getElem?_drop] at hq
      exact ⟨s + q, by omega, by omega, hq⟩
    · exact absurd hq (by simp)
  · rintro ⟨p, h1, h2, h3⟩
    refine ⟨p - s, ?_⟩
    rw [List.getElem?_take, if_pos (by omega), List.getElem?_drop]
    rw [show s + (p - s) = p by omega]
    exact h3

omit [Field K] [LinearOrder K] in
/-- The corners of layer `k`. -/
theorem layer_corner_range (nx ny k p : Nat) (h1 : k * (8 * nx * ny) ≤ p) (h2 : p < k * (8 * nx * ny) + 8 * nx * ny) :
    ∃ i j a b c, i < nx ∧ j < ny ∧ a < 2 ∧ b < 2 ∧ c < 2 ∧ zcornNo nx ny i j k a b c = p := by
  have hp : p < 8 * (nx * ny * (k + 1)) := by
    calc p < k * (8 * nx * ny) + 8 * nx * ny := h2
      _ = 8 * (nx * ny * (k + 1)) := by ring
  obtain ⟨i, j, k', cc, hi, hj, hk, hc, e⟩ := cornerIndex_surj hp
  have hkk : k' = k := by
    by_contra hne
    have : cornerIndex nx ny i j k' cc < 8 * (nx * ny * k) := cornerIndex_lt hi hj (by omega) hc
    rw [e] at this
    have e2 : 8 * (nx * ny * k) = k * (8 * nx * ny) := by ring
    omega
  subst hkk
  refine ⟨i, j, cc % 2, cc / 2 % 2, cc / 4, hi, hj, by omega, by omega, by omega, ?_⟩
  rw [← zcornNo_eq _ _ _ _ _ _ hc]
  exact e

omit [Field K] [LinearOrder K] in
theorem corner_layer_range {nx ny i j k a b c : Nat} (hi : i < nx) (hj : j < ny) (ha : a < 2) (hb : b < 2) (hc : c < 2) :
    k * (8 * nx * ny) ≤ zcornNo nx ny i j k a b c ∧ zcornNo nx ny i j k a b c < k * (8 * nx * ny) + 8 * nx * ny := by
  constructor
  · unfold zcornNo
    have : k * (8 * nx * ny) = 2 * nx * (2 * ny * (2 * k)) := by ring
    rw [this]
    have h1 : 2 * ny * (2 * k) ≤ 2 * j + b + 2 * ny * (2 * k + c) := by
      calc 2 * ny * (2 * k) ≤ 2 * ny * (2 * k + c) := Nat.mul_le_mul_left _ (by omega)
        _ ≤ _ := by omega
    calc _ ≤ 2 * nx * (2 * j + b + 2 * ny * (2 * k + c)) := Nat.mul_le_mul_left _ h1
      _ ≤ _ := by omega
  · rw [zcornNo_corner _ _ _ _ _ _ _ _ ha hb hc]
    have := cornerIndex_lt (nz := k + 1) hi hj (Nat.lt_succ_self k) (show a + 2 * b + 4 * c < 8 by omega)
    calc _ < 8 * (nx * ny * (k + 1)) := this
      _ = _ := by ring

theorem layerHas_iff (D : Deck K) (k : Nat) (P : K → Prop) : (∃ x ∈ layer D k, P x) ↔ LayerHas D k P := by
  unfold layer LayerHas depth Deck.layersz
  constructor
  · rintro ⟨x, hx, hP⟩
    obtain ⟨p, h1, h2, h3⟩ := (mem_slice _ _ _ _).mp hx
    obtain ⟨i, j, a, b, c, hi, hj, ha, hb, hc, e⟩ := layer_corner_range D.nx D.ny k p h1 h2
    exact ⟨i, j, a, b, c, x, hi, hj, ha, hb, hc, by rw [e]; exact h3, hP⟩
  · rintro ⟨i, j, a, b, c, z, hi, hj, ha, hb, hc, e, hP⟩
    obtain ⟨h1, h2⟩ := corner_layer_range (k := k) hi hj ha hb hc
    exact ⟨z, (mem_slice _ _ _ _).mpr ⟨_, h1, h2, e⟩, hP⟩

theorem findKmin_spec (D : Deck K) (z : K) :
    (∀ k, findKmin D z = some k ↔ k < D.nz ∧ LayerHas D k (z < ·) ∧ ∀ k', k' < k → ¬ LayerHas D k' (z < ·)) ∧
    (findKmin D z = none ↔ ∀ k, k < D.nz → ¬ LayerHas D k (z < ·)) := by
  unfold findKmin
  constructor
  · intro k
    rw [List.find?_range_eq_some]
    constructor
    · rintro ⟨h1, h2, h3⟩
      refine ⟨List.mem_range.mp h2, ?_, ?_⟩
      · rw [← layerHas_iff]; exact (maxElt_gt z).mp h1
      · intro k' hk' hh
        rw [← layerHas_iff] at hh
        exact Bool.noConfusion (((Bool.not_eq_true' _).mp (h3 k' hk')).symm.trans ((maxElt_gt z).mpr hh))
    · rintro ⟨h1, h2, h3⟩
      refine ⟨(maxElt_gt z).mpr ((layerHas_iff _ _ _).mpr h2), List.mem_range.mpr h1, ?_⟩
      intro k' hk'
      rw [Bool.not_eq_true', ← Bool.not_eq_true]
      exact fun h => h3 k' hk' ((layerHas_iff _ _ _).mp ((maxElt_gt z).mp h))
  · rw [List.find?_eq_none]
    constructor
    · intro h k hk hh
      exact h k (List.mem_range.mpr hk) ((maxElt_gt z).mpr ((layerHas_iff _ _ _).mpr hh))
    · intro h k hk hh
      exact h k (List.mem_range.mp hk) ((layerHas_iff _ _ _).mp ((maxElt_gt z).mp hh))

theorem find_rev_range (p : Nat → Bool) (n k : Nat) :
    (List.range n).reverse.find? p = some k ↔ k < n ∧ p k = true ∧ ∀ k', k < k' → k' < n → p k' = false := by
  induction n with
  | zero => simp
  | succ n ih =>
    rw [List.range_succ, List.reverse_append, List.reverse_singleton, List.singleton_append, List.find?_cons]
    by_cases h : p n = true
    · simp only [h]
      constructor
      · intro e
        have := Option.some.inj e
        subst this
        exact ⟨by omega, h, fun k' h1 h2 => by omega⟩
      · rintro ⟨h1, h2, h3⟩
        by_cases hk : k = n
        · rw [hk]
        · have := h3 n (by omega) (by omega)
          rw [h] at this
          exact absurd this (by simp)
    · rw [Bool.not_eq_true] at h
      simp only [h]
      rw [ih]
      constructor
      · rintro ⟨h1, h2, h3⟩
        refine ⟨by omega, h2, fun k' h4 h5 => ?_⟩
        by_cases hk : k' = n
        · rw [hk]; exact h
        · exact h3 k' h4 (by omega)
      · rintro ⟨h1, h2, h3⟩
        have : k ≠ n := by rintro rfl; rw [h] at h2; exact absurd h2 (by simp)
        exact ⟨by omega, h2, fun k' h4 h5 => h3 k' h4 (by omega)⟩

theorem findKmax_spec (D : Deck K) (z : K) :
    (∀ k, findKmax D z = some k ↔ 1 ≤ k ∧ k ≤ D.nz ∧ LayerHas D (k - 1) (· < z) ∧
      ∀ k', k ≤ k' → k' < D.nz → ¬ LayerHas D k' (· < z)) ∧
    (findKmax D z = none ↔ ∀ k, k < D.nz → ¬ LayerHas D k (· < z)) := by
  unfold findKmax
  constructor
  · intro k
    rw [Option.map_eq_some_iff]
    constructor
    · rintro ⟨q, hq, rfl⟩
      rw [find_rev_range] at hq
      obtain ⟨h1, h2, h3⟩ := hq
      refine ⟨by omega, by omega, ?_, ?_⟩
      · rw [← layerHas_iff]; exact (minElt_lt z).mp h2
      · intro k' h4 h5 hh
        rw [← layerHas_iff] at hh
        exact Bool.noConfusion ((h3 k' (by omega) h5).symm.trans ((minElt_lt z).mpr hh))
    · rintro ⟨h1, h2, h3, h4⟩
      refine ⟨k - 1, ?_, by omega⟩
      rw [find_rev_range]
      refine ⟨by omega, (minElt_lt z).mpr ((layerHas_iff _ _ _).mpr h3), ?_⟩
      intro k' h5 h6
      rw [← Bool.not_eq_true]
      exact fun h => h4 k' (by omega) h6 ((layerHas_iff _ _ _).mp ((minElt_lt z).mp h))
  · rw [Option.map_eq_none_iff, List.find?_eq_none]
    constructor
    · intro h k hk hh
      exact h k (by simpa using hk) ((minElt_lt z).mpr ((layerHas_iff _ _ _).mpr hh))
    · intro h k hk hh
      exact h k (by simpa using hk) ((layerHas_iff _ _ _).mp ((minElt_lt z).mp hh))

/-! ### the limits -/

omit [Field K] [LinearOrder K] in
/-- The first half of layer 0 is the top surface. -/
theorem top_half (nx ny p : Nat) (hp : p < 4 * nx * ny) :
    ∃ i j a b, i < nx ∧ j < ny ∧ a < 2 ∧ b < 2 ∧ zcornNo nx ny i j 0 a b 0 = p := by
  obtain ⟨i, j, a, b, c, hi, hj, ha, hb, hc, e⟩ := layer_corner_range nx ny 0 p (by omega)
    (by have : 8 * nx * ny = 2 * (4 * nx * ny) := by ring
        omega)
  refine ⟨i, j, a, b, hi, hj, ha, hb, ?_⟩
  have hc0 : c = 0 := by
    by_contra hne
    have h1 : c = 1 := by omega
    subst h1
    unfold zcornNo at e
    have : 4 * nx * ny = 2 * nx * (2 * ny * (2 * 0 + 1)) := by ring
    have h2 : 2 * nx * (2 * ny * (2 * 0 + 1)) ≤ 2 * nx * (2 * j + b + 2 * ny * (2 * 0 + 1)) :=
      Nat.mul_le_mul_left _ (by omega)
    omega
  rw [hc0] at e
  exact e

omit [Field K] [LinearOrder K] in
theorem top_half_lt {nx ny i j a b : Nat} (hi : i < nx) (hj : j < ny) (ha : a < 2) (hb : b < 2) :
    zcornNo nx ny i j 0 a b 0 < 4 * nx * ny := by
  unfold zcornNo
  have h1 := radix_lt (n := 2 * nx) (m := 2 * ny) (a := 2 * i + a) (b := 2 * j + b) (by omega) (by omega)
  calc _ = 2 * i + a + 2 * nx * (2 * j + b) := by ring
    _ < 2 * nx * (2 * ny) := h1
    _ = _ := by ring

omit [Field K] [LinearOrder K] in
/-- The second half of layer `k` is its bottom surface. -/
theorem bottom_half (nx ny k p : Nat) (h1 : k * (8 * nx * ny) + 4 * nx * ny ≤ p)
    (h2 : p < k * (8 * nx * ny) + 8 * nx * ny) :
    ∃ i j a b, i < nx ∧ j < ny ∧ a < 2 ∧ b < 2 ∧ zcornNo nx ny i j k a b 1 = p := by
  obtain ⟨i, j, a, b, c, hi, hj, ha, hb, hc, e⟩ := layer_corner_range nx ny k p (by omega) h2
  refine ⟨i, j, a, b, hi, hj, ha, hb, ?_⟩
  have hc1 : c = 1 := by
    by_contra hne
    have h0 : c = 0 := by omega
    subst h0
    unfold zcornNo at e
    have h3 := radix_lt (n := 2 * nx) (m := 2 * ny) (a := 2 * i + a) (b := 2 * j + b) (by omega) (by omega)
    have h4 : 2 * i + a + 2 * nx * (2 * j + b + 2 * ny * (2 * k + 0)) =
        (2 * i + a + 2 * nx * (2 * j + b)) + k * (8 * nx * ny) := by ring
    have h5 : 2 * nx * (2 * ny) = 4 * nx * ny := by ring
    omega
  rw [hc1] at e
  exact e

omit [Field K] [LinearOrder K] in
theorem bottom_half_range {nx ny i j k a b : Nat} (hi : i < nx) (hj : j < ny) (ha : a < 2) (hb : b < 2) :
    k * (8 * nx * ny) + 4 * nx * ny ≤ zcornNo nx ny i j k a b 1 := by
  unfold zcornNo
  have h4 : 2 * i + a + 2 * nx * (2 * j + b + 2 * ny * (2 * k + 1)) =
      (2 * i + a + 2 * nx * (2 * j + b)) + (k * (8 * nx * ny) + 4 * nx * ny) := by ring
  omega

theorem limits_zrange (D : Deck K) (hD : WF D) (L : Limits K) (hL : limits D = some L) (R : Req K) :
    ZRange D R (max R.zmin L.botmax) (min R.zmax L.topmin) := by
  have hhalf : D.layersz / 2 = 4 * D.nx * D.ny := by
    have : 8 * D.nx * D.ny = 2 * (4 * D.nx * D.ny) := by ring
    unfold Deck.layersz
    omega
  have hdrop : D.nz * D.layersz - D.layersz / 2 = (D.nz - 1) * (8 * D.nx * D.ny) + 4 * D.nx * D.ny := by
    have hz := hD.nz
    obtain ⟨m, hm⟩ : ∃ m, D.nz = m + 1 := ⟨D.nz - 1, by omega⟩
    rw [hhalf, hm]
    unfold Deck.layersz
    have : (m + 1) * (8 * D.nx * D.ny) = m * (8 * D.nx * D.ny) + 2 * (4 * D.nx * D.ny) := by ring
    rw [this, Nat.add_sub_cancel]
    omega
  unfold limits at hL
  split at hL
  · exact absurd hL (by simp)
  · split at hL
    · rename_i b t mn mx h1 h2 h3 h4
      have := Option.some.inj hL
      subst this
      obtain ⟨b1, b2⟩ := maxElt_spec h1
      obtain ⟨t1, t2⟩ := minElt_spec h2
      have mtop : ∀ x, x ∈ D.zcorn.take (D.layersz / 2) ↔ ∃ p, p < 4 * D.nx * D.ny ∧ D.zcorn[p]? = some x := by
        intro x
        have := mem_slice D.zcorn 0 (D.layersz / 2) x
        simp only [List.drop_zero, Nat.zero_add, Nat.zero_le, true_and, hhalf] at this
        rw [hhalf]; exact this
      have mbot : ∀ x, x ∈ (D.zcorn.drop (D.nz * D.layersz - D.layersz / 2)).take (D.layersz / 2) ↔
          ∃ p, (D.nz - 1) * (8 * D.nx * D.ny) + 4 * D.nx * D.ny ≤ p ∧
            p < (D.nz - 1) * (8 * D.nx * D.ny) + 8 * D.nx * D.ny ∧ D.zcorn[p]? = some x := by
        intro x
        have := mem_slice D.zcorn (D.nz * D.layersz - D.layersz / 2) (D.layersz / 2) x
        rw [this, hdrop, hhalf]
        have e : 8 * D.nx * D.ny = 4 * D.nx * D.ny + 4 * D.nx * D.ny := by ring
        constructor
        · rintro ⟨p, q1, q2, q3⟩; exact ⟨p, q1, by omega, q3⟩
        · rintro ⟨p, q1, q2, q3⟩; exact ⟨p, q1, by omega, q3⟩
      refine ⟨le_max_left _ _, ?_, ?_, min_le_left _ _, ?_, ?_⟩
      · intro i j a b z hi hj ha hb hz
        exact le_trans (b2 z ((mtop z).mpr ⟨_, top_half_lt hi hj ha hb, hz⟩)) (le_max_right _ _)
      · rcases max_choice R.zmin b with e | e
        · left; exact e
        · right
          rw [e]
          obtain ⟨p, hp, hb⟩ := (mtop b).mp b1
          obtain ⟨i, j, a, b', hi, hj, ha, hb', ep⟩ := top_half D.nx D.ny p hp
          exact ⟨i, j, a, b', hi, hj, ha, hb', by unfold depth; rw [ep]; exact hb⟩
      · intro i j a b z hi hj ha hb hz
        exact le_trans (min_le_right _ _) (t2 z ((mbot z).mpr
          ⟨_, bottom_half_range hi hj ha hb, (corner_layer_range hi hj ha hb (by omega)).2, hz⟩))
      · rcases min_choice R.zmax t with e | e
        · left; exact e
        · right
          rw [e]
          obtain ⟨p, hp1, hp2, hb⟩ := (mbot t).mp t1
          obtain ⟨i, j, a, b', hi, hj, ha, hb', ep⟩ := bottom_half D.nx D.ny _ p hp1 hp2
          exact ⟨i, j, a, b', hi, hj, ha, hb', by unfold depth; rw [ep]; exact hb⟩
    · exact absurd hL (by simp)


/-! ### the array writes -/

theorem mem_coordWrites (D : Deck K) (R : Req K) (xc yc : K) (w : Nat × Option K) :
    w ∈ coordWrites D R xc yc ↔ ∃ j i c, R.jmin ≤ j ∧ j ≤ R.jmax ∧ R.imin ≤ i ∧ i ≤ R.imax ∧ c < 6 ∧
      w = (6 * ((R.imax - R.imin + 1) * (j - R.jmin) + (i - R.imin)) + c,
          coordValue D R xc yc ((D.nx + 1) * j + i) c) := by
  simp only [coordWrites, List.mem_flatMap, List.mem_map, mem_loop, List.mem_range]
  constructor
  · rintro ⟨j, ⟨h1, h2⟩, i, ⟨h3, h4⟩, c, hc, rfl⟩
    exact ⟨j, i, c, h1, by omega, h3, by omega, hc, rfl⟩
  · rintro ⟨j, i, c, h1, h2, h3, h4, hc, rfl⟩
    exact ⟨j, ⟨h1, by omega⟩, i, ⟨h3, by omega⟩, c, hc, rfl⟩

theorem coord_lt {n m i j c : Nat} (hi : i < n) (hj : j < m) (hc : c < 6) : 6 * (n * j + i) + c < 6 * n * m := by
  have := radix_lt hi hj
  have e : 6 * n * m = 6 * (n * m) := by ring
  omega

theorem coord_inj {n i j c i' j' c' : Nat} (hi : i < n) (hi' : i' < n) (hc : c < 6) (hc' : c' < 6)
    (h : 6 * (n * j + i) + c = 6 * (n * j' + i') + c') : i = i' ∧ j = j' ∧ c = c' := by
  obtain ⟨h1, h2⟩ := radix_inj (n := 6) (b := n * j + i) (d := n * j' + i') hc hc' (by omega)
  obtain ⟨h3, h4⟩ := radix_inj (n := n) (b := j) (d := j') hi hi' (by omega)
  exact ⟨h3, h4, h1⟩

theorem coordWrites_ok (D : Deck K) (hD : WF D) (R : Req K) (hR : InGrid D R) (xc yc : K) (l : List K)
    (hl : l.length = 6 * (R.imax - R.imin + 1) * (R.jmax - R.jmin + 1)) :
    ∃ r, applyWrites (coordWrites D R xc yc) l = some r ∧ r.length = l.length ∧
      ∀ i j c, i ≤ R.imax - R.imin → j ≤ R.jmax - R.jmin → c < 6 →
        r[6 * ((R.imax - R.imin + 1) * j + i) + c]? = coordValue D R xc yc ((D.nx + 1) * (R.jmin + j) + (R.imin + i)) c ∧
        (D.coord[6 * ((D.nx + 1) * (R.jmin + j) + (R.imin + i)) + c]?).isSome = true := by
  obtain ⟨g1, g2, g3, g4⟩ := hR
  have hval : ∀ i j c, i ≤ R.imax → j ≤ R.jmax → c < 6 → 6 * ((D.nx + 1) * j + i) + c < D.coord.length := by
    intro i j c hi hj hc
    rw [hD.coord]
    exact coord_lt (by omega) (by omega) hc
  obtain ⟨r, e, hlen, hw, _⟩ := aw_spec (coordWrites D R xc yc) l
    (by
      intro w hw
      obtain ⟨j, i, c, h1, h2, h3, h4, hc, rfl⟩ := (mem_coordWrites _ _ _ _ _).mp hw
      rw [hl]
      exact coord_lt (by omega) (by omega) hc)
    (by
      intro w hw
      obtain ⟨j, i, c, h1, h2, h3, h4, hc, rfl⟩ := (mem_coordWrites _ _ _ _ _).mp hw
      simp only [coordValue, Option.isSome_map]
      rw [List.getElem?_eq_getElem (hval i j c h4 h2 hc)]
      rfl)
    (by
      intro w hw w' hw' heq
      obtain ⟨j, i, c, h1, h2, h3, h4, hc, rfl⟩ := (mem_coordWrites _ _ _ _ _).mp hw
      obtain ⟨j', i', c', h1', h2', h3', h4', hc', rfl⟩ := (mem_coordWrites _ _ _ _ _).mp hw'
      obtain ⟨q1, q2, q3⟩ := coord_inj (by omega) (by omega) hc hc' heq
      have : i = i' := by omega
      have : j = j' := by omega
      subst_vars
      rfl)
  refine ⟨r, e, hlen, ?_⟩
  intro i j c hi hj hc
  constructor
  · have := hw _ ((mem_coordWrites D R xc yc _).mpr ⟨R.jmin + j, R.imin + i, c, by omega, by omega, by omega, by omega, hc, rfl⟩)
    simpa using this
  · rw [List.getElem?_eq_getElem (hval (R.imin + i) (R.jmin + j) c (by omega) (by omega) hc)]
    rfl

theorem mem_zcornWrites (D : Deck K) (R : Req K) (zmin zmax corr : K) (kmin kmax : Nat) (w : Nat × Option K) :
    w ∈ zcornWrites D R zmin zmax corr kmin kmax ↔ ∃ i j k cc, (R.imin ≤ i ∧ i < R.imax) ∧ (R.jmin ≤ j ∧ j < R.jmax) ∧
      (kmin ≤ k ∧ k < kmax) ∧ cc < 8 ∧
      w = (cornerIndex (R.imax - R.imin) (R.jmax - R.jmin) (i - R.imin) (j - R.jmin) (k - kmin) cc,
        (D.zcorn[cornerIndex D.nx D.ny i j k cc]?).map fun z => min zmax (max zmin z) - corr) := by
  simp only [zcornWrites, List.mem_flatMap, List.mem_map, List.mem_range, mem_cellLoop]
  constructor
  · rintro ⟨c, ⟨h1, h2, h3⟩, cc, hc, rfl⟩
    exact ⟨c.1, c.2.1, c.2.2, cc, h1, h2, h3, hc, rfl⟩
  · rintro ⟨i, j, k, cc, h1, h2, h3, hc, rfl⟩
    exact ⟨(i, j, k), ⟨h1, h2, h3⟩, cc, hc, rfl⟩

theorem zcornWrites_ok (D : Deck K) (hD : WF D) (R : Req K) (hR : InGrid D R) (zmin zmax corr : K) (kmin kmax : Nat)
    (hk : kmax ≤ D.nz) (l : List K)
    (hl : l.length = 8 * ((R.imax - R.imin) * (R.jmax - R.jmin) * (kmax - kmin))) :
    ∃ r, applyWrites (zcornWrites D R zmin zmax corr kmin kmax) l = some r ∧ r.length = l.length ∧
      ∀ i j k cc, i < R.imax - R.imin → j < R.jmax - R.jmin → k < kmax - kmin → cc < 8 →
        ∃ z, D.zcorn[cornerIndex D.nx D.ny (R.imin + i) (R.jmin + j) (kmin + k) cc]? = some z ∧
        r[cornerIndex (R.imax - R.imin) (R.jmax - R.jmin) i j k cc]? = some (min zmax (max zmin z) - corr) := by
  obtain ⟨g1, g2, g3, g4⟩ := hR
  have hval : ∀ i j k cc, i < R.imax → j < R.jmax → k < kmax → cc < 8 →
      cornerIndex D.nx D.ny i j k cc < D.zcorn.length := by
    intro i j k cc hi hj hkk hc
    have := cornerIndex_lt (nx := D.nx) (ny := D.ny) (nz := D.nz) (i := i) (j := j) (k := k)
      (by omega) (by omega) (by omega) hc
    rw [hD.zcorn]
    calc _ < _ := this
      _ = _ := by ring
  obtain ⟨r, e, hlen, hw, _⟩ := aw_spec (zcornWrites D R zmin zmax corr kmin kmax) l
    (by
      intro w hw
      obtain ⟨i, j, k, cc, h1, h2, h3, hc, rfl⟩ := (mem_zcornWrites _ _ _ _ _ _ _ _).mp hw
      rw [hl]
      exact cornerIndex_lt (by omega) (by omega) (by omega) hc)
    (by
      intro w hw
      obtain ⟨i, j, k, cc, h1, h2, h3, hc, rfl⟩ := (mem_zcornWrites _ _ _ _ _ _ _ _).mp hw
      simp only [Option.isSome_map]
      rw [List.getElem?_eq_getElem (hval i j k cc h1.2 h2.2 h3.2 hc)]
      rfl)
    (by
      intro w hw w' hw' heq
      obtain ⟨i, j, k, cc, h1, h2, h3, hc, rfl⟩ := (mem_zcornWrites _ _ _ _ _ _ _ _).mp hw
      obtain ⟨i', j', k', cc', h1', h2', h3', hc', rfl⟩ := (mem_zcornWrites _ _ _ _ _ _ _ _).mp hw'
      obtain ⟨q1, q2, q3, q4⟩ := cornerIndex_inj (by omega) (by omega) (by omega) (by omega) hc hc' heq
      have : i = i' := by omega
      have : j = j' := by omega
      have : k = k' := by omega
      subst_vars
      rfl)
  refine ⟨r, e, hlen, ?_⟩
  intro i j k cc hi hj hkk hc
  have hz := List.getElem?_eq_getElem (hval (R.imin + i) (R.jmin + j) (kmin + k) cc (by omega) (by omega) (by omega) hc)
  refine ⟨_, hz, ?_⟩
  have := hw _ ((mem_zcornWrites D R zmin zmax corr kmin kmax _).mpr
    ⟨R.imin + i, R.jmin + j, kmin + k, cc, by omega, by omega, by omega, hc, rfl⟩)
  simp only [Nat.add_sub_cancel_left, hz] at this
  exact this

theorem oldCellWrites_ok (D : Deck K) (R : Req K) (kmin kmax : Nat) (l : List Nat)
    (hl : l.length = (R.imax - R.imin) * (R.jmax - R.jmin) * (kmax - kmin)) :
    applyWrites (oldCellWrites D R kmin kmax) l = some ((cellLoop R kmin kmax).map fun c =>
      D.nx * D.ny * c.2.2 + D.nx * c.2.1 + c.1) := by
  have hmem : ∀ w, w ∈ oldCellWrites D R kmin kmax ↔ ∃ c q, (cellLoop R kmin kmax)[q]? = some c ∧
      w = (q, some (D.nx * D.ny * c.2.2 + D.nx * c.2.1 + c.1)) := by
    intro w
    simp only [oldCellWrites, List.mem_map]
    constructor
    · rintro ⟨⟨c, q⟩, h1, rfl⟩
      exact ⟨c, q, List.mem_zipIdx_iff_getElem?.mp h1, rfl⟩
    · rintro ⟨c, q, h1, rfl⟩
      exact ⟨(c, q), List.mem_zipIdx_iff_getElem?.mpr h1, rfl⟩
  have hlen := cellLoop_length R kmin kmax
  obtain ⟨r, e, hr, hw, _⟩ := aw_spec (oldCellWrites D R kmin kmax) l
    (by
      intro w hw
      obtain ⟨c, q, h1, rfl⟩ := (hmem _).mp hw
      have := (List.getElem?_eq_some_iff.mp h1).1
      show q < l.length
      omega)
    (by
      intro w hw
      obtain ⟨c, q, h1, rfl⟩ := (hmem _).mp hw
      rfl)
    (by
      intro w hw w' hw' heq
      obtain ⟨c, q, h1, rfl⟩ := (hmem _).mp hw
      obtain ⟨c', q', h1', rfl⟩ := (hmem _).mp hw'
      have heq : q = q' := heq
      subst heq
      rw [h1] at h1'
      rw [Option.some.inj h1'])
  rw [e]
  congr 1
  apply List.ext_getElem?
  intro q
  rw [List.getElem?_map]
  by_cases hq : q < (cellLoop R kmin kmax).length
  · have hc := List.getElem?_eq_getElem hq
    have := hw _ ((hmem _).mpr ⟨_, q, hc, rfl⟩)
    rw [hc]
    exact this
  · rw [List.getElem?_eq_none (by omega), List.getElem?_eq_none (by omega)]
    rfl

theorem filterField_ok (f : List K) (n2o : List Nat) (h : ∀ p ∈ n2o, p < f.length) :
    ∃ l, filterField f n2o = some l ∧ l.length = n2o.length ∧
      ∀ q p : Nat, n2o[q]? = some p → l[q]? = f[p]? := by
  unfold filterField
  induction n2o with
  | nil => exact ⟨[], rfl, rfl, fun q p hq => by simp at hq⟩
  | cons a n2o ih =>
    obtain ⟨l, e, hl, hg⟩ := ih (fun p hp => h p (List.mem_cons_of_mem _ hp))
    have ha := List.getElem?_eq_getElem (h a (List.mem_cons_self ..))
    refine ⟨f[a]'(h a (List.mem_cons_self ..)) :: l, ?_, by simp [hl], ?_⟩
    · rw [List.mapM_cons, ha, e]; rfl
    · intro q p hq
      cases q with
      | zero =>
        simp only [List.getElem?_cons_zero, Option.some.injEq] at hq
        subst hq
        rw [ha]
        rfl
      | succ q =>
        simp only [List.getElem?_cons_succ] at hq ⊢
        exact hg q p hq

/-- The fold over the keywords. -/
theorem keywords_fold (D : Deck K) (n2o : List Nat) (kws : List String) (g : String → List K)
    (h : ∀ kw ∈ kws, ∀ f, D.field kw = some f → ∃ l, filterField f n2o = some l) :
    kws.foldl (filterKeyword D n2o) (some g) = some fun k =>
      if k ∈ kws then (match D.field k with
        | none => g k
        | some f => (filterField f n2o).getD []) else g k := by
  induction kws generalizing g with
  | nil => simp
  | cons kw kws ih =>
    rw [List.foldl_cons]
    have hstep : ∃ g', filterKeyword D n2o (some g) kw = some g' ∧ ∀ k, g' k =
        if k = kw then (match D.field k with
        | none => g k
        | some f => (filterField f n2o).getD []) else g k := by
      unfold filterKeyword
      cases hf : D.field kw with
      | none =>
        refine ⟨g, rfl, ?_⟩
        intro k
        by_cases hk : k = kw
        · subst hk; simp [hf]
        · simp [hk]
      | some f =>
        obtain ⟨l, hl⟩ := h kw (List.mem_cons_self ..) f hf
        refine ⟨fun k => if k = kw then l else g k, by simp only [hl], ?_⟩
        intro k
        by_cases hk : k = kw
        · subst hk; simp [hf, hl]
        · simp [hk]
    obtain ⟨g', e, hg'⟩ := hstep
    rw [e, ih g' (fun k hk => h k (List.mem_cons_of_mem _ hk))]
    congr 1
    funext k
    by_cases h1 : k = kw
    · subst h1
      rw [hg' k]
      by_cases h2 : k ∈ kws
      · simp only [h2, List.mem_cons_self, if_true]
        cases D.field k <;> rfl
      · simp [h2]
    · rw [hg' k]
      simp [h1]

end Verif.Chopper
