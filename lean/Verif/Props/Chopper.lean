import Verif.Lemmas.ChopperSpec
import Mathlib.Algebra.Field.Rat
import Mathlib.Algebra.Order.Ring.Unbundled.Rat
import Mathlib.Tactic.NormNum
import Mathlib.Data.List.Nodup

/-!
C29 (chopping selects the requested sub-box) and C30 (history independence, rejected requests).
-/

namespace Verif.Chopper

open Verif.Spec.Chop

variable {K : Type} [Field K] [LinearOrder K]

/-! ### C29 -/

/-- Helper: for a well-formed deck a layer always has a corner. -/
theorem corner_exists (D : Deck K) (hD : WF D) {i j k a b c : Nat} (hi : i < D.nx) (hj : j < D.ny) (hk : k < D.nz)
    (ha : a < 2) (hb : b < 2) (hc : c < 2) : ∃ z, depth D i j k a b c = some z := by
  unfold depth
  rw [zcornNo_corner _ _ _ _ _ _ _ _ ha hb hc]
  have := cornerIndex_lt (nx := D.nx) (ny := D.ny) (nz := D.nz) (i := i) (j := j) (k := k) hi hj hk
    (show a + 2 * b + 4 * c < 8 by omega)
  exact ⟨_, List.getElem?_eq_getElem (by rw [hD.zcorn]; calc _ < _ := this
                                                          _ = _ := by ring)⟩

/-- Helper: the layer search always succeeds on a non-empty interval. -/
theorem band_exists (D : Deck K) (hD : WF D) (R : Req K) (zlo zhi : K) (hz : ZRange D R zlo zhi) (hlt : zlo < zhi) :
    ∃ kmin kmax, findKmin D zlo = some kmin ∧ findKmax D zhi = some kmax ∧ kmin ≤ kmax ∧ kmax ≤ D.nz := by
  have hx := hD.nx
  have hy := hD.ny
  have hzz := hD.nz
  obtain ⟨a1, a2⟩ := findKmin_spec D zlo
  obtain ⟨b1, b2⟩ := findKmax_spec D zhi
  cases h1 : findKmin D zlo with
  | none =>
    exfalso
    rw [a2] at h1
    obtain ⟨z, e⟩ := corner_exists D hD (i := 0) (j := 0) (k := D.nz - 1) (a := 0) (b := 0) (c := 1)
      (by omega) (by omega) (by omega) (by omega) (by omega) (by omega)
    have := hz.hi_bot 0 0 0 0 z (by omega) (by omega) (by omega) (by omega) e
    exact h1 (D.nz - 1) (by omega) ⟨0, 0, 0, 0, 1, z, by omega, by omega, by omega, by omega, by omega, e,
      lt_of_lt_of_le hlt this⟩
  | some kmin =>
    cases h2 : findKmax D zhi with
    | none =>
      exfalso
      rw [b2] at h2
      obtain ⟨z, e⟩ := corner_exists D hD (i := 0) (j := 0) (k := 0) (a := 0) (b := 0) (c := 0)
        (by omega) (by omega) (by omega) (by omega) (by omega) (by omega)
      have := hz.lo_top 0 0 0 0 z (by omega) (by omega) (by omega) (by omega) e
      exact h2 0 (by omega) ⟨0, 0, 0, 0, 0, z, by omega, by omega, by omega, by omega, by omega, e,
        lt_of_le_of_lt this hlt⟩
    | some kmax =>
      refine ⟨kmin, kmax, rfl, rfl, ?_, ((b1 kmax).mp h2).2.1⟩
      obtain ⟨q1, q2, q3⟩ := (a1 kmin).mp h1
      obtain ⟨r1, r2, r3, r4⟩ := (b1 kmax).mp h2
      by_contra hlt'
      obtain ⟨z, e⟩ := corner_exists D hD (i := 0) (j := 0) (k := kmax) (a := 0) (b := 0) (c := 0)
        (by omega) (by omega) (by omega) (by omega) (by omega) (by omega)
      have n1 := q3 kmax (by omega)
      have n2 := r4 kmax (le_refl _) (by omega)
      have m1 : ¬ zlo < z := fun h => n1 ⟨0, 0, 0, 0, 0, z, by omega, by omega, by omega, by omega, by omega, e, h⟩
      have m2 : ¬ z < zhi := fun h => n2 ⟨0, 0, 0, 0, 0, z, by omega, by omega, by omega, by omega, by omega, e, h⟩
      exact absurd hlt (not_lt.mpr (le_trans (not_lt.mp m2) (not_lt.mp m1)))

/-- Helper: the complete result of an accepted request. -/
theorem chop_ok (D : Deck K) (hD : WF D) (L : Limits K) (hL : limits D = some L) (o : Out K) (R : Req K)
    (hR : InGrid D R) (hlt : max R.zmin L.botmax < min R.zmax L.topmin) :
    ∃ kmin kmax o', findKmin D (max R.zmin L.botmax) = some kmin ∧ findKmax D (min R.zmax L.topmin) = some kmax ∧
      kmin ≤ kmax ∧ kmax ≤ D.nz ∧ chop D L o R = .ok o' ∧
      IsSubBox D R (max R.zmin L.botmax) (min R.zmax L.topmin) kmin kmax o' := by
  obtain ⟨kmin, kmax, h1, h2, h3, h4⟩ := band_exists D hD R _ _ (limits_zrange D hD L hL R) hlt
  obtain ⟨g1, g2, g3, g4⟩ := id hR
  have hpil : ∀ c, c < 6 → 6 * ((D.nx + 1) * R.jmin + R.imin) + c < D.coord.length := by
    intro c hc
    rw [hD.coord]
    exact coord_lt (by omega) (by omega) hc
  obtain ⟨xc, hx0⟩ : ∃ xc, D.coord[6 * ((D.nx + 1) * R.jmin + R.imin)]? = some xc :=
    ⟨_, List.getElem?_eq_getElem (hpil 0 (by omega))⟩
  obtain ⟨yc, hy0⟩ : ∃ yc, D.coord[6 * ((D.nx + 1) * R.jmin + R.imin) + 1]? = some yc :=
    ⟨_, List.getElem?_eq_getElem (hpil 1 (by omega))⟩
  obtain ⟨crd, ec, hcl, hcv⟩ := coordWrites_ok D hD R hR xc yc
    (resizeTo o.coord (6 * (R.imax - R.imin + 1) * (R.jmax - R.jmin + 1)) (10 ^ 100)) (resizeTo_length _ _ _)
  obtain ⟨zc, ez, hzl, hzv⟩ := zcornWrites_ok D hD R hR (max R.zmin L.botmax) (min R.zmax L.topmin)
    (if R.reset then max R.zmin L.botmax else 0) kmin kmax h4
    (resizeTo o.zcorn (8 * ((R.imax - R.imin) * (R.jmax - R.jmin) * (kmax - kmin))) (10 ^ 100)) (resizeTo_length _ _ _)
  have en := oldCellWrites_ok D R kmin kmax
    (resizeTo o.newToOld ((R.imax - R.imin) * (R.jmax - R.jmin) * (kmax - kmin)) 0) (resizeTo_length _ _ _)
  generalize hn2o : (cellLoop R kmin kmax).map (fun c => D.nx * D.ny * c.2.2 + D.nx * c.2.1 + c.1) = n2o at en
  have hn : ∀ p ∈ n2o, p < D.nx * D.ny * D.nz := by
    intro p hp
    rw [← hn2o, List.mem_map] at hp
    obtain ⟨c, hc, rfl⟩ := hp
    obtain ⟨⟨c1, c2⟩, ⟨c3, c4⟩, c5, c6⟩ := (mem_cellLoop _ _ _ _).mp hc
    have w1 : c.1 + D.nx * c.2.1 < D.nx * D.ny := radix_lt (by omega) (by omega)
    have w2 := radix_lt (n := D.nx * D.ny) (m := D.nz) (b := c.2.2) w1 (by omega)
    calc _ = c.1 + D.nx * c.2.1 + D.nx * D.ny * c.2.2 := by ring
      _ < _ := w2
  have hff : ∀ kw ∈ keywords, ∀ f, D.field kw = some f → ∃ l, filterField f n2o = some l := by
    intro kw _ f hf
    obtain ⟨l, hl, _⟩ := filterField_ok f n2o (fun p hp => by rw [hD.field kw f hf]; exact hn p hp)
    exact ⟨l, hl⟩
  obtain ⟨F, ef, hF⟩ : ∃ F, keywords.foldl (filterKeyword D n2o) (some o.field) = some F ∧
      ∀ kw ∈ keywords, ∀ f, D.field kw = some f → F kw = (filterField f n2o).getD [] := by
    refine ⟨_, keywords_fold D n2o keywords o.field hff, ?_⟩
    intro kw hkw f hf
    simp only [hkw, if_true, hf]
  have hnlen : n2o.length = (R.imax - R.imin) * (R.jmax - R.jmin) * (kmax - kmin) := by
    rw [← hn2o, List.length_map, cellLoop_length]
  have hcell : ∀ i j k, i < R.imax - R.imin → j < R.jmax - R.jmin → k < kmax - kmin →
      n2o[cellNo (R.imax - R.imin) (R.jmax - R.jmin) i j k]? =
        some (cellNo D.nx D.ny (R.imin + i) (R.jmin + j) (kmin + k)) := by
    intro i j k hi hj hk
    have := cellLoop_get R kmin kmax i j k hi hj hk
    rw [← hn2o, List.getElem?_map]
    rw [show cellNo (R.imax - R.imin) (R.jmax - R.jmin) i j k =
      (R.imax - R.imin) * (R.jmax - R.jmin) * k + (R.imax - R.imin) * j + i by unfold cellNo; ring, this]
    simp only [Option.map_some, cellNo]
    congr 1
    ring
  refine ⟨kmin, kmax, ⟨R.imax - R.imin, R.jmax - R.jmin, kmax - kmin, crd, zc, n2o, F⟩, h1, h2, h3, h4, ?_, ?_⟩
  · unfold chop
    rw [if_neg (by omega)]
    simp only []
    rw [if_neg (by simpa using hD.coord), hx0, hy0]
    simp only [ec]
    rw [if_neg (by simp only [ne_eq, not_not]; rw [hD.zcorn]; rfl), if_neg (not_le.mpr hlt), h1, h2]
    simp only [fill]
    rw [if_neg (by omega)]
    simp only [ez, en, ef]
  · refine ⟨rfl, rfl, rfl, hnlen, hcell, ?_, ?_, ?_, ?_, ?_⟩
    · simp only []
      rw [hzl, resizeTo_length]
      ring
    · intro i j k a b c hi hj hk ha hb hc
      obtain ⟨z, e1, e2⟩ := hzv i j k (a + 2 * b + 4 * c) hi hj hk (by omega)
      rw [← zcornNo_corner _ _ _ _ _ _ _ _ ha hb hc] at e1 e2
      exact ⟨z, e1, e2⟩
    · simp only []
      rw [hcl, resizeTo_length]
    · intro i j c hi hj hc
      obtain ⟨e1, e2⟩ := hcv i j c hi hj hc
      obtain ⟨v, hv⟩ := Option.isSome_iff_exists.mp e2
      have ps : ∀ i j c, 6 * ((D.nx + 1) * j + i) + c = coordNo D.nx i j c := by
        intro i j c; unfold coordNo; ring
      refine ⟨v, _, _, by rw [← ps]; exact hv, by rw [← ps]; exact hx0, by rw [← ps]; exact hy0, ?_⟩
      rw [show coordNo (R.imax - R.imin) i j c = 6 * ((R.imax - R.imin + 1) * j + i) + c by unfold coordNo; ring]
      rw [e1]
      simp only [coordValue, hv, Option.map_some]
      cases R.reset
      · simp
      · interval_cases c <;> simp
    · intro kw hkw f hf
      obtain ⟨l, hl, hll, hlv⟩ := filterField_ok f n2o (fun p hp => by rw [hD.field kw f hf]; exact hn p hp)
      have hkw' : kw ∈ keywords := hkw
      simp only [hF kw hkw' f hf, hl, Option.getD_some]
      refine ⟨by rw [hll, hnlen], ?_⟩
      intro i j k hi hj hk
      exact hlv _ _ (hcell i j k hi hj hk)

/-- **C29.** For every well-formed deck, every earlier use of the chopper and every request inside the grid there are
depths `zlo`, `zhi` — the requested interval cut back to the part where every column has rock — such that
* if the interval is empty the request is rejected with the empty-interval error;
* otherwise the request succeeds; the result is exactly the sub-box of the requested columns and of a band of layers, the
  band starting at the first layer with a corner below depth `zlo` and ending after the last layer with a corner above
  depth `zhi`: sizes, originating cells, corner depths clamped into the interval, pillars, and all nine cell fields. -/
theorem C29_chop (D : Deck K) (hD : WF D) (L : Limits K) (hL : limits D = some L) (o : Out K) (R : Req K)
    (hR : InGrid D R) :
    ∃ zlo zhi, ZRange D R zlo zhi ∧
      (zhi ≤ zlo → ∃ o', chop D L o R = .error (.emptyInterval, o')) ∧
      (zlo < zhi → ∃ kmin kmax o', chop D L o R = .ok o' ∧ IsSubBox D R zlo zhi kmin kmax o' ∧
        kmin ≤ kmax ∧ kmax ≤ D.nz ∧ kmin < D.nz ∧
        LayerHas D kmin (zlo < ·) ∧ (∀ k, k < kmin → ¬ LayerHas D k (zlo < ·)) ∧
        1 ≤ kmax ∧ LayerHas D (kmax - 1) (· < zhi) ∧ (∀ k, kmax ≤ k → k < D.nz → ¬ LayerHas D k (· < zhi))) := by
  refine ⟨max R.zmin L.botmax, min R.zmax L.topmin, limits_zrange D hD L hL R, ?_, ?_⟩
  · intro hle
    obtain ⟨g1, g2, g3, g4⟩ := id hR
    have hpil : ∀ c, c < 6 → 6 * ((D.nx + 1) * R.jmin + R.imin) + c < D.coord.length := by
      intro c hc
      rw [hD.coord]
      exact coord_lt (by omega) (by omega) hc
    obtain ⟨xc, hx0⟩ : ∃ xc, D.coord[6 * ((D.nx + 1) * R.jmin + R.imin)]? = some xc :=
      ⟨_, List.getElem?_eq_getElem (hpil 0 (by omega))⟩
    obtain ⟨yc, hy0⟩ : ∃ yc, D.coord[6 * ((D.nx + 1) * R.jmin + R.imin) + 1]? = some yc :=
      ⟨_, List.getElem?_eq_getElem (hpil 1 (by omega))⟩
    obtain ⟨crd, ec, _⟩ := coordWrites_ok D hD R hR xc yc
      (resizeTo o.coord (6 * (R.imax - R.imin + 1) * (R.jmax - R.jmin + 1)) (10 ^ 100)) (resizeTo_length _ _ _)
    refine ⟨{ o with nx := R.imax - R.imin, ny := R.jmax - R.jmin, coord := crd }, ?_⟩
    unfold chop
    rw [if_neg (by omega)]
    simp only []
    rw [if_neg (by simpa using hD.coord), hx0, hy0]
    simp only [ec]
    rw [if_neg (by simp only [ne_eq, not_not]; rw [hD.zcorn]; rfl), if_pos hle]
  · intro hlt
    obtain ⟨kmin, kmax, o', h1, h2, h3, h4, h5, h6⟩ := chop_ok D hD L hL o R hR hlt
    obtain ⟨q1, q2, q3⟩ := ((findKmin_spec D _).1 kmin).mp h1
    obtain ⟨r1, r2, r3, r4⟩ := ((findKmax_spec D _).1 kmax).mp h2
    exact ⟨kmin, kmax, o', h5, h6, h3, h4, q1, q2, q3, r1, r3, r4⟩

omit [Field K] in
/-- **C29.** The band of layers contains every layer that reaches into the open depth interval. -/
theorem C29_band_covers (D : Deck K) (zlo zhi : K) (kmin kmax : Nat)
    (h1 : ∀ k, k < kmin → ¬ LayerHas D k (zlo < ·)) (h2 : ∀ k, kmax ≤ k → k < D.nz → ¬ LayerHas D k (· < zhi))
    (k : Nat) (hk : k < D.nz) (ht : LayerHas D k fun z => zlo < z ∧ z < zhi) : kmin ≤ k ∧ k < kmax := by
  obtain ⟨i, j, a, b, c, z, hi, hj, ha, hb, hc, e, hz1, hz2⟩ := ht
  constructor
  · by_contra h
    exact h1 k (by omega) ⟨i, j, a, b, c, z, hi, hj, ha, hb, hc, e, hz1⟩
  · by_contra h
    exact h2 k (by omega) hk ⟨i, j, a, b, c, z, hi, hj, ha, hb, hc, e, hz2⟩

/-- **C29.** When every layer lies directly on the next one, an accepted request yields at least one layer. -/
theorem C29_nonempty (D : Deck K) (hD : WF D) (hC : Contiguous D) (zlo zhi : K) (hlt : zlo < zhi) (kmin kmax : Nat)
    (hk : kmin < D.nz) (hk1 : 1 ≤ kmax)
    (h1 : ∀ k, k < kmin → ¬ LayerHas D k (zlo < ·)) (h2 : ∀ k, kmax ≤ k → k < D.nz → ¬ LayerHas D k (· < zhi)) :
    kmin < kmax := by
  by_contra h
  have hx := hD.nx
  have hy := hD.ny
  obtain ⟨z, e⟩ := corner_exists D hD (i := 0) (j := 0) (k := kmax - 1) (a := 0) (b := 0) (c := 1)
    (by omega) (by omega) (by omega) (by omega) (by omega) (by omega)
  have e2 := hC 0 0 (kmax - 1) 0 0 (by omega) (by omega) (by omega) (by omega) (by omega)
  rw [show kmax - 1 + 1 = kmax by omega, e] at e2
  have m1 : ¬ zlo < z := fun hh => h1 (kmax - 1) (by omega)
    ⟨0, 0, 0, 0, 1, z, by omega, by omega, by omega, by omega, by omega, e, hh⟩
  have m2 : ¬ z < zhi := fun hh => h2 kmax (le_refl _) (by omega)
    ⟨0, 0, 0, 0, 0, z, by omega, by omega, by omega, by omega, by omega, e2.symm, hh⟩
  exact absurd hlt (not_lt.mpr (le_trans (not_lt.mp m2) (not_lt.mp m1)))

/-- **C29.** When depth does not decrease from layer to layer, every selected layer has a corner below depth `zlo` and a
corner above depth `zhi`: nothing outside the interval is selected. -/
theorem C29_band_tight (D : Deck K) (hD : WF D) (hM : Monotone D) (zlo zhi : K) (kmin kmax : Nat)
    (h1 : LayerHas D kmin (zlo < ·)) (h2 : LayerHas D (kmax - 1) (· < zhi)) (hk : kmax ≤ D.nz) (k : Nat)
    (ha : kmin ≤ k) (hb : k < kmax) : LayerHas D k (zlo < ·) ∧ LayerHas D k (· < zhi) := by
  constructor
  · obtain ⟨i, j, a, b, c, z, hi, hj, ha', hb', hc, e, hz⟩ := h1
    have : ∀ d, kmin + d < D.nz → ∃ z', depth D i j (kmin + d) a b c = some z' ∧ zlo < z' := by
      intro d
      induction d with
      | zero => intro _; exact ⟨z, e, hz⟩
      | succ d ih =>
        intro hd
        obtain ⟨z', e', hz'⟩ := ih (by omega)
        obtain ⟨z'', e''⟩ := corner_exists D hD hi hj (show kmin + d + 1 < D.nz by omega) ha' hb' hc
        exact ⟨z'', e'', lt_of_lt_of_le hz' (hM i j _ a b c z' z'' hi hj (by omega) ha' hb' hc e' e'')⟩
    obtain ⟨z', e', hz'⟩ := this (k - kmin) (by omega)
    rw [show kmin + (k - kmin) = k by omega] at e'
    exact ⟨i, j, a, b, c, z', hi, hj, ha', hb', hc, e', hz'⟩
  · obtain ⟨i, j, a, b, c, z, hi, hj, ha', hb', hc, e, hz⟩ := h2
    have : ∀ d, d ≤ kmax - 1 → ∃ z', depth D i j (kmax - 1 - d) a b c = some z' ∧ z' < zhi := by
      intro d
      induction d with
      | zero => intro _; exact ⟨z, e, hz⟩
      | succ d ih =>
        intro hd
        obtain ⟨z', e', hz'⟩ := ih (by omega)
        obtain ⟨z'', e''⟩ := corner_exists D hD hi hj (show kmax - 1 - (d + 1) < D.nz by omega) ha' hb' hc
        rw [show kmax - 1 - d = kmax - 1 - (d + 1) + 1 by omega] at e'
        exact ⟨z'', e'', lt_of_le_of_lt (hM i j _ a b c z'' z' hi hj (by omega) ha' hb' hc e'' e') hz'⟩
    obtain ⟨z', e', hz'⟩ := this (kmax - 1 - k) (by omega)
    rw [show kmax - 1 - (kmax - 1 - k) = k by omega] at e'
    exact ⟨i, j, a, b, c, z', hi, hj, ha', hb', hc, e', hz'⟩

/-- **C29.** Every corner of the result lies in the depth interval (shifted when the origin is reset). -/
theorem C29_depths [IsStrictOrderedRing K] (D : Deck K) (R : Req K) (zlo zhi : K) (hlt : zlo < zhi) (kmin kmax : Nat)
    (o : Out K) (h : IsSubBox D R zlo zhi kmin kmax o) (x : K) (hx : x ∈ o.zcorn) :
    (zlo - if R.reset then zlo else 0) ≤ x ∧ x ≤ zhi - if R.reset then zlo else 0 := by
  obtain ⟨p, hp⟩ := List.mem_iff_getElem?.mp hx
  have hlen := (List.getElem?_eq_some_iff.mp hp).1
  rw [h.zsize] at hlen
  obtain ⟨i, j, k, cc, hi, hj, hk, hc, e⟩ := cornerIndex_surj (nx := o.nx) (ny := o.ny) (nz := o.nz) (p := p)
    (by rw [show 8 * (o.nx * o.ny * o.nz) = 8 * o.nx * o.ny * o.nz by ring]; exact hlen)
  rw [zcornNo_eq _ _ _ _ _ _ hc] at e
  obtain ⟨z, _, e2⟩ := h.corner i j k (cc % 2) (cc / 2 % 2) (cc / 4) hi hj hk (by omega) (by omega) (by omega)
  rw [e, hp] at e2
  rw [Option.some.inj e2]
  exact ⟨sub_le_sub_right (le_min (le_of_lt hlt) (le_max_left _ _)) _, sub_le_sub_right (min_le_left _ _) _⟩

/-- **C29.** No cell of the original grid is used twice, and every originating cell exists. -/
theorem C29_cells_distinct (D : Deck K) (R : Req K) (hR : InGrid D R) (zlo zhi : K) (kmin kmax : Nat) (hk : kmax ≤ D.nz)
    (o : Out K) (h : IsSubBox D R zlo zhi kmin kmax o) :
    o.newToOld.Nodup ∧ ∀ p ∈ o.newToOld, p < D.nx * D.ny * D.nz := by
  obtain ⟨g1, g2, g3, g4⟩ := hR
  have hcov : ∀ q, q < o.newToOld.length → ∃ i j k, i < o.nx ∧ j < o.ny ∧ k < o.nz ∧ cellNo o.nx o.ny i j k = q := by
    intro q hq
    rw [h.count] at hq
    have hx : 0 < o.nx := by rcases Nat.eq_zero_or_pos o.nx with e | e; · (rw [e] at hq; simp at hq)
                             exact e
    have hy : 0 < o.ny := by rcases Nat.eq_zero_or_pos o.ny with e | e; · (rw [e] at hq; simp at hq)
                             exact e
    refine ⟨q % o.nx, q / o.nx % o.ny, q / o.nx / o.ny, Nat.mod_lt _ hx, Nat.mod_lt _ hy, ?_, ?_⟩
    · rw [Nat.div_div_eq_div_mul, Nat.div_lt_iff_lt_mul (Nat.mul_pos hx hy)]
      calc q < _ := hq
        _ = _ := by ring
    · unfold cellNo
      rw [Nat.mod_add_div (q / o.nx), Nat.mod_add_div]
  have nx := h.nx
  have ny := h.ny
  have nz := h.nz
  constructor
  · rw [List.nodup_iff_getElem?_ne_getElem?]
    intro q q' hqq hq' e
    obtain ⟨i, j, k, hi, hj, hk', rfl⟩ := hcov q (by omega)
    obtain ⟨i', j', k', hi', hj', hk'', rfl⟩ := hcov q' hq'
    rw [h.cell i j k hi hj hk', h.cell i' j' k' hi' hj' hk''] at e
    have e := Option.some.inj e
    unfold cellNo at e
    obtain ⟨s1, e⟩ := radix_inj (n := D.nx) (by omega) (by omega) e
    obtain ⟨s2, s3⟩ := radix_inj (n := D.ny) (by omega) (by omega) e
    have : i = i' := by omega
    have : j = j' := by omega
    have : k = k' := by omega
    subst_vars
    exact lt_irrefl _ hqq
  · intro p hp
    obtain ⟨q, hq⟩ := List.mem_iff_getElem?.mp hp
    obtain ⟨i, j, k, hi, hj, hk', rfl⟩ := hcov q (List.getElem?_eq_some_iff.mp hq).1
    rw [h.cell i j k hi hj hk'] at hq
    rw [← Option.some.inj hq]
    unfold cellNo
    have w1 := radix_lt (n := D.ny) (m := D.nz) (a := R.jmin + j) (b := kmin + k) (by omega) (by omega)
    have w2 := radix_lt (n := D.nx) (a := R.imin + i) (by omega) w1
    calc _ < D.nx * (D.ny * D.nz) := w2
      _ = _ := by ring

/-- A 2x1x2 deck with unit cells: columns at x = 0,1,2; layers 0..1 and 1..2. -/
def exDeck : Deck ℚ :=
  { nx := 2, ny := 1, nz := 2
    coord := [0,0,0, 0,0,2,  1,0,0, 1,0,2,  2,0,0, 2,0,2,  0,1,0, 0,1,2,  1,1,0, 1,1,2,  2,1,0, 2,1,2]
    zcorn := [0,0,0,0, 0,0,0,0, 1,1,1,1, 1,1,1,1,  1,1,1,1, 1,1,1,1, 2,2,2,2, 2,2,2,2]
    field := fun kw => if kw = "PORO" then some [1/10, 2/10, 3/10, 4/10] else none }

def exReq : Req ℚ := ⟨1, 2, 0, 1, 1/2, 3/2, true⟩

theorem exDeck_wf : WF exDeck := by
  refine ⟨by decide, by decide, by decide, by decide, by decide, ?_⟩
  intro kw f hf
  have hf : (if kw = "PORO" then some [1/10, 2/10, 3/10, 4/10] else none) = some f := hf
  split at hf
  · rw [← Option.some.inj hf]; rfl
  · exact absurd hf (by simp)

/-- The result of the example request, compared with an expected one. -/
def agrees (r : Except (Err × Out ℚ) (Out ℚ)) (P : Out ℚ → Bool) : Bool :=
  match r with
  | .ok o => P o
  | .error _ => false

example : (limits exDeck).isSome = true ∧ InGrid exDeck exReq ∧
    ((limits exDeck).map fun L => agrees (chop exDeck L Out.init exReq) fun o =>
      o.newToOld == [1, 3] && o.zcorn == [0,0,0,0,1/2,1/2,1/2,1/2,1/2,1/2,1/2,1/2,1,1,1,1] &&
          o.field "PORO" == [2/10, 4/10] && o.coord.take 12 == [0,0,0, 0,0,1, 1,0,0, 1,0,1]) = some true := by
  refine ⟨by decide +kernel, by unfold InGrid; decide, by decide +kernel⟩

/-- The hypotheses of `C29_nonempty` and `C29_band_tight` hold for the example deck. -/
example : Contiguous exDeck ∧ Monotone exDeck := by
  constructor
  · intro i j k a b hi hj hk ha hb
    have hi : i < 2 := hi
    have hj : j < 1 := hj
    have hk : k + 1 < 2 := hk
    interval_cases i <;> interval_cases j <;> interval_cases a <;> interval_cases b <;>
      (have : k = 0 := by omega
       subst this
       decide +kernel)
  · intro i j k a b c z z' hi hj hk ha hb hc h1 h2
    have hi : i < 2 := hi
    have hj : j < 1 := hj
    have hk : k + 1 < 2 := hk
    have : k = 0 := by omega
    subst this
    interval_cases i <;> interval_cases j <;> interval_cases a <;> interval_cases b <;> interval_cases c <;>
      (simp [depth, zcornNo, exDeck] at h1 h2
       subst h1 h2
       norm_num)

/-! ### C65 -/

/-- **C65 (partial).** Without moving the origin, a corner whose depth lies in the selected interval keeps its position
in space. Missing: with the origin moved this holds for vertical pillars only, see `C65_vertical` and
`C65_violated_slanted_reset`. -/
theorem C65_geometry_partial (D : Deck K) (R : Req K) (zlo zhi : K) (kmin kmax : Nat) (o : Out K)
    (h : IsSubBox D R zlo zhi kmin kmax o) (hr : R.reset = false) (i j k a b c : Nat) (hi : i < o.nx) (hj : j < o.ny)
    (hk : k < o.nz) (ha : a < 2) (hb : b < 2) (hc : c < 2) (z : K)
    (hz : depth D (R.imin + i) (R.jmin + j) (kmin + k) a b c = some z) (h1 : zlo ≤ z) (h2 : z ≤ zhi) :
    cornerPoint o.nx o.ny o.coord o.zcorn i j k a b c =
      cornerPoint D.nx D.ny D.coord D.zcorn (R.imin + i) (R.jmin + j) (kmin + k) a b c ∧
    (cornerPoint o.nx o.ny o.coord o.zcorn i j k a b c).isSome = true := by
  have hp : ∀ q, q < 6 → ∃ v, D.coord[coordNo D.nx (R.imin + i + a) (R.jmin + j + b) q]? = some v ∧
      o.coord[coordNo o.nx (i + a) (j + b) q]? = some v := by
    intro q hq
    obtain ⟨v, x0, y0, e1, e2, e3, e4⟩ := h.pillar (i + a) (j + b) q (by omega) (by omega) hq
    rw [if_pos hr] at e4
    exact ⟨v, by rw [← e1, Nat.add_assoc, Nat.add_assoc], e4⟩
  obtain ⟨z', e1, e2⟩ := h.corner i j k a b c hi hj hk ha hb hc
  rw [hz] at e1
  have := Option.some.inj e1
  subst this
  rw [hr, max_eq_right h1, min_eq_right h2] at e2
  simp only [Bool.false_eq_true, if_false, sub_zero] at e2
  unfold depth at hz
  obtain ⟨v0, p0, q0⟩ := hp 0 (by omega)
  obtain ⟨v1, p1, q1⟩ := hp 1 (by omega)
  obtain ⟨v2, p2, q2⟩ := hp 2 (by omega)
  obtain ⟨v3, p3, q3⟩ := hp 3 (by omega)
  obtain ⟨v4, p4, q4⟩ := hp 4 (by omega)
  obtain ⟨v5, p5, q5⟩ := hp 5 (by omega)
  unfold cornerPoint
  rw [e2, hz, q0, q1, q2, q3, q4, q5, p0, p1, p2, p3, p4, p5]
  exact ⟨rfl, rfl⟩

/-- **C65.** With the origin moved, corners on vertical pillars move by one common vector. -/
theorem C65_vertical (D : Deck K) (R : Req K) (zlo zhi : K) (kmin kmax : Nat) (o : Out K)
    (h : IsSubBox D R zlo zhi kmin kmax o) (hr : R.reset = true) :
    ∃ x0 y0, ∀ i j k a b c, i < o.nx → j < o.ny → k < o.nz → a < 2 → b < 2 → c < 2 → ∀ z,
      depth D (R.imin + i) (R.jmin + j) (kmin + k) a b c = some z → zlo ≤ z → z ≤ zhi →
      (∀ d, d < 2 → D.coord[coordNo D.nx (R.imin + i + a) (R.jmin + j + b) d]? =
        D.coord[coordNo D.nx (R.imin + i + a) (R.jmin + j + b) (d + 3)]?) →
      ∃ x y, cornerPoint D.nx D.ny D.coord D.zcorn (R.imin + i) (R.jmin + j) (kmin + k) a b c = some (x, y, z) ∧
        cornerPoint o.nx o.ny o.coord o.zcorn i j k a b c = some (x - x0, y - y0, z - zlo) := by
  obtain ⟨_, x0, y0, _, ex0, ey0, _⟩ := h.pillar 0 0 0 (by omega) (by omega) (by omega)
  refine ⟨x0, y0, ?_⟩
  intro i j k a b c hi hj hk ha hb hc z hz h1 h2 hv
  have hp : ∀ q, q < 6 → ∃ v, D.coord[coordNo D.nx (R.imin + i + a) (R.jmin + j + b) q]? = some v ∧
      o.coord[coordNo o.nx (i + a) (j + b) q]? = some (if q = 0 ∨ q = 3 then v - x0
        else if q = 1 ∨ q = 4 then v - y0
        else if q = 2 then 0 else R.zmax - R.zmin) := by
    intro q hq
    obtain ⟨v, x0', y0', e1, e2, e3, e4⟩ := h.pillar (i + a) (j + b) q (by omega) (by omega) hq
    rw [ex0] at e2
    rw [ey0] at e3
    have t1 := Option.some.inj e2
    have t2 := Option.some.inj e3
    subst t1 t2
    rw [if_neg (by rw [hr]; decide)] at e4
    exact ⟨v, by rw [← e1, Nat.add_assoc, Nat.add_assoc], e4⟩
  obtain ⟨z', e1, e2⟩ := h.corner i j k a b c hi hj hk ha hb hc
  rw [hz] at e1
  have := Option.some.inj e1
  subst this
  rw [hr, max_eq_right h1, min_eq_right h2] at e2
  simp only [if_true] at e2
  unfold depth at hz
  obtain ⟨v0, p0, q0⟩ := hp 0 (by omega)
  obtain ⟨v1, p1, q1⟩ := hp 1 (by omega)
  obtain ⟨v2, p2, q2⟩ := hp 2 (by omega)
  obtain ⟨v3, p3, q3⟩ := hp 3 (by omega)
  obtain ⟨v4, p4, q4⟩ := hp 4 (by omega)
  obtain ⟨v5, p5, q5⟩ := hp 5 (by omega)
  have hx : v0 = v3 := by
    have := hv 0 (by omega)
    rw [p0, p3] at this
    exact Option.some.inj this
  have hy : v1 = v4 := by
    have := hv 1 (by omega)
    rw [p1, p4] at this
    exact Option.some.inj this
  refine ⟨v0, v1, ?_, ?_⟩
  · unfold cornerPoint
    rw [hz, p0, p1, p2, p3, p4, p5]
    simp [hx, hy]
  · unfold cornerPoint
    rw [e2, q0, q1, q2, q3, q4, q5]
    simp [hx, hy]

/-- One cell of height 10 between slanted pillars. -/
def slanted : Deck ℚ :=
  { nx := 1, ny := 1, nz := 1
    coord := [0,0,0, 10,0,10,  1,0,0, 11,0,10,  0,1,0, 10,1,10,  1,1,0, 11,1,10]
    zcorn := [0,0,0,0, 10,10,10,10]
    field := fun _ => none }

/-- **C65 (deviation).** Chopping a slanted cell to its upper half and moving the origin to its corner: the corner at
depth 5, originally 5 to the side of the top corner, ends up 10 to the side, because the pillar's end points keep their
horizontal coordinates while their depths are replaced. -/
theorem C65_violated_slanted_reset :
    ((limits slanted).map fun L => agrees (chop slanted L Out.init ⟨0, 1, 0, 1, 0, 5, true⟩) fun o =>
      cornerPoint o.nx o.ny o.coord o.zcorn 0 0 0 0 0 0 == some (0, 0, 0) &&
      cornerPoint o.nx o.ny o.coord o.zcorn 0 0 0 0 0 1 == some (10, 0, 5)) = some true ∧
    ((limits slanted).map fun L => agrees (chop slanted L Out.init ⟨0, 1, 0, 1, 0, 5, false⟩) fun o =>
      cornerPoint o.nx o.ny o.coord o.zcorn 0 0 0 0 0 1 == some (5, 0, 5)) = some true := by
  constructor <;> decide +kernel

/-! ### C30 -/

/-- Fields the chopper never writes stay empty. -/
def Untouched (D : Deck K) (o : Out K) : Prop :=
  ∀ kw, D.field kw = none ∨ kw ∉ keywords → o.field kw = []

omit [Field K] [LinearOrder K] in
theorem fold_none (D : Deck K) (n2o : List Nat) (kws : List String) :
    kws.foldl (filterKeyword D n2o) none = none := by
  induction kws with
  | nil => rfl
  | cons kw kws ih => rw [List.foldl_cons]; exact ih

omit [Field K] [LinearOrder K] in
theorem fold_congr (D : Deck K) (n2o : List Nat) (kws : List String) (g g' : String → List K)
    (h : ∀ kw, D.field kw = none ∨ kw ∉ kws → g kw = g' kw) :
    kws.foldl (filterKeyword D n2o) (some g) = kws.foldl (filterKeyword D n2o) (some g') := by
  induction kws generalizing g g' with
  | nil =>
    have : g = g' := funext fun kw => h kw (Or.inr (by simp))
    rw [this]
  | cons kw kws ih =>
    rw [List.foldl_cons, List.foldl_cons]
    unfold filterKeyword
    cases hf : D.field kw with
    | none =>
      simp only []
      apply ih
      rintro k (hk | hk)
      · exact h k (Or.inl hk)
      · by_cases e : k = kw
        · subst e; exact h k (Or.inl hf)
        · exact h k (Or.inr (by simp [e, hk]))
    | some f =>
      simp only []
      cases hl : filterField f n2o with
      | none => rfl
      | some l =>
        simp only []
        apply ih
        rintro k (hk | hk)
        · have : k ≠ kw := by rintro rfl; rw [hf] at hk; exact absurd hk (by simp)
          simp only [this, if_false]
          exact h k (Or.inl hk)
        · by_cases e : k = kw
          · simp [e]
          · simp only [e, if_false]
            exact h k (Or.inr (by simp [e, hk]))

omit [Field K] [LinearOrder K] in
theorem fold_keeps (D : Deck K) (n2o : List Nat) (kws : List String) (g F : String → List K)
    (hF : kws.foldl (filterKeyword D n2o) (some g) = some F) (k : String) (hk : D.field k = none ∨ k ∉ kws) :
    F k = g k := by
  induction kws generalizing g with
  | nil => rw [← Option.some.inj hF]
  | cons kw kws ih =>
    rw [List.foldl_cons] at hF
    have hk' : D.field k = none ∨ k ∉ kws := by
      rcases hk with h | h
      · exact Or.inl h
      · exact Or.inr fun hh => h (List.mem_cons_of_mem _ hh)
    unfold filterKeyword at hF
    cases hf : D.field kw with
    | none =>
      rw [hf] at hF
      exact ih g hF hk'
    | some f =>
      rw [hf] at hF
      simp only [] at hF
      cases hl : filterField f n2o with
      | none =>
        rw [hl] at hF
        have := fold_none D n2o kws
        unfold filterKeyword at this
        rw [this] at hF
        exact absurd hF (by simp)
      | some l =>
        rw [hl] at hF
        rw [ih _ hF hk']
        have : k ≠ kw := by
          rintro rfl
          rcases hk with h | h
          · rw [hf] at h; exact absurd h (by simp)
          · exact h (List.mem_cons_self ..)
        simp [this]

theorem coordWrites_cover (D : Deck K) (R : Req K) (xc yc : K) (hi : R.imin ≤ R.imax) (hj : R.jmin ≤ R.jmax) (p : Nat)
    (hp : p < 6 * (R.imax - R.imin + 1) * (R.jmax - R.jmin + 1)) : ∃ w ∈ coordWrites D R xc yc, w.1 = p := by
  have hn : 0 < R.imax - R.imin + 1 := by omega
  have h1 : p / 6 < (R.imax - R.imin + 1) * (R.jmax - R.jmin + 1) := by
    rw [Nat.div_lt_iff_lt_mul (by omega)]
    calc p < _ := hp
      _ = _ := by ring
  have h2 : p / 6 / (R.imax - R.imin + 1) < R.jmax - R.jmin + 1 := by
    rw [Nat.div_lt_iff_lt_mul hn]
    calc _ < _ := h1
      _ = _ := by ring
  have h3 := Nat.mod_lt (p / 6) hn
  refine ⟨_, (mem_coordWrites D R xc yc _).mpr ⟨R.jmin + p / 6 / (R.imax - R.imin + 1),
    R.imin + p / 6 % (R.imax - R.imin + 1), p % 6, Nat.le_add_right _ _, by omega, Nat.le_add_right _ _,
    by omega, Nat.mod_lt _ (by omega), rfl⟩, ?_⟩
  simp only [Nat.add_sub_cancel_left]
  rw [Nat.div_add_mod, Nat.div_add_mod]

theorem zcornWrites_cover (D : Deck K) (R : Req K) (zmin zmax corr : K) (kmin kmax : Nat) (p : Nat)
    (hp : p < 8 * ((R.imax - R.imin) * (R.jmax - R.jmin) * (kmax - kmin))) :
    ∃ w ∈ zcornWrites D R zmin zmax corr kmin kmax, w.1 = p := by
  obtain ⟨i, j, k, cc, hi, hj, hk, hc, e⟩ := cornerIndex_surj hp
  refine ⟨_, (mem_zcornWrites D R zmin zmax corr kmin kmax _).mpr ⟨R.imin + i, R.jmin + j, kmin + k, cc,
    by omega, by omega, by omega, hc, rfl⟩, ?_⟩
  simpa using e

theorem aw_cover {α : Type} (W : List (Nat × Option α)) (l l' : List α) (n : Nat) (hl : l.length = n)
    (hl' : l'.length = n) (h : ∀ p, p < n → ∃ w ∈ W, w.1 = p) : applyWrites W l = applyWrites W l' := by
  apply aw_congr W l l' (by rw [hl, hl'])
  intro i hi
  by_cases hin : i < n
  · obtain ⟨w, hw, e⟩ := h i hin
    exact absurd e (hi w hw)
  · rw [List.getElem?_eq_none (by omega), List.getElem?_eq_none (by omega)]

/-- Same outcome: both succeed with the same result, or both fail with the same error. -/
def SameOutcome (x y : Except (Err × Out K) (Out K)) : Prop :=
  (∃ r, x = .ok r ∧ y = .ok r) ∨ ∃ e a b, x = .error (e, a) ∧ y = .error (e, b)

theorem fill_same (D : Deck K) (o o' : Out K) (hnx : o.nx = o'.nx) (hny : o.ny = o'.ny) (hc : o.coord = o'.coord)
    (ho : Untouched D o) (ho' : Untouched D o') (R : Req K) (zmin zmax : K) (kmin kmax : Nat) :
    SameOutcome (fill D o R zmin zmax kmin kmax) (fill D o' R zmin zmax kmin kmax) := by
  unfold fill
  by_cases hk : kmax < kmin
  · rw [if_pos hk, if_pos hk]; exact Or.inr ⟨_, _, _, rfl, rfl⟩
  · rw [if_neg hk, if_neg hk]
    simp only []
    rw [aw_cover (zcornWrites D R zmin zmax (if R.reset = true then zmin else 0) kmin kmax) _
      (resizeTo o'.zcorn (8 * ((R.imax - R.imin) * (R.jmax - R.jmin) * (kmax - kmin))) (10 ^ 100))
      _ (resizeTo_length _ _ _) (resizeTo_length _ _ _) (fun p hp => zcornWrites_cover _ _ _ _ _ _ _ p hp)]
    rw [oldCellWrites_ok D R kmin kmax _ (resizeTo_length _ _ _), oldCellWrites_ok D R kmin kmax _ (resizeTo_length _ _ _)]
    cases applyWrites (zcornWrites D R zmin zmax (if R.reset = true then zmin else 0) kmin kmax)
        (resizeTo o'.zcorn (8 * ((R.imax - R.imin) * (R.jmax - R.jmin) * (kmax - kmin))) (10 ^ 100)) with
    | none => exact Or.inr ⟨_, _, _, rfl, rfl⟩
    | some z =>
      simp only []
      rw [fold_congr D _ keywords o.field o'.field (fun kw hkw => by rw [ho kw hkw, ho' kw hkw])]
      cases keywords.foldl (filterKeyword D _) (some o'.field) with
      | none => exact Or.inr ⟨_, _, _, rfl, rfl⟩
      | some F =>
        refine Or.inl ⟨_, rfl, ?_⟩
        simp only [hnx, hny, hc]

theorem chop_same (D : Deck K) (L : Limits K) (o o' : Out K) (ho : Untouched D o) (ho' : Untouched D o') (R : Req K) :
    SameOutcome (chop D L o R) (chop D L o' R) := by
  unfold chop
  by_cases h0 : R.imax < R.imin ∨ R.jmax < R.jmin
  · rw [if_pos h0, if_pos h0]; exact Or.inr ⟨_, _, _, rfl, rfl⟩
  rw [if_neg h0, if_neg h0]
  simp only []
  by_cases h1 : D.coord.length ≠ 6 * (D.nx + 1) * (D.ny + 1)
  · rw [if_pos h1, if_pos h1]; exact Or.inr ⟨_, _, _, rfl, rfl⟩
  rw [if_neg h1, if_neg h1]
  cases D.coord[6 * ((D.nx + 1) * R.jmin + R.imin)]? with
  | none => exact Or.inr ⟨_, _, _, rfl, rfl⟩
  | some xc =>
    cases D.coord[6 * ((D.nx + 1) * R.jmin + R.imin) + 1]? with
    | none => exact Or.inr ⟨_, _, _, rfl, rfl⟩
    | some yc =>
      simp only []
      rw [aw_cover (coordWrites D R xc yc) _
        (resizeTo o'.coord (6 * (R.imax - R.imin + 1) * (R.jmax - R.jmin + 1)) (10 ^ 100)) _ (resizeTo_length _ _ _)
        (resizeTo_length _ _ _) (fun p hp => coordWrites_cover D R xc yc (by omega) (by omega) p hp)]
      cases applyWrites (coordWrites D R xc yc)
          (resizeTo o'.coord (6 * (R.imax - R.imin + 1) * (R.jmax - R.jmin + 1)) (10 ^ 100)) with
      | none => exact Or.inr ⟨_, _, _, rfl, rfl⟩
      | some crd =>
        simp only []
        by_cases h2 : D.zcorn.length ≠ D.layersz * D.nz
        · rw [if_pos h2, if_pos h2]; exact Or.inr ⟨_, _, _, rfl, rfl⟩
        rw [if_neg h2, if_neg h2]
        by_cases h3 : max R.zmin L.botmax ≥ min R.zmax L.topmin
        · rw [if_pos h3, if_pos h3]; exact Or.inr ⟨_, _, _, rfl, rfl⟩
        rw [if_neg h3, if_neg h3]
        cases findKmin D (max R.zmin L.botmax) with
        | none => exact Or.inr ⟨_, _, _, rfl, rfl⟩
        | some kmin =>
          cases findKmax D (min R.zmax L.topmin) with
          | none => exact Or.inr ⟨_, _, _, rfl, rfl⟩
          | some kmax => 
            exact fill_same D { o with nx := R.imax - R.imin, ny := R.jmax - R.jmin, coord := crd }
              { o' with nx := R.imax - R.imin, ny := R.jmax - R.jmin, coord := crd } rfl rfl rfl ho ho' R _ _ kmin kmax

theorem fill_untouched (D : Deck K) (o : Out K) (ho : Untouched D o) (R : Req K) (zmin zmax : K) (kmin kmax : Nat) :
    (∀ r, fill D o R zmin zmax kmin kmax = .ok r → Untouched D r) ∧
    ∀ e r, fill D o R zmin zmax kmin kmax = .error (e, r) → Untouched D r := by
  unfold fill
  by_cases hk : kmax < kmin
  · rw [if_pos hk]
    refine ⟨fun r h => by simp at h, fun e r h => ?_⟩
    have := (Prod.mk.inj (Except.error.inj h)).2
    rw [← this]; exact ho
  rw [if_neg hk]
  simp only []
  split
  · split
    · rename_i F hF
      refine ⟨fun r h => ?_, fun e r h => by simp at h⟩
      rw [← Except.ok.inj h]
      intro kw hkw
      show F kw = []
      rw [fold_keeps D _ _ _ _ hF kw hkw]
      exact ho kw hkw
    · refine ⟨fun r h => by simp at h, fun e r h => ?_⟩
      have := (Prod.mk.inj (Except.error.inj h)).2
      rw [← this]; exact ho
  · refine ⟨fun r h => by simp at h, fun e r h => ?_⟩
    have := (Prod.mk.inj (Except.error.inj h)).2
    rw [← this]; exact ho

theorem chop_untouched (D : Deck K) (L : Limits K) (o : Out K) (ho : Untouched D o) (R : Req K) :
    (∀ r, chop D L o R = .ok r → Untouched D r) ∧ ∀ e r, chop D L o R = .error (e, r) → Untouched D r := by
  have key : ∀ (err : Err) (o' : Out K), Untouched D o' →
      (∀ r, (Except.error (err, o') : Except (Err × Out K) (Out K)) = .ok r → Untouched D r) ∧
      ∀ e r, (Except.error (err, o') : Except (Err × Out K) (Out K)) = .error (e, r) → Untouched D r := by
    intro err o' ho'
    refine ⟨fun r h => by simp at h, fun e r h => ?_⟩
    have := (Prod.mk.inj (Except.error.inj h)).2
    rw [← this]; exact ho'
  unfold chop
  split
  · exact key _ _ ho
  simp only []
  split
  · exact key _ _ ho
  split
  · split
    · exact key _ _ ho
    · split
      · exact key _ _ ho
      · split
        · exact key _ _ ho
        · split
          · refine fill_untouched D _ ?_ R _ _ _ _
            exact ho
          · exact key _ _ ho
  · exact key _ _ ho

theorem run_untouched (D : Deck K) (L : Limits K) (hist : List (Req K)) (o : Out K) (ho : Untouched D o) :
    Untouched D (run D L o hist) := by
  unfold run
  induction hist generalizing o with
  | nil => exact ho
  | cons R hist ih =>
    rw [List.foldl_cons]
    apply ih
    obtain ⟨h1, h2⟩ := chop_untouched D L o ho R
    cases h : chop D L o R with
    | ok r => exact h1 r h
    | error e => exact h2 e.1 e.2 h

/-- **C30.** The outcome of a chop depends only on the deck and that request: after any history of accepted and rejected
requests it is the outcome a new chopper gives — the same result, or a rejection for the same reason. -/
theorem C30_history (D : Deck K) (L : Limits K) (hist : List (Req K)) (R : Req K) :
    (∃ r, chop D L (run D L Out.init hist) R = .ok r ∧ chop D L Out.init R = .ok r) ∨
    ∃ e a b, chop D L (run D L Out.init hist) R = .error (e, a) ∧ chop D L Out.init R = .error (e, b) :=
  chop_same D L _ _ (run_untouched D L hist _ fun _ _ => rfl) (fun _ _ => rfl) R

/-- A history of one accepted and one rejected request, then the example request. -/
example : (limits exDeck).map (fun L => agrees
      (chop exDeck L (run exDeck L Out.init [⟨0, 2, 0, 1, 0, 2, false⟩, ⟨0, 1, 0, 1, 1, 1, true⟩]) exReq) fun o =>
        o.newToOld == [1, 3] && o.field "PORO" == [2/10, 4/10]) = some true := by
  decide +kernel

/-- **C30.** A COORD array of the wrong length is rejected, whatever the request. -/
theorem C30_coord_size (D : Deck K) (L : Limits K) (o : Out K) (R : Req K) (hi : R.imin ≤ R.imax) (hj : R.jmin ≤ R.jmax)
    (h : D.coord.length ≠ 6 * (D.nx + 1) * (D.ny + 1)) : ∃ o', chop D L o R = .error (.coordSize, o') := by
  unfold chop
  rw [if_neg (by omega)]
  simp only []
  rw [if_pos h]
  exact ⟨_, rfl⟩

/-- **C30.** No deck with a COORD or ZCORN array of the wrong length is ever chopped. -/
theorem C30_size_checked (D : Deck K) (L : Limits K) (o o' : Out K) (R : Req K) (h : chop D L o R = .ok o') :
    D.coord.length = 6 * (D.nx + 1) * (D.ny + 1) ∧ D.zcorn.length = 8 * D.nx * D.ny * D.nz ∧
      max R.zmin L.botmax < min R.zmax L.topmin := by
  unfold chop at h
  split at h
  · exact absurd h (by simp)
  simp only [] at h
  split at h
  · exact absurd h (by simp)
  rename_i hc
  split at h
  · split at h
    · exact absurd h (by simp)
    · split at h
      · exact absurd h (by simp)
      · rename_i hz
        split at h
        · exact absurd h (by simp)
        · rename_i hlt
          exact ⟨not_not.mp hc, not_not.mp hz, not_le.mp hlt⟩
  · exact absurd h (by simp)

/-- **C30.** A ZCORN array of the wrong length is rejected with the ZCORN error. -/
theorem C30_zcorn_size (D : Deck K) (L : Limits K) (o : Out K) (R : Req K) (hR : InGrid D R)
    (hc : D.coord.length = 6 * (D.nx + 1) * (D.ny + 1)) (h : D.zcorn.length ≠ 8 * D.nx * D.ny * D.nz) :
    ∃ o', chop D L o R = .error (.zcornSize, o') := by
  obtain ⟨g1, g2, g3, g4⟩ := id hR
  -- the COORD part does not look at ZCORN: reuse it for a deck whose ZCORN has the right length
  have hpil : ∀ c, c < 6 → 6 * ((D.nx + 1) * R.jmin + R.imin) + c < D.coord.length := by
    intro c hcc
    rw [hc]
    exact coord_lt (by omega) (by omega) hcc
  obtain ⟨xc, hx0⟩ : ∃ xc, D.coord[6 * ((D.nx + 1) * R.jmin + R.imin)]? = some xc :=
    ⟨_, List.getElem?_eq_getElem (hpil 0 (by omega))⟩
  obtain ⟨yc, hy0⟩ : ∃ yc, D.coord[6 * ((D.nx + 1) * R.jmin + R.imin) + 1]? = some yc :=
    ⟨_, List.getElem?_eq_getElem (hpil 1 (by omega))⟩
  have hcw : coordWrites D R xc yc =
      coordWrites { D with nz := 1, zcorn := List.replicate (8 * D.nx * D.ny) 0, field := fun _ => none } R xc yc := rfl
  obtain ⟨crd, ec, _⟩ := coordWrites_ok
    { D with nz := 1, zcorn := List.replicate (8 * D.nx * D.ny) 0, field := fun _ => none }
    ⟨by simp only []; omega, by simp only []; omega, by simp, hc, by simp, fun kw f hf => by simp at hf⟩ R hR xc yc
    (resizeTo o.coord (6 * (R.imax - R.imin + 1) * (R.jmax - R.jmin + 1)) (10 ^ 100)) (resizeTo_length _ _ _)
  rw [← hcw] at ec
  unfold chop
  rw [if_neg (by omega)]
  simp only []
  rw [if_neg (by simpa using hc), hx0, hy0]
  simp only [ec]
  rw [if_pos (by exact h)]
  exact ⟨_, rfl⟩

/-- **C30.** What a request accepted by the shoebox check satisfies: the index ranges end inside the grid, the depths lie
between the least and the greatest corner depth. -/
theorem C30_shoebox (D : Deck K) (L : Limits K) (hL : limits D = some L) (imin ilen imax jmin jlen jmax : Int)
    (zmin zlen zmax : K) :
    verifyInscribedShoebox D L imin ilen imax jmin jlen jmax zmin zlen zmax = true ↔
      0 ≤ imin ∧ imax ≤ D.nx ∧ ilen ≤ D.nx ∧ 0 ≤ jmin ∧ jmax ≤ D.ny ∧ jlen ≤ D.ny ∧
      (∃ z ∈ D.zcorn, z ≤ zmin) ∧ (∃ z ∈ D.zcorn, zmax ≤ z) ∧
      (∃ z ∈ D.zcorn, ∃ z' ∈ D.zcorn, (∀ x ∈ D.zcorn, z' ≤ x ∧ x ≤ z) ∧ zlen ≤ z - z') := by
  have hlim : (L.abszmin ∈ D.zcorn ∧ ∀ x ∈ D.zcorn, L.abszmin ≤ x) ∧ L.abszmax ∈ D.zcorn ∧
      ∀ x ∈ D.zcorn, x ≤ L.abszmax := by
    unfold limits at hL
    split at hL
    · exact absurd hL (by simp)
    · split at hL
      · rename_i b t mn mx h1 h2 h3 h4
        have := Option.some.inj hL
        subst this
        exact ⟨minElt_spec h3, maxElt_spec h4⟩
      · exact absurd hL (by simp)
  obtain ⟨⟨m1, m2⟩, m3, m4⟩ := hlim
  have e1 : (∃ z ∈ D.zcorn, z ≤ zmin) ↔ ¬ zmin < L.abszmin := by
    rw [not_lt]
    exact ⟨fun ⟨z, hz, h⟩ => le_trans (m2 z hz) h, fun h => ⟨_, m1, h⟩⟩
  have e2 : (∃ z ∈ D.zcorn, zmax ≤ z) ↔ ¬ zmax > L.abszmax := by
    rw [gt_iff_lt, not_lt]
    exact ⟨fun ⟨z, hz, h⟩ => le_trans h (m4 z hz), fun h => ⟨_, m3, h⟩⟩
  have e3 : (∃ z ∈ D.zcorn, ∃ z' ∈ D.zcorn, (∀ x ∈ D.zcorn, z' ≤ x ∧ x ≤ z) ∧ zlen ≤ z - z') ↔
      ¬ zlen > L.abszmax - L.abszmin := by
    rw [gt_iff_lt, not_lt]
    constructor
    · rintro ⟨z, hz, z', hz', h, hl⟩
      rw [le_antisymm (m4 z hz) (h _ m3).2, le_antisymm (h _ m1).1 (m2 z' hz')] at hl
      exact hl
    · exact fun h => ⟨_, m3, _, m1, fun x hx => ⟨m2 x hx, m4 x hx⟩, h⟩
  rw [e1, e2, e3]
  unfold verifyInscribedShoebox
  by_cases a1 : imin < 0
  · rw [if_pos a1]; simp; omega
  rw [if_neg a1]
  by_cases a2 : ilen > D.nx
  · rw [if_pos a2]; simp; omega
  rw [if_neg a2]
  by_cases a3 : imax > D.nx
  · rw [if_pos a3]; simp; omega
  rw [if_neg a3]
  by_cases a4 : jmin < 0
  · rw [if_pos a4]; simp; omega
  rw [if_neg a4]
  by_cases a5 : jlen > D.ny
  · rw [if_pos a5]; simp; omega
  rw [if_neg a5]
  by_cases a6 : jmax > D.ny
  · rw [if_pos a6]; simp; omega
  rw [if_neg a6]
  by_cases a7 : zmin < L.abszmin
  · rw [if_pos a7]; simp [a7]
  rw [if_neg a7]
  by_cases a8 : zmax > L.abszmax
  · rw [if_pos a8]; simp [a8]
  rw [if_neg a8]
  by_cases a9 : zlen > L.abszmax - L.abszmin
  · rw [if_pos a9]; simp [a9]
  rw [if_neg a9]
  simp only [a7, a8, a9, true_iff, not_false_eq_true, and_true]
  omega

example : (limits exDeck).map (fun L => verifyInscribedShoebox exDeck L 1 1 2 0 1 1 (1/2) 1 (3/2)) = some true := by
  decide +kernel

/-- **C30 (deviation).** The shoebox check accepts an inverted range: from column 2 to column 0. -/
theorem C30_violated_inverted_range :
    (limits exDeck).map (fun L => verifyInscribedShoebox exDeck L 2 (-2) 0 0 1 1 0 2 2) = some true := by
  decide +kernel

/-- **C30 (deviation).** A rejected request does not leave the previous result in place: after an accepted request for
both columns and a rejected one for one column, the chopper holds dimensions for one column and depths for two. -/
theorem C30_violated_rejection_mixes :
    (limits exDeck).map (fun L =>
      let o := run exDeck L Out.init [⟨0, 2, 0, 1, 0, 2, false⟩, ⟨0, 1, 0, 1, 1, 1, false⟩]
      (o.nx, o.ny, o.nz, o.zcorn.length, o.newToOld.length)) = some (1, 1, 2, 32, 4) := by
  decide +kernel

end Verif.Chopper
