import Verif.Props.Periodic

/-!
C07: linear pressure conditions. C08 for the linear type. Region based conditions.
-/

set_option linter.unusedSectionVars false

namespace Verif.Boundary

variable {K : Type} [Field K] [LinearOrder K] [IsStrictOrderedRing K]

/-- C07, exact values: on a box grid with unique ids every boundary face gets the pressure
`pdrop * (hi - x) / (hi d - lo d)` at its coordinate `x` in the drop direction (in the two-dimensional variant the faces
on the z sides are no-flow instead), the prescribed saturation, and its side as canonical id; every id from 1 to the
largest one is one of those faces'; partner entries are not touched. -/
theorem C07_linear_values (bcs : BCs K) (faces : List (Face K)) (pdrop : K) (d : Fin 3) (bdySat : K) (tw : Bool)
    (tol : K) (side : Face K → Nat) (lo hi : Fin 3 → K)
    (hu : UniqueIds (outerFaces faces)) (hbox : OnBox tol (outerFaces faces) side)
    (hext : Extents (outerFaces faces) lo hi) (hlt : lo d < hi d) :
    ∃ r, createLinear bcs faces pdrop d bdySat tw tol = .ok r ∧
      r.flow.length = (outerFaces faces).length + 1 ∧
      (∀ f ∈ outerFaces faces,
        r.flow[f.bid]? = some (if tw = true ∧ 4 ≤ side f then ⟨.neumann, 0⟩
          else ⟨.dirichlet, pdrop * (hi d - f.centroid d) / (hi d - lo d)⟩) ∧
        r.sat[f.bid]? = some ⟨.dirichlet, bdySat⟩ ∧ r.hdl.getCanon f.bid = some (side f + 1)) ∧
      (∀ i, 1 ≤ i → i < r.flow.length → ∃ f ∈ outerFaces faces, f.bid = i) ∧
      (∀ i < (outerFaces faces).length + 1, r.hdl.getPartner i = some ((bcs.hdl.getPartner i).getD 0)) := by
  replace hu := uniqueIds_model hu
  replace hbox := onBox_model hbox
  simp only [outerFaces_eq] at *
  have hd : hiOf (boundaryFaces faces) d - lowOf (boundaryFaces faces) d ≠ 0 := by
    rw [hiOf_eq hext, lowOf_eq hext]; exact ne_of_gt (sub_pos.mpr hlt)
  obtain ⟨r, h1, h2, h3, h4, h5⟩ := linear_fold (lowOf (boundaryFaces faces)) (hiOf (boundaryFaces faces)) pdrop d
    bdySat tw tol (maxBid (boundaryFaces faces) + 1) hd side (boundaryFaces faces) hu.1
    (fun f hf => Nat.lt_succ_of_le (le_maxBid _ f hf)) hbox (bcs.resize (maxBid (boundaryFaces faces) + 1))
    (sized_resize _ _)
  have hmax := hu.2
  refine ⟨r, ?_, by rw [h2.flow, hmax], ?_, ?_, ?_⟩
  · unfold createLinear
    simp only [hmax, ne_eq, not_true_eq_false, if_false]
    rw [hmax] at h1
    exact h1
  · intro f hf
    obtain ⟨g1, g2, g3⟩ := h4 f hf
    refine ⟨?_, g3, g1⟩
    rw [g2]
    have : linPressure (lowOf (boundaryFaces faces)) (hiOf (boundaryFaces faces)) pdrop d f.centroid =
        pdrop * (hi d - f.centroid d) / (hi d - lo d) := by
      unfold linPressure
      rw [hiOf_eq hext, lowOf_eq hext]
      have : hi d - lo d ≠ 0 := ne_of_gt (sub_pos.mpr hlt)
      field_simp
      ring
    rw [this]
  · intro i hi1 hi2
    rw [h2.flow, hmax] at hi2
    exact bids_complete _ (fun f hf => (mem_boundaryFaces.mp hf).2) hu.1
      (fun f hf => hmax ▸ le_maxBid _ f hf) i hi1 (by omega)
  · intro i hi'
    unfold Handler.getPartner
    rw [h3]
    simp only [BCs.resize, Handler.resize, getElem?_resizeList, hmax, hi', if_true]
    by_cases hl : i < bcs.hdl.partner.length
    · simp [hl]
    · simp [hl]

example : UniqueIds (outerFaces cubeFaces) ∧ OnBox (1 / 10 ^ 6) (outerFaces cubeFaces) cubeSide ∧
    Extents (outerFaces cubeFaces) 0 1 := by
  refine ⟨cube_unique, cube_onBox, ?_, ?_, ?_, ?_⟩ <;> decide +kernel

/-- C07, shape of the profile (for a non-negative drop): at the lowest coordinate the pressure is the drop, at the
highest it is zero, it is between the two everywhere, and it does not increase with the coordinate. -/
theorem C07_linear_profile (bcs : BCs K) (faces : List (Face K)) (pdrop : K) (d : Fin 3) (bdySat : K)
    (tol : K) (side : Face K → Nat) (lo hi : Fin 3 → K) (hp : 0 ≤ pdrop)
    (hu : UniqueIds (outerFaces faces)) (hbox : OnBox tol (outerFaces faces) side)
    (hext : Extents (outerFaces faces) lo hi) (hlt : lo d < hi d) :
    ∃ r, createLinear bcs faces pdrop d bdySat false tol = .ok r ∧
      (∀ f ∈ outerFaces faces, ∃ p, r.flow[f.bid]? = some ⟨.dirichlet, p⟩ ∧ 0 ≤ p ∧ p ≤ pdrop ∧
        (f.centroid d = lo d → p = pdrop) ∧ (f.centroid d = hi d → p = 0)) ∧
      (∀ f ∈ outerFaces faces, ∀ g ∈ outerFaces faces, f.centroid d ≤ g.centroid d →
        flowValue r g.bid ≤ flowValue r f.bid) ∧
      (∀ f ∈ outerFaces faces, ∀ g ∈ outerFaces faces,
        (flowValue r f.bid - flowValue r g.bid) * (hi d - lo d) = pdrop * (g.centroid d - f.centroid d)) := by
  obtain ⟨r, h1, _, h2, _⟩ := C07_linear_values bcs faces pdrop d bdySat false tol side lo hi hu hbox hext hlt
  have hpos : 0 < hi d - lo d := sub_pos.mpr hlt
  have hval : ∀ f ∈ outerFaces faces, r.flow[f.bid]? = some ⟨.dirichlet, pdrop * (hi d - f.centroid d) / (hi d - lo d)⟩ := by
    intro f hf
    have := (h2 f hf).1
    simpa using this
  have hfv : ∀ f ∈ outerFaces faces, flowValue r f.bid = pdrop * (hi d - f.centroid d) / (hi d - lo d) := by
    intro f hf; unfold flowValue; rw [hval f hf]; rfl
  refine ⟨r, h1, ?_, ?_, ?_⟩
  · intro f hf
    refine ⟨_, hval f hf, ?_, ?_, ?_, ?_⟩
    · exact div_nonneg (mul_nonneg hp (sub_nonneg.mpr (hext.bounds f hf d).2)) hpos.le
    · rw [div_le_iff₀ hpos]
      exact mul_le_mul_of_nonneg_left (by have := (hext.bounds f hf d).1; linarith) hp
    · intro e; rw [e, mul_div_assoc, div_self hpos.ne', mul_one]
    · intro e; rw [e]; simp
  · intro f hf g hg hfg
    rw [hfv f hf, hfv g hg]
    apply div_le_div_of_nonneg_right _ hpos.le
    exact mul_le_mul_of_nonneg_left (by linarith) hp
  · intro f hf g hg
    rw [hfv f hf, hfv g hg]
    have := hpos.ne'
    field_simp
    ring

/-- C07, rejected grids: if the number of boundary faces differs from the largest id, the call throws and leaves the
table unchanged; and a successful call means every boundary face lies on the box. -/
theorem C07_linear_rejects (bcs : BCs K) (faces : List (Face K)) (pdrop : K) (d : Fin 3) (bdySat : K) (tw : Bool)
    (tol : K) :
    (((outerFaces faces).map (·.bid)).foldl max 0 ≠ (outerFaces faces).length →
      createLinear bcs faces pdrop d bdySat tw tol = .error (.thrown, bcs)) ∧
    ((∀ f ∈ outerFaces faces, ∀ e, |f.centroid e| < 10 ^ 100) →
      ∀ r, createLinear bcs faces pdrop d bdySat tw tol = .ok r → ∃ side, OnBox tol (outerFaces faces) side) := by
  constructor
  · intro h
    rw [List.foldl_map] at h
    unfold createLinear
    exact if_pos h
  · intro hb r h
    unfold createLinear at h
    simp only at h
    split at h
    · cases h
    · refine ⟨fun f => (canonPosOf tol (lowOf (boundaryFaces faces)) (hiOf (boundaryFaces faces)) f.centroid).getD 0, onBoxM_spec ?_ hb⟩
      have key : ∀ (l : List (Face K)) (b : BCs K), l.foldlM (linearFace (lowOf (boundaryFaces faces))
          (hiOf (boundaryFaces faces)) pdrop d bdySat tw tol) b = .ok r → ∀ f ∈ l,
          (canonPosOf tol (lowOf (boundaryFaces faces)) (hiOf (boundaryFaces faces)) f.centroid).isSome := by
        intro l
        induction l with
        | nil => simp
        | cons a l ih =>
          intro b hb f hf
          rw [List.foldlM_cons] at hb
          cases hstep : linearFace (lowOf (boundaryFaces faces)) (hiOf (boundaryFaces faces)) pdrop d bdySat tw tol b a with
          | error e => rw [hstep] at hb; cases hb
          | ok b1 =>
            rw [hstep] at hb
            rcases List.mem_cons.mp hf with rfl | hf
            · unfold linearFace at hstep
              cases hc : canonPosOf tol (lowOf (boundaryFaces faces)) (hiOf (boundaryFaces faces)) f.centroid with
              | none => rw [hc] at hstep; cases hstep
              | some c => rfl
            · exact ih b1 hb f hf
      intro f hf
      have := key _ _ h f hf
      cases hc : canonPosOf tol (lowOf (boundaryFaces faces)) (hiOf (boundaryFaces faces)) f.centroid with
      | none => rw [hc] at this; cases this
      | some c => simp only [outerFaces_eq, hc, Option.getD_some]

/-- C08, linear conditions, the part that holds: on a box grid with unique ids the flow and saturation conditions and
canonical ids of all boundary faces do not depend on what the table held before. Missing: partner entries and the
entries of id 0 do survive, see `C08_linear_history_violated`. -/
theorem C08_linear_history_partial (sort : List (BFI K) → List (BFI K)) (faces : List (Face K)) (d : Fin 3)
    (pdrop bdySat : K) (tw : Bool) (side : Face K → Nat) (lo hi : Fin 3 → K)
    (hu : UniqueIds (outerFaces faces)) (hbox : OnBox (1 / 10 ^ 6) (outerFaces faces) side)
    (hext : Extents (outerFaces faces) lo hi) (hlt : lo d < hi d) (bcs bcs' : BCs K) :
    ∃ r r', setupUpscalingConditions sort faces 1 d pdrop bdySat tw bcs = .ok r ∧
      setupUpscalingConditions sort faces 1 d pdrop bdySat tw bcs' = .ok r' ∧
      r.flow.length = r'.flow.length ∧
      ∀ i, 1 ≤ i → i < r.flow.length → r.flow[i]? = r'.flow[i]? ∧ r.sat[i]? = r'.sat[i]? ∧
        r.hdl.getCanon i = r'.hdl.getCanon i := by
  obtain ⟨r, h1, h2, h3, h4, _⟩ := C07_linear_values bcs faces pdrop d bdySat tw _ side lo hi hu hbox hext hlt
  obtain ⟨r', h1', h2', h3', _⟩ := C07_linear_values bcs' faces pdrop d bdySat tw _ side lo hi hu hbox hext hlt
  have hred : ∀ b : BCs K, setupUpscalingConditions sort faces 1 d pdrop bdySat tw b =
      createLinear b faces pdrop d bdySat tw (1 / 10 ^ 6) := by
    intro b
    unfold setupUpscalingConditions
    simp only [show ¬ ((1 : Int) < 0 ∨ (1 : Int) > 2) by omega, if_false, show ¬ (1 : Int) = 0 by omega, if_true]
  refine ⟨r, r', by rw [hred, h1], by rw [hred, h1'], by rw [h2, h2'], ?_⟩
  intro i hi1 hi2
  obtain ⟨f, hf, rfl⟩ := h4 i hi1 hi2
  obtain ⟨a1, a2, a3⟩ := h3 f hf
  obtain ⟨b1, b2, b3⟩ := h3' f hf
  exact ⟨by rw [a1, b1], by rw [a2, b2], by rw [a3, b3]⟩

/-- Linear set-up after periodic set-up on the same grid keeps the periodic partners; after fixed set-up there are
none. So the linear result does depend on history. -/
theorem C08_linear_history_violated :
    ∃ (bcs bcs' r r' : BCs ℚ), setupUpscalingConditions id cubeFaces 2 0 1 1 false ⟨⟨[], []⟩, [], []⟩ = .ok bcs ∧
      setupUpscalingConditions id cubeFaces 0 0 1 1 false ⟨⟨[], []⟩, [], []⟩ = .ok bcs' ∧
      setupUpscalingConditions id cubeFaces 1 0 1 1 false bcs = .ok r ∧
      setupUpscalingConditions id cubeFaces 1 0 1 1 false bcs' = .ok r' ∧
      r.hdl.getPartner 1 = some 2 ∧ r'.hdl.getPartner 1 = some 0 := by
  have hext : Extents (outerFaces cubeFaces) 0 1 := by
    refine ⟨?_, ?_, ?_, ?_⟩ <;> decide +kernel
  obtain ⟨bcs, hb, hb2⟩ := C08_periodic_exact id (fun l => List.Perm.refl l) cubeFaces 0 1 1 false cubeSide
    cube_unique cube_onBox cube_single (by decide +kernel)
  obtain ⟨bcs', hb', _, hb2'⟩ := C08_fixed_exact (K := ℚ) 0 1 1
  obtain ⟨r, h1, _, _, _, h5⟩ := C07_linear_values bcs cubeFaces 1 0 1 false _ cubeSide (0 : Fin 3 → ℚ) 1 cube_unique cube_onBox hext (by decide +kernel)
  obtain ⟨r', h1', _, _, _, h5'⟩ := C07_linear_values bcs' cubeFaces 1 0 1 false _ cubeSide (0 : Fin 3 → ℚ) 1 cube_unique cube_onBox hext (by decide +kernel)
  refine ⟨bcs, bcs', r, r', hb _, hb' _ _ _ _, h1, h1', ?_, ?_⟩
  · rw [h5 1 (by decide +kernel)]
    have hp := ((hb2 ⟨1, 1, ![0, 1/2, 1/2]⟩ (by simp [outerFaces, cubeFaces])).2.2.2
      ⟨2, 1, ![1, 1/2, 1/2]⟩ (by simp [outerFaces, cubeFaces])).mpr (by decide +kernel)
    simp only at hp
    rw [hp]; rfl
  · rw [h5' 1 (by decide +kernel), (hb2' 1 (by omega)).2.2.2]; rfl

/-! ### C56: the uniqueness check on boundary ids -/

/-- C56: unique ids `1..n` always pass the check made by the periodic and linear set-up: neither call is rejected
before looking at the geometry. -/
theorem C56_unique_ids_accepted (sort : List (BFI K) → List (BFI K)) (hsort : ∀ l, (sort l).Perm l)
    (faces : List (Face K)) (per : Nat → Bool) (tol : K) (side : Face K → Nat)
    (hu : UniqueIds (outerFaces faces)) (hbox : OnBox tol (outerFaces faces) side) :
    ∃ r, findPeriodicPartners sort faces per tol = .ok r ∧ r.length = (outerFaces faces).length := by
  have hmax := (uniqueIds_model hu).2
  have hinfo := makeInfos_ok (onBox_model hbox)
  simp only [outerFaces_eq] at *
  unfold findPeriodicPartners
  simp only [hmax, ne_eq, not_true_eq_false, if_false, hinfo]
  have hperm := hsort ((boundaryFaces faces).zipIdx.map (infoOf side))
  rw [partnerLoop_dress _ _ (fresh_S hperm)]
  exact ⟨_, rfl, by rw [dressAll_length, length_S hperm]⟩

example : UniqueIds (outerFaces cubeFaces) ∧ OnBox (1 / 10 ^ 6) (outerFaces cubeFaces) cubeSide :=
  ⟨cube_unique, cube_onBox⟩

/-- C56: if the largest id differs from the number of boundary faces, both set-ups throw, the linear one without
touching the table, and the ids indeed are not a numbering by `1..n`. (The converse is false.) -/
theorem C56_rejected_ids_not_unique_partial (sort : List (BFI K) → List (BFI K)) (faces : List (Face K))
    (per : Nat → Bool) (bcs : BCs K) (pdrop bdySat tol : K) (d : Fin 3) (tw : Bool)
    (h : ((outerFaces faces).map (·.bid)).foldl max 0 ≠ (outerFaces faces).length) :
    findPeriodicPartners sort faces per tol = .error .thrown ∧
      createLinear bcs faces pdrop d bdySat tw tol = .error (.thrown, bcs) ∧ ¬ UniqueIds (outerFaces faces) := by
  refine ⟨?_, (C07_linear_rejects bcs faces pdrop d bdySat tw tol).1 h, ?_⟩
  · rw [List.foldl_map] at h
    unfold findPeriodicPartners
    exact if_pos h
  · intro hu
    rw [List.foldl_map] at h
    exact h (uniqueIds_model hu).2

example : ((outerFaces (threeFaces 1 1 2)).map (·.bid)).foldl max 0 ≠ (outerFaces (threeFaces 1 1 2)).length := by
  decide +kernel

/-- C56 violated: duplicated ids 1, 1, 3 pass the check; the linear set-up then leaves id 2 without a condition and
overwrites the first face's pressure with the second's. -/
theorem C56_duplicate_ids_accepted_violated :
    ¬ UniqueIds (outerFaces (threeFaces 1 1 3)) ∧
    (createLinear ⟨⟨[], []⟩, [], []⟩ (threeFaces 1 1 3) 1 0 1 false (1 / 10 ^ 6)).toOption.map
      (fun r => (r.flow, r.hdl.canon)) =
      some ([⟨.neumann, 0⟩, ⟨.dirichlet, 0⟩, ⟨.neumann, 0⟩, ⟨.dirichlet, 0⟩], [0, 2, 0, 2]) := by
  refine ⟨?_, by decide +kernel⟩
  rintro ⟨h, _⟩
  revert h
  decide +kernel

/-! ### C57: region based conditions -/

/-- C57: the region based set-up gives the block pressure to exactly the boundary ids that have a face strictly
inside the region, keeps all other conditions, and never fails. -/
theorem C57_region_based_exact (bcs : BCs K) (faces : List (Face K)) (low high : Fin 3 → K) (p : K) :
    ∃ r, setupRegionBased bcs faces low high p = .ok r ∧
      (∀ f ∈ faces, f.bid < r.flow.length) ∧ r.sat = resizeList bcs.sat r.flow.length satDefault ∧
      ∀ i < r.flow.length, r.flow[i]? = some
        (if (∃ f ∈ faces, f.bid = i ∧ i ≠ 0 ∧ ∀ d, low d < f.centroid d ∧ f.centroid d < high d)
          then ⟨.dirichlet, p⟩ else (bcs.flow[i]?).getD ⟨.neumann, 0⟩) := by
  classical
  set mx := faces.foldl (fun m f => max f.bid m) 0 with hmx
  have hmxle : ∀ f ∈ faces, f.bid ≤ mx := by
    have key : ∀ (l : List (Face K)) (s : Nat), (∀ f ∈ l, f.bid ≤ l.foldl (fun m f => max f.bid m) s) ∧
        s ≤ l.foldl (fun m f => max f.bid m) s := by
      intro l
      induction l with
      | nil => intro s; simp
      | cons a l ih =>
        intro s
        obtain ⟨h1, h2⟩ := ih (max a.bid s)
        refine ⟨?_, le_trans (le_max_right _ _) h2⟩
        intro f hf
        rcases List.mem_cons.mp hf with rfl | hf
        · exact le_trans (le_max_left _ _) h2
        · exact h1 f hf
    exact (key faces 0).1
  have hfold : ∀ (ids : List Nat), (∀ i ∈ ids, i < mx + 1) → ∀ b : BCs K, b.flow.length = mx + 1 →
      ∃ r, ids.foldlM (fun (b : BCs K) i => b.setFlow i ⟨.dirichlet, p⟩) b = .ok r ∧ r.flow.length = mx + 1 ∧
        r.sat = b.sat ∧ ∀ i, r.flow[i]? = if i ∈ ids then some ⟨.dirichlet, p⟩ else b.flow[i]? := by
    intro ids
    induction ids with
    | nil => intro _ b hb; exact ⟨b, rfl, hb, rfl, by simp⟩
    | cons a l ih =>
      intro hlt b hb
      have ha := hlt a (by simp)
      obtain ⟨r, h1, h2, h3, h4⟩ := ih (fun i hi => hlt i (by simp [hi])) { b with flow := b.flow.set a ⟨.dirichlet, p⟩ }
        (by simp [hb])
      refine ⟨r, ?_, h2, h3, ?_⟩
      · rw [List.foldlM_cons, setFlow_ok b (by rw [hb]; exact ha)]; exact h1
      · intro i
        rw [h4 i]
        by_cases hil : i ∈ l
        · simp [hil]
        · by_cases hia : i = a
          · subst hia; simp [hil, hb, ha]
          · have : ¬ a = i := fun h => hia h.symm
            simp [hil, hia, this]
  set ids := (faces.filter fun f => decide (f.bid ≠ 0) && isInside low high f.centroid).map (·.bid) with hids
  have hin : ∀ f : Face K, isInside low high f.centroid = true ↔ ∀ d, low d < f.centroid d ∧ f.centroid d < high d := by
    intro f
    unfold isInside
    simp only [Bool.and_eq_true, decide_eq_true_iff]
    constructor
    · rintro ⟨⟨⟨⟨⟨a, b⟩, c⟩, d⟩, e⟩, g⟩ i
      fin_cases i
      · exact ⟨a, d⟩
      · exact ⟨b, e⟩
      · exact ⟨c, g⟩
    · intro h
      exact ⟨⟨⟨⟨⟨(h 0).1, (h 1).1⟩, (h 2).1⟩, (h 0).2⟩, (h 1).2⟩, (h 2).2⟩
  have hmem : ∀ i, i ∈ ids ↔ ∃ f ∈ faces, f.bid = i ∧ i ≠ 0 ∧ ∀ d, low d < f.centroid d ∧ f.centroid d < high d := by
    intro i
    rw [hids, List.mem_map]
    constructor
    · rintro ⟨f, hf, rfl⟩
      obtain ⟨hf, hc⟩ := List.mem_filter.mp hf
      simp only [Bool.and_eq_true, decide_eq_true_iff] at hc
      exact ⟨f, hf, rfl, hc.1, (hin f).mp hc.2⟩
    · rintro ⟨f, hf, rfl, h0, hc⟩
      exact ⟨f, List.mem_filter.mpr ⟨hf, by simp [h0, (hin f).mpr hc]⟩, rfl⟩
  obtain ⟨r, h1, h2, h3, h4⟩ := hfold ids
    (by
      intro i hi
      obtain ⟨f, hf, rfl, _⟩ := (hmem i).mp hi
      exact Nat.lt_succ_of_le (hmxle f hf)) (bcs.resize (mx + 1)) (sized_resize _ _).flow
  refine ⟨r, h1, ?_, ?_, ?_⟩
  · intro f hf; rw [h2]; exact Nat.lt_succ_of_le (hmxle f hf)
  · rw [h3, h2]; rfl
  · intro i hi
    rw [h4 i, h2] at *
    by_cases hm : i ∈ ids
    · rw [if_pos hm, if_pos ((hmem i).mp hm)]
    · rw [if_neg hm, if_neg (fun h => hm ((hmem i).mpr h))]
      simp only [BCs.resize, getElem?_resizeList, hi, if_true]
      by_cases hl : i < bcs.flow.length
      · simp [hl]
      · simp [hl, flowDefault]

example : (setupRegionBased (⟨⟨[], []⟩, [], []⟩ : BCs ℚ) cubeFaces ![-1, -1, -1] ![1/4, 2, 2] 7).toOption.map (·.flow) =
    some [⟨.neumann, 0⟩, ⟨.dirichlet, 7⟩, ⟨.neumann, 0⟩, ⟨.neumann, 0⟩, ⟨.neumann, 0⟩, ⟨.neumann, 0⟩, ⟨.neumann, 0⟩] := by
  decide +kernel

end Verif.Boundary
