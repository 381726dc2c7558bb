import Verif.Lemmas.PeriodicFull
import Mathlib.Tactic.FinCases

/-!
C05: geometric periodic partners. C06: distribution of side conditions. C08: upscaling set-up.
-/

set_option linter.unusedSectionVars false

namespace Verif.Boundary

variable {K : Type} [Field K] [LinearOrder K] [IsStrictOrderedRing K]

/-! ### A concrete grid used by the examples: one unit cell, and two unit cells side by side in x -/

/-- The six boundary faces of the unit cube, ids 1..6, and an interior face. -/
def cubeFaces : List (Face ℚ) :=
  [⟨1, 1, ![0, 1/2, 1/2]⟩, ⟨2, 1, ![1, 1/2, 1/2]⟩, ⟨3, 1, ![1/2, 0, 1/2]⟩, ⟨4, 1, ![1/2, 1, 1/2]⟩,
   ⟨0, 1, ![1/2, 1/2, 1/2]⟩, ⟨5, 1, ![1/2, 1/2, 0]⟩, ⟨6, 1, ![1/2, 1/2, 1]⟩]

def cubeSide (f : Face ℚ) : Nat := f.bid - 1

theorem cube_unique : UniqueIds (outerFaces cubeFaces) := by
  refine ⟨?_, ?_⟩ <;> decide +kernel

theorem cube_bounded : ∀ f ∈ outerFaces cubeFaces, ∀ d, |f.centroid d| < 10 ^ 100 := by decide +kernel

theorem cube_onBox : OnBox (1 / 10 ^ 6) (outerFaces cubeFaces) cubeSide := by
  have : ∀ f ∈ boundaryFaces cubeFaces, canonPosOf (1 / 10 ^ 6) (lowOf (boundaryFaces cubeFaces))
    (hiOf (boundaryFaces cubeFaces)) f.centroid = some (cubeSide f) := by decide +kernel
  exact onBoxM_spec this cube_bounded

theorem cube_single : SingleImage (outerFaces cubeFaces) cubeSide := by
  have : ∀ f ∈ outerFaces cubeFaces, ∀ g ∈ outerFaces cubeFaces, ∀ h ∈ outerFaces cubeFaces,
    PeriodicImage (cubeSide f) f (cubeSide g) g → PeriodicImage (cubeSide f) f (cubeSide h) h → g.bid = h.bid := by
    decide +kernel
  exact this

/-! ### C05 -/

/-- C05, for every grid (coordinates below 1e100) and every sort: a partner reported by the search is a periodic image (opposite side, equal
area, coinciding tangential centroid), and the reported partner id is that face's id. -/
theorem C05_partner_is_image (sort : List (BFI K) → List (BFI K)) (hsort : ∀ l, (sort l).Perm l)
    (faces : List (Face K)) (per : Nat → Bool) (tol : K) (r : List (BFI K))
    (hb : ∀ f ∈ outerFaces faces, ∀ d, |f.centroid d| < 10 ^ 100)
    (h : findPeriodicPartners sort faces per tol = .ok r) :
    ∃ side, OnBox tol (outerFaces faces) side ∧
      ∀ b ∈ r, ∀ k', b.partnerFace = some k' →
        ∃ f g, (outerFaces faces)[b.faceIndex]? = some f ∧ (outerFaces faces)[k']? = some g ∧
          b.bid = f.bid ∧ b.partnerBid = g.bid ∧ PeriodicImage (side f) f (side g) g := by
  simp only [outerFaces_eq] at *
  unfold findPeriodicPartners at h
  simp only at h
  split at h
  · cases h
  · cases hm : makeInfos tol (boundaryFaces faces) with
    | none => rw [hm] at h; cases h
    | some infos =>
      rw [hm] at h
      obtain ⟨side, hbox⟩ := makeInfos_onBox hm
      refine ⟨side, onBoxM_spec hbox hb, ?_⟩
      rw [makeInfos_ok hbox] at hm
      cases hm
      have hperm := hsort ((boundaryFaces faces).zipIdx.map (infoOf side))
      simp only at h
      rw [partnerLoop_dress _ _ (fresh_S hperm)] at h
      cases h
      intro b hb k' hk'
      obtain ⟨i, k, f, hi, hf, rfl⟩ := mem_dressAll hperm hb
      set S := sort ((boundaryFaces faces).zipIdx.map (infoOf side)) with hS
      set p := (List.range S.length).foldl (astep S per) (fun _ => none) with hp
      cases hpi : p i with
      | none => rw [dress_none hpi] at hk'; cases hk'
      | some j =>
        have hacc := loop_sound S per _ i j hpi
        obtain ⟨a, c, ha, hc, _⟩ := id hacc
        obtain ⟨kk, g, hg, rfl⟩ := (mem_S hperm).mp (List.mem_of_getElem? hc)
        obtain ⟨e1, e2⟩ := dress_some (b := infoOf side (f, k)) hpi hc
        obtain ⟨s1, s2, _⟩ := dress_static S p i (infoOf side (f, k))
        rw [e1] at hk'
        cases hk'
        exact ⟨f, g, by rw [s1]; exact hf, hg, s2, e2, (acc_iff hperm hi hc).mp hacc⟩

example : ((findPeriodicPartners id cubeFaces (fun _ => true) (1 / 10 ^ 6)).toOption.map
    fun r => r.map fun b => (b.bid, b.partnerBid)) = some [(1, 2), (2, 1), (3, 4), (4, 3), (5, 6), (6, 5)] := by
  decide +kernel

/-- C05 for the table that `createPeriodic` builds, for grids in which no face has two images, every sort and every
earlier content of the table: no assertion fails, and a face's partner is `g` exactly when its side is periodic and
`g` is its image; hence the relation is symmetric. Missing: grids with several candidates per face, for which
symmetry fails (`C05_symmetry_violated`). -/
theorem C05_partner_iff_image_partial (sort : List (BFI K) → List (BFI K)) (hsort : ∀ l, (sort l).Perm l)
    (fbcs : BCs K) (faces : List (Face K)) (per : Nat → Bool) (tol : K) (side : Face K → Nat)
    (hu : UniqueIds (outerFaces faces)) (hbox : OnBox tol (outerFaces faces) side)
    (hsi : SingleImage (outerFaces faces) side) (hfl : FlagsAgree per) :
    ∃ b infos, createPeriodicImpl sort fbcs faces per tol = .ok (b, infos) ∧
      (∀ f ∈ outerFaces faces, ∀ g ∈ outerFaces faces, b.hdl.getPartner f.bid = some g.bid ↔
        per (side f) = true ∧ PeriodicImage (side f) f (side g) g) ∧
      (∀ f ∈ outerFaces faces, ∀ g ∈ outerFaces faces, b.hdl.getPartner f.bid = some g.bid →
        b.hdl.getPartner g.bid = some f.bid) ∧
      (∀ f ∈ outerFaces faces, b.hdl.getPartner f.bid = some 0 ∨
        ∃ g ∈ outerFaces faces, b.hdl.getPartner f.bid = some g.bid) ∧
      (∀ f ∈ outerFaces faces, b.hdl.getCanon f.bid = some (side f + 1)) := by
  obtain ⟨b, infos, h, ok⟩ := createPeriodicImpl_ok sort hsort fbcs faces per tol side (uniqueIds_model hu)
    (onBox_model hbox) hsi hfl
  replace hbox := onBox_model hbox
  refine ⟨b, infos, h, ok.partner, ?_, ?_, ok.canon⟩
  · intro f hf g hg hfg
    obtain ⟨h1, h2, h3, h4, h5⟩ := (ok.partner f hf g hg).mp hfg
    refine (ok.partner g hg f hf).mpr ⟨?_, h2.symm, h3.symm, by rwa [abs_sub_comm], ?_⟩
    · have h6 := canonPosOf_lt (hbox f hf)
      have : side g = oppPos (side f) := by unfold oppPos; split <;> omega
      rw [this, flagsAgree_opp hfl h6, h1]
    · refine le_of_eq_of_le (Finset.sum_congr rfl fun d _ => ?_) h5
      rw [← h2]
      split
      · rfl
      · ring
  · intro f hf
    by_cases hex : ∃ g ∈ outerFaces faces, per (side f) = true ∧ PeriodicImage (side f) f (side g) g
    · obtain ⟨g, hg, hh⟩ := hex
      exact Or.inr ⟨g, hg, (ok.partner f hf g hg).mpr hh⟩
    · refine Or.inl (ok.nopartner f hf fun g hg hh => hex ⟨g, hg, hh⟩)

example : UniqueIds (outerFaces cubeFaces) ∧ OnBox (1 / 10 ^ 6) (outerFaces cubeFaces) cubeSide ∧
    SingleImage (outerFaces cubeFaces) cubeSide ∧ FlagsAgree (fun s => decide (s < 4)) :=
  ⟨cube_unique, cube_onBox, cube_single, by simp [FlagsAgree]⟩

/-- Three faces: one on the low side and two coinciding ones on the high side. -/
def threeFaces (a b c : Nat) : List (Face ℚ) := [⟨a, 1, ![0, 0, 0]⟩, ⟨b, 1, ![1, 0, 0]⟩, ⟨c, 1, ![1, 0, 0]⟩]

/-- With two candidates the later search overwrites the earlier match: face 2's partner is 1, but 1's partner is 3. -/
theorem C05_symmetry_violated :
    ((findPeriodicPartners id (threeFaces 1 2 3) (fun _ => true) (1 / 10 ^ 6)).toOption.map
      fun r => r.map fun b => (b.bid, b.partnerBid)) = some [(1, 3), (2, 1), (3, 1)] := by decide +kernel

/-- With other ids the same geometry trips the assertion of the partner registration. -/
theorem C05_assertion_violated (fbcs : BCs ℚ) :
    ∃ b, createPeriodicImpl id fbcs (threeFaces 3 1 2) (fun _ => true) (1 / 10 ^ 6) = .error (.ub, b) := by
  have key : ∀ fb : BCs ℚ, createPeriodicImpl id fb (threeFaces 3 1 2) (fun _ => true) (1 / 10 ^ 6) =
      createPeriodicImpl id ⟨⟨[], []⟩, [], []⟩ (threeFaces 3 1 2) (fun _ => true) (1 / 10 ^ 6) := by
    intro fb
    have hf : (findPeriodicPartners id (threeFaces 3 1 2) (fun _ => true) (1 / 10 ^ 6)).toBool = true := by
      decide +kernel
    unfold createPeriodicImpl
    cases h : findPeriodicPartners id (threeFaces 3 1 2) (fun _ => true) (1 / 10 ^ 6) with
    | error e => rw [h] at hf; cases hf
    | ok r => rfl
  rw [key]
  have hb : (match createPeriodicImpl id (⟨⟨[], []⟩, [], []⟩ : BCs ℚ) (threeFaces 3 1 2) (fun _ => true)
      (1 / 10 ^ 6) with
    | .error (.ub, _) => true
    | _ => false) = true := by decide +kernel
  revert hb
  generalize createPeriodicImpl id (⟨⟨[], []⟩, [], []⟩ : BCs ℚ) (threeFaces 3 1 2) (fun _ => true)
      (1 / 10 ^ 6) = x
  intro hb
  match x, hb with
  | .error (.ub, b), _ => exact ⟨b, rfl⟩

/-! ### `createPeriodic` as a whole -/

theorem validConds_asserts {fc sc : Nat → BC K} (h : ValidConds fc sc) : periodicAsserts fc sc = true := by
  unfold periodicAsserts
  rw [List.all_eq_true]
  intro i hi
  have hi3 : i < 3 := by simp at hi; omega
  obtain ⟨h1, h2⟩ := h i hi3
  by_cases hp : (fc (2 * i)).type = .periodic
  · obtain ⟨h3, h4, h5⟩ := h2 hp
    simp [hp, h1.mp hp, h3, h4, h5]
  · simp [hp]

theorem validConds_flags {fc sc : Nat → BC K} (h : ValidConds fc sc) :
    FlagsAgree (fun s => decide ((fc s).type = .periodic)) := by
  have h0 := (h 0 (by omega)).1
  have h1 := (h 1 (by omega)).1
  have h2 := (h 2 (by omega)).1
  refine ⟨?_, ?_, ?_⟩
  · simpa using h0
  · simpa using h1
  · simpa using h2

theorem area_pos {bf : List (Face K)} {side : Face K → Nat} (hpos : ∀ f ∈ bf, 0 < f.area) {f : Face K} (hf : f ∈ bf) :
    0 < totalArea bf side (side f) := by
  unfold totalArea
  have hmem : f ∈ bf.filter (fun g => side g = side f) := by simp [hf]
  have hle := List.single_le_sum (l := (bf.filter (fun g => side g = side f)).map (·.area))
    (by
      intro x hx
      obtain ⟨g, hg, rfl⟩ := List.mem_map.mp hx
      exact le_of_lt (hpos g (List.mem_of_mem_filter hg))) f.area (List.mem_map.mpr ⟨f, hmem, rfl⟩)
  exact lt_of_lt_of_le (hpos f hf) hle

theorem createPeriodic_ok (sort : List (BFI K) → List (BFI K)) (hsort : ∀ l, (sort l).Perm l)
    (fbcs : BCs K) (faces : List (Face K)) (fc sc : Nat → BC K) (tol : K) (side : Face K → Nat)
    (hu : UniqueIdsM (boundaryFaces faces)) (hbox : OnBoxM tol (boundaryFaces faces) side)
    (hsi : SingleImage (boundaryFaces faces) side) (hpos : ∀ f ∈ boundaryFaces faces, 0 < f.area)
    (hv : ValidConds fc sc) :
    ∃ b infos b', createPeriodic sort fbcs faces fc sc tol = .ok b ∧ b.hdl = b'.hdl ∧
      ImplOk (boundaryFaces faces) side (fun s => decide ((fc s).type = .periodic)) b' infos ∧
      (∀ f ∈ boundaryFaces faces, b.sat[f.bid]? = some (sc (side f)) ∧
        b.flow[f.bid]? = some (if (fc (side f)).type = .neumann
          then ⟨.neumann, (fc (side f)).value * f.area / totalArea (boundaryFaces faces) side (side f)⟩
          else fc (side f))) ∧
      b.flow[0]? = some flowDefault ∧ b.sat[0]? = some satDefault ∧ Sized b ((boundaryFaces faces).length + 1) := by
  obtain ⟨b', infos, h, ok⟩ := createPeriodicImpl_ok sort hsort fbcs faces _ tol side hu hbox hsi (validConds_flags hv)
  have hlt : ∀ i ∈ infos, i.bid < (boundaryFaces faces).length + 1 := by
    intro i hi
    obtain ⟨f, hf, h1, _⟩ := ok.infoFace i hi
    have := le_maxBid _ f hf
    rw [hu.2] at this
    omega
  obtain ⟨b1, e1, s1, hd1, st1, f1, f1'⟩ := storeFlow_fold fc (sideArea infos) _ infos hlt ok.nodup
    (by
      intro i hi _
      obtain ⟨f, hf, _, h2, _⟩ := ok.infoFace i hi
      rw [ok.areas, h2]
      exact ne_of_gt (area_pos hpos hf)) b' ok.sized
  obtain ⟨b2, e2, s2, hd2, fl2, st2, st2'⟩ := storeSat_fold sc _ infos hlt ok.nodup b1 s1
  have h0 : 0 ∉ infos.map (·.bid) := by
    intro hm
    obtain ⟨i, hi, h0⟩ := List.mem_map.mp hm
    obtain ⟨f, hf, h1, _⟩ := ok.infoFace i hi
    have := (mem_boundaryFaces.mp hf).2
    omega
  refine ⟨b2, infos, b', ?_, by rw [hd2, hd1], ok, ?_, ?_, ?_, s2⟩
  · unfold createPeriodic
    rw [if_pos (validConds_asserts hv), h]
    change (do
      let b1 ← storeFlowCond b' infos fc (sideArea infos)
      storeSatCond b1 infos sc) = _
    rw [e1]
    exact e2
  · intro f hf
    obtain ⟨i, hi, h1, h2, h3⟩ := ok.faceInfo f hf
    have g1 := st2 i hi
    have g2 := f1 i hi
    rw [h1, h2] at g1
    rw [h1, h2, h3, ok.areas] at g2
    exact ⟨g1, by rw [fl2]; exact g2⟩
  · rw [fl2, f1' 0 h0, ok.flow]; simp
  · rw [st2' 0 h0, st1, ok.sat]; simp

/-! ### C06 -/

/-- C06: with periodic set-up on a box with positive face areas, the outflux `q` prescribed for a side (Neumann) is
split over that side's faces in proportion to their area and the parts sum to exactly `q`; a face on a side with any
other condition gets exactly that side's condition; saturation conditions are those of the face's side. -/
theorem C06_side_flux_distributed (sort : List (BFI K) → List (BFI K)) (hsort : ∀ l, (sort l).Perm l)
    (fbcs : BCs K) (faces : List (Face K)) (fc sc : Nat → BC K) (tol : K) (side : Face K → Nat)
    (hu : UniqueIds (outerFaces faces)) (hbox : OnBox tol (outerFaces faces) side)
    (hsi : SingleImage (outerFaces faces) side) (hpos : ∀ f ∈ outerFaces faces, 0 < f.area)
    (hv : ValidConds fc sc) :
    ∃ b, createPeriodic sort fbcs faces fc sc tol = .ok b ∧
      (∀ s, (fc s).type = .neumann → (∃ f ∈ outerFaces faces, side f = s) →
        (((outerFaces faces).filter (fun f => side f = s)).map (fun f => flowValue b f.bid)).sum = (fc s).value) ∧
      (∀ f ∈ outerFaces faces, (fc (side f)).type = .neumann →
        flowValue b f.bid * totalArea (outerFaces faces) side (side f) = (fc (side f)).value * f.area) ∧
      (∀ f ∈ outerFaces faces, (fc (side f)).type ≠ .neumann → b.flow[f.bid]? = some (fc (side f))) ∧
      (∀ f ∈ outerFaces faces, b.sat[f.bid]? = some (sc (side f))) := by
  obtain ⟨b, infos, b', h, _, ok, hcond, _⟩ := createPeriodic_ok sort hsort fbcs faces fc sc tol side
    (uniqueIds_model hu) (onBox_model hbox) hsi hpos hv
  have hval : ∀ f ∈ outerFaces faces, (fc (side f)).type = .neumann →
      flowValue b f.bid = (fc (side f)).value * f.area / totalArea (outerFaces faces) side (side f) := by
    intro f hf hn
    unfold flowValue
    rw [(hcond f hf).2, if_pos hn]; rfl
  refine ⟨b, h, ?_, ?_, ?_, fun f hf => (hcond f hf).1⟩
  · rintro s hn ⟨f0, hf0, rfl⟩
    have hT := ne_of_gt (area_pos (side := side) hpos hf0)
    have : ((outerFaces faces).filter (fun f => side f = side f0)).map (fun f => flowValue b f.bid) =
        (((outerFaces faces).filter (fun f => side f = side f0)).map (·.area)).map
          (fun a => (fc (side f0)).value / totalArea (outerFaces faces) side (side f0) * a) := by
      rw [List.map_map]
      apply List.map_congr_left
      intro f hf
      obtain ⟨hf, hs⟩ := List.mem_filter.mp hf
      have hs : side f = side f0 := by simpa using hs
      rw [hval f hf (by rw [hs]; exact hn), hs]
      simp only [Function.comp]
      ring
    rw [this, List.sum_map_mul_left]
    simp only [List.map_id']
    change _ / _ * totalArea (outerFaces faces) side (side f0) = _
    exact div_mul_cancel₀ _ hT
  · intro f hf hn
    rw [hval f hf hn]
    exact div_mul_cancel₀ _ (ne_of_gt (area_pos hpos hf))
  · intro f hf hn
    rw [(hcond f hf).2, if_neg hn]

example : ValidConds (K := ℚ) (fun s => if s = 0 then ⟨.neumann, 3⟩ else if s = 1 then ⟨.dirichlet, 5⟩ else ⟨.periodic, 0⟩)
    (fun s => if s < 2 then ⟨.dirichlet, 1⟩ else ⟨.periodic, 0⟩) ∧ ∀ f ∈ outerFaces cubeFaces, 0 < f.area := by
  refine ⟨?_, by decide +kernel⟩
  decide +kernel

/-! ### C08 -/

/-- C08, fixed conditions: for every earlier content, every grid and every drop direction the result is the same
table: drop at the low side, zero at the high side, no-flow elsewhere, saturation only at the inflow side, canonical
ids equal to ids, no partners. -/
theorem C08_fixed_exact (pddir : Fin 3) (pdrop bdySat : K) :
    ∃ r : BCs K, (∀ (sort : List (BFI K) → List (BFI K)) (faces : List (Face K)) (tw : Bool) (bcs : BCs K),
        setupUpscalingConditions sort faces 0 pddir pdrop bdySat tw bcs = .ok r) ∧
      Sized r 7 ∧
      ∀ i < 7, r.flow[i]? = some (if i = 2 * pddir.val + 1 then ⟨.dirichlet, pdrop⟩
          else if i = 2 * pddir.val + 2 then ⟨.dirichlet, 0⟩ else ⟨.neumann, 0⟩) ∧
        r.sat[i]? = some (if i = 2 * pddir.val + 1 then ⟨.dirichlet, bdySat⟩ else ⟨.dirichlet, 1⟩) ∧
        r.hdl.getCanon i = some i ∧ r.hdl.getPartner i = some 0 := by
  have hred : ∀ (bcs : BCs K), setupFixed bcs pddir pdrop bdySat = .ok
      { hdl := ⟨List.replicate 7 0, [0, 1, 2, 3, 4, 5, 6]⟩
        flow := ((List.replicate 7 flowDefault).set (2 * pddir.val + 1) ⟨.dirichlet, pdrop⟩).set (2 * pddir.val + 2) ⟨.dirichlet, 0⟩
        sat := (List.replicate 7 satDefault).set (2 * pddir.val + 1) ⟨.dirichlet, bdySat⟩ } := by
    intro bcs
    fin_cases pddir <;> rfl
  refine ⟨{ hdl := ⟨List.replicate 7 0, [0, 1, 2, 3, 4, 5, 6]⟩
            flow := ((List.replicate 7 flowDefault).set (2 * pddir.val + 1) ⟨.dirichlet, pdrop⟩).set
              (2 * pddir.val + 2) ⟨.dirichlet, 0⟩
            sat := (List.replicate 7 satDefault).set (2 * pddir.val + 1) ⟨.dirichlet, bdySat⟩ },
    fun sort faces tw bcs => ?_, ?_, ?_⟩
  · unfold setupUpscalingConditions
    simp only [show ¬ ((0 : Int) < 0 ∨ (0 : Int) > 2) by omega, if_false, if_true]
    exact hred bcs
  · exact ⟨rfl, rfl, by simp, by simp⟩
  · intro i hi
    have hd := pddir.2
    refine ⟨?_, ?_, ?_, ?_⟩
    · simp only [List.getElem?_set, List.length_set, List.length_replicate, List.getElem?_replicate, hi, if_true]
      by_cases h2 : 2 * pddir.val + 2 = i
      · subst h2; simp [show 2 * pddir.val + 2 < 7 by omega]
      · by_cases h1 : 2 * pddir.val + 1 = i
        · subst h1; simp [show 2 * pddir.val + 1 < 7 by omega]
        · have e1 : ¬ i = 2 * pddir.val + 1 := fun h => h1 h.symm
          have e2 : ¬ i = 2 * pddir.val + 2 := fun h => h2 h.symm
          simp [h1, h2, e1, e2, flowDefault]
    · simp only [List.getElem?_set, List.length_replicate, List.getElem?_replicate, hi, if_true]
      by_cases h1 : 2 * pddir.val + 1 = i
      · subst h1; simp [show 2 * pddir.val + 1 < 7 by omega]
      · have e1 : ¬ i = 2 * pddir.val + 1 := fun h => h1 h.symm
        simp [h1, e1, satDefault]
    · have : i = 0 ∨ i = 1 ∨ i = 2 ∨ i = 3 ∨ i = 4 ∨ i = 5 ∨ i = 6 := by omega
      rcases this with rfl | rfl | rfl | rfl | rfl | rfl | rfl <;> rfl
    · simp only [Handler.getPartner, List.getElem?_replicate, hi, if_true]

/-- C08, rejected types: any type outside 0..2 throws and leaves the table as it was. -/
theorem C08_illegal_type_rejected (sort : List (BFI K) → List (BFI K)) (faces : List (Face K)) (bct : Int)
    (pddir : Fin 3) (pdrop bdySat : K) (tw : Bool) (bcs : BCs K) :
    (bct < 0 ∨ 2 < bct → setupUpscalingConditions sort faces bct pddir pdrop bdySat tw bcs = .error (.thrown, bcs)) := by
  intro h
  unfold setupUpscalingConditions
  rw [if_pos h]

example : (-1 : Int) < 0 ∨ (2 : Int) < -1 := by decide

theorem periodic_valid (pddir : Fin 3) (pdrop : K) (tw : Bool) :
    ValidConds (periodicFlowConds pddir pdrop tw) (periodicSatConds (K := K) tw) := by
  intro i hi
  have : i = 0 ∨ i = 1 ∨ i = 2 := by omega
  rcases this with rfl | rfl | rfl <;> fin_cases pddir <;> cases tw <;>
    simp [periodicFlowConds, periodicSatConds]

/-- C08, periodic conditions, success: on every box grid with positive face areas the set-up succeeds whatever the
table held before; a face on the low side of the drop direction carries the jump `+pdrop`, on the high side `-pdrop`,
elsewhere 0 (for the two-dimensional variant: no-flow on the z sides); the canonical id of a face is its side; the
partner is the geometric image. The resulting table is the same for every earlier content. -/
theorem C08_periodic_exact (sort : List (BFI K) → List (BFI K)) (hsort : ∀ l, (sort l).Perm l)
    (faces : List (Face K)) (pddir : Fin 3) (pdrop bdySat : K) (tw : Bool) (side : Face K → Nat)
    (hu : UniqueIds (outerFaces faces)) (hbox : OnBox (1 / 10 ^ 6) (outerFaces faces) side)
    (hsi : SingleImage (outerFaces faces) side) (hpos : ∀ f ∈ outerFaces faces, 0 < f.area) :
    ∃ r, (∀ bcs, setupUpscalingConditions sort faces 2 pddir pdrop bdySat tw bcs = .ok r) ∧
      ∀ f ∈ outerFaces faces,
        r.flow[f.bid]? = some (if tw = true ∧ 4 ≤ side f then ⟨.neumann, 0⟩
          else ⟨.periodic, if side f = 2 * pddir.val then pdrop else if side f = 2 * pddir.val + 1 then -pdrop else 0⟩) ∧
        r.sat[f.bid]? = some (if tw = true ∧ 4 ≤ side f then ⟨.dirichlet, 1⟩ else ⟨.periodic, 0⟩) ∧
        r.hdl.getCanon f.bid = some (side f + 1) ∧
        ∀ g ∈ outerFaces faces, r.hdl.getPartner f.bid = some g.bid ↔
          ¬ (tw = true ∧ 4 ≤ side f) ∧ PeriodicImage (side f) f (side g) g := by
  obtain ⟨r, infos, b', h, hh, ok, hcond, _⟩ := createPeriodic_ok sort hsort ⟨⟨[], []⟩, [], []⟩ faces
    (periodicFlowConds pddir pdrop tw) (periodicSatConds tw) (1 / 10 ^ 6) side (uniqueIds_model hu) (onBox_model hbox) hsi hpos
    (periodic_valid pddir pdrop tw)
  replace hbox := onBox_model hbox
  refine ⟨r, ?_, ?_⟩
  · intro bcs
    unfold setupUpscalingConditions
    simp only [show ¬ ((2 : Int) < 0 ∨ (2 : Int) > 2) by omega, if_false, show ¬ (2 : Int) = 0 by omega,
      show ¬ (2 : Int) = 1 by omega]
    rw [← h]
    unfold createPeriodic
    have himp : createPeriodicImpl sort bcs faces
        (fun s => decide ((periodicFlowConds pddir pdrop tw s).type = .periodic)) (1 / 10 ^ 6) =
        createPeriodicImpl sort ⟨⟨[], []⟩, [], []⟩ faces
        (fun s => decide ((periodicFlowConds pddir pdrop tw s).type = .periodic)) (1 / 10 ^ 6) := by
      obtain ⟨b1, i1, e1, _⟩ := createPeriodicImpl_ok sort hsort bcs faces
        (fun s => decide ((periodicFlowConds pddir pdrop tw s).type = .periodic)) (1 / 10 ^ 6) side (uniqueIds_model hu) hbox hsi
        (validConds_flags (periodic_valid pddir pdrop tw))
      unfold createPeriodicImpl at e1 ⊢
      cases hf : findPeriodicPartners sort faces
        (fun s => decide ((periodicFlowConds pddir pdrop tw s).type = .periodic)) (1 / 10 ^ 6) with
      | error e => rw [hf] at e1; cases e1
      | ok infos => rfl
    rw [himp, if_pos (validConds_asserts (periodic_valid pddir pdrop tw)),
      if_pos (validConds_asserts (periodic_valid pddir pdrop tw))]
  · intro f hf
    have h6 := canonPosOf_lt (hbox f hf)
    have hd := pddir.2
    obtain ⟨c1, c2⟩ := hcond f hf
    rw [c1, c2, hh, ok.canon f hf]
    have hcases : ∀ s : Nat, s < 6 → s = 0 ∨ s = 1 ∨ s = 2 ∨ s = 3 ∨ s = 4 ∨ s = 5 := by omega
    have hmain : ∀ s : Nat, s < 6 → ∀ T : K,
        (if (periodicFlowConds pddir pdrop tw s).type = .neumann
          then (⟨.neumann, (periodicFlowConds pddir pdrop tw s).value * f.area / T⟩ : BC K)
          else periodicFlowConds pddir pdrop tw s) =
          (if tw = true ∧ 4 ≤ s then ⟨.neumann, 0⟩
            else ⟨.periodic, if s = 2 * pddir.val then pdrop else if s = 2 * pddir.val + 1 then -pdrop else 0⟩) ∧
        (periodicSatConds tw s : BC K) = (if tw = true ∧ 4 ≤ s then ⟨.dirichlet, 1⟩ else ⟨.periodic, 0⟩) ∧
        ((periodicFlowConds pddir pdrop tw s).type = .periodic ↔ ¬ (tw = true ∧ 4 ≤ s)) := by
      intro s hs T
      rcases hcases s hs with rfl | rfl | rfl | rfl | rfl | rfl <;> fin_cases pddir <;> cases tw <;>
        simp [periodicFlowConds, periodicSatConds]
    obtain ⟨m1, m2, m3⟩ := hmain (side f) h6 (totalArea (boundaryFaces faces) side (side f))
    refine ⟨by rw [m1], by rw [m2], rfl, ?_⟩
    intro g hg
    rw [ok.partner f hf g hg, decide_eq_true_iff, m3]

example : UniqueIds (outerFaces cubeFaces) ∧ OnBox (1 / 10 ^ 6) (outerFaces cubeFaces) cubeSide ∧
    SingleImage (outerFaces cubeFaces) cubeSide ∧ ∀ f ∈ outerFaces cubeFaces, 0 < f.area :=
  ⟨cube_unique, cube_onBox, cube_single, by decide +kernel⟩

end Verif.Boundary
