import Verif.Props.SinglePhase

/-!
C91, continued: layered samples with periodic boundary conditions (`Verif.Model.SinglePhase`).
-/

namespace Verif.SinglePhase

variable {K : Type} [Field K] [LinearOrder K] [IsStrictOrderedRing K]

section
variable {I : Input K} {lo hi : Fin 3 → K} {side : Boundary.Face K → Nat}

/-- A column of the tensor from any solution of the flow problem. -/
theorem periodic_column (h : Sound I) (ht : Tiling I.G) (hb : FillsBox I.G lo hi side) (hs : Suited I lo hi side)
    (hbc : I.bct = .periodic) : FaceIds I.G lo hi side ∧ Matching I.G side ∧
      ∃ T, (∀ b, upscaleEffectivePerm I b = some T) ∧ ∀ d c z, FlowSol I (pmate I.G side) (periodicCnd I.G side d) c z →
        ∀ i, T i d = avgVel I.G side (Energy.fluxOf (ipOf I) (Energy.drop c z)) i * (hi d - lo d) := by
  obtain ⟨hf, hm, T, hT, a, ha, hE⟩ := periodic_run h ht hb hs hbc
  refine ⟨hf, hm, T, hT, fun d c z f i => ?_⟩
  obtain ⟨ci, zi, fi, ei⟩ := ha i
  obtain ⟨cd, zd, fd, ed⟩ := ha d
  have h1 := hE i d
  unfold Energy.form at h1
  rw [ed, sol_unique h ht (periodic_kind hb hf hm d) f fd, ei, periodic_work ht hb hf hm fi _ f.balanced f.skew,
    show vol I = _ from volume_eq ht hb i] at h1
  have hA := sideArea_pos ht hb (2 * i.val) (by have := i.2; omega)
  have hL := sub_pos.mpr (hb.lt i)
  refine mul_right_cancel₀ (mul_pos hL hA).ne' ?_
  linear_combination -h1

/-- The sum over both sides of a direction from the sum over all faces. -/
theorem avgVel_area (ht : Tiling I.G) (hb : FillsBox I.G lo hi side) (w : Half I.G → K) (i : Fin 3)
    (h : ∀ p, (I.G.face p).nbr = none → (side (I.G.bface p) = 2 * i.val ∨ side (I.G.bface p) = 2 * i.val + 1) → w p = 0) :
    avgVel I.G side w i = 0 := by
  unfold avgVel
  rw [sideSum_congr (2 * i.val) w (fun p => 0 * w p) fun p hp hs => by rw [h p hp (Or.inl hs), zero_mul],
    sideSum_congr (2 * i.val + 1) w (fun p => 0 * w p) fun p hp hs => by rw [h p hp (Or.inr hs), zero_mul],
    sideSum_mul, sideSum_mul]
  ring

/-- C91 (layers along the flow): let `d` be a principal direction of the conductivity of every cell, and let cells that are
neighbours in direction `d`, in the interior or over the two ends of the sample, have the same conductivity in that direction.
Then `d` is a principal direction of the upscaled tensor, and the conductivity in that direction is exactly the arithmetic
mean. -/
theorem C91_parallel (h : Sound I) (ht : Tiling I.G) (hb : FillsBox I.G lo hi side) (hs : Suited I lo hi side)
    (hbc : I.bct = .periodic) (d : Fin 3) (hp : ∀ c k, k ≠ d → cond I c k d = 0)
    (hlay : ∀ p q : Half I.G, (I.G.face p).nbr = some q.1.val → (I.G.face q).nbr = some p.1.val →
      (I.G.face p).normal d ≠ 0 → cond I p.1 d d = cond I q.1 d d)
    (hend : ∀ p q : Half I.G, (I.G.face p).nbr = none → (I.G.face q).nbr = none →
      (I.G.face p).centroid d = lo d → (I.G.face q).centroid d = hi d →
      (∀ k, k ≠ d → (I.G.face p).centroid k = (I.G.face q).centroid k) → cond I p.1 d d = cond I q.1 d d) :
    ∃ T, (∀ b, upscaleEffectivePerm I b = some T) ∧ (T d d = mean I fun c => cond I c d d) ∧ 
      ∀ k, k ≠ d → T k d = 0 ∧ T d k = 0 := by
  obtain ⟨hf, hm, T, hT, hcol⟩ := periodic_column h ht hb hs hbc
  have hsym : Mimetic.Symm T := by
    obtain ⟨T', hT', hs', -⟩ := C91_bounds h ht hb hs hbc
    have b0 : Boundary.BCs K := ⟨⟨[], []⟩, [], []⟩
    have : T = T' := Option.some.inj ((hT b0).symm.trans (hT' b0))
    rw [this]; exact hs'
  have hL : hi d - lo d ≠ 0 := (sub_pos.mpr (hb.lt d)).ne'
  have hfl : ∀ p, Energy.fluxOf (ipOf I) (Energy.drop (linCell I.G 0 (grad lo hi d))
      (linFace I.G 0 (grad lo hi d))) p =
      cond I p.1 d d / (hi d - lo d) * ((I.G.face p).area * (I.G.face p).normal d) := by
    intro p
    rw [lin_drop, flux_gfield h ht]
    unfold uflow
    simp only [grad_mul]
    rw [Finset.sum_eq_single d (fun k _ hk => by rw [hp _ k hk]; ring) (by simp)]
    ring
  have hzero : ∀ k, k ≠ d → ∀ p, (I.G.face p).nbr = none →
      (side (I.G.bface p) = 2 * k.val ∨ side (I.G.bface p) = 2 * k.val + 1) → (I.G.face p).normal d = 0 := by
    intro k hk p hp hs
    rcases hs with hs | hs
    · rw [(low_face hb p hp k hs).2]; simp [Ne.symm hk]
    · rw [(high_face hb p hp k hs).2]; simp [Ne.symm hk]
  have hl : FlowSol I (pmate I.G side) (periodicCnd I.G side d) (linCell I.G 0 (grad lo hi d))
      (linFace I.G 0 (grad lo hi d)) := by
    refine ⟨?_, ?_, ?_, ?_, ?_, ?_⟩
    · intro c
      simp only [hfl]
      rw [← Finset.mul_sum]
      have := ht.surface c d
      rw [show ∑ r : Fin (I.G.cell c).nf, (I.G.face ⟨c, r⟩).area * (I.G.face ⟨c, r⟩).normal d = 0 from this, mul_zero]
    · intro p _
      rw [hfl, hfl]
      by_cases hpn : (I.G.face p).nbr = none
      · have him := pmate_image hm p hpn
        obtain ⟨k, hk⟩ := some_side hb p hpn
        by_cases hkd : k = d
        · subst hkd
          have hc : ∀ l : Fin 3, l ≠ k → (I.G.face p).centroid l = (I.G.face (pmate I.G side p)).centroid l := fun l hl =>
            him.2.2.2.2 l fun e => hl (Fin.ext (by rcases hk with h | h <;> omega))
          rw [him.2.2.2.1]
          rcases hk with hk | hk
          · have lf := low_face hb p hpn k hk
            have hg := high_face hb _ him.1 k ((image_side him k.val).2.mpr hk)
            rw [hend p _ hpn him.1 lf.1 hg.1 hc, lf.2, hg.2]; simp
          · have hg := high_face hb p hpn k hk
            have lf := low_face hb _ him.1 k ((image_side him k.val).1.mpr hk)
            rw [← hend _ p him.1 hpn lf.1 hg.1 fun l hl => (hc l hl).symm, lf.2, hg.2]; simp
        · rw [hzero k hkd p hpn hk, hzero k hkd _ him.1 (hk.symm.imp (image_side him k.val).1.mpr (image_side him k.val).2.mpr)]
          ring
      · unfold pmate
        rw [if_neg hpn]
        obtain ⟨htw, _, ha, _, hn⟩ := twin_spec ht p hpn
        rw [ha, hn]
        by_cases h0 : (I.G.face p).normal d = 0
        · rw [h0]; ring
        · rw [hlay p (twin I.G p) htw.1 htw.2 h0]; ring
    · intro p hpn
      rw [lin_twin ht _ _ p hpn]; unfold pmate; rw [if_neg hpn]
    · intro p _ hd; cases hd
    · intro p _ hd; cases hd
    · intro p hpn _
      obtain ⟨k, hk⟩ := some_side hb p hpn
      have hj := lin_jump hb hm 0 (grad lo hi d) p hpn k
      have hg : grad lo hi d k = if k = d then -1 / (hi d - lo d) else 0 := rfl
      rw [hg] at hj
      simp only [periodicCnd]
      by_cases hkd : k = d
      · subst hkd
        rw [if_pos rfl] at hj
        rcases hk with hk | hk
        · rw [hj.1 hk, if_pos hk]; field_simp
        · rw [hj.2 hk, if_neg (by omega), if_pos hk]; field_simp
      · have : k.val ≠ d.val := fun e => hkd (Fin.ext e)
        rw [if_neg hkd, zero_mul, neg_zero] at hj
        rw [if_neg (by omega), if_neg (by omega)]
        exact hk.elim hj.1 hj.2
  refine ⟨T, hT, ?_, fun k hk => ?_⟩
  · have hV := vol_pos ht hb
    refine mul_right_cancel₀ hV.ne' ?_
    rw [mean_mul ht hb, hcol d _ _ hl d, show vol I = _ from volume_eq ht hb d]
    have hw := periodic_work ht hb hf hm hl _ hl.balanced hl.skew
    have hform := form_gfield h ht (fun _ => grad lo hi d) (fun _ => grad lo hi d)
    rw [← lin_drop (I := I) 0] at hform
    unfold Energy.form at hform
    rw [hw] at hform
    have : ∀ c, ∑ k, grad lo hi d k * ∑ l, cond I c k l * grad lo hi d l = cond I c d d / ((hi d - lo d) * (hi d - lo d)) := by
      intro c
      rw [Finset.sum_eq_single d (fun k _ hk => by unfold grad; rw [if_neg hk, zero_mul]) (by simp), grad_mul]
      unfold grad
      rw [if_pos rfl]
      field_simp
    simp only [this] at hform
    calc _ = (avgVel I.G side (Energy.fluxOf (ipOf I) (Energy.drop (linCell I.G 0 (grad lo hi d))
          (linFace I.G 0 (grad lo hi d)))) d * sideArea I.G side (2 * d.val)) * ((hi d - lo d) * (hi d - lo d)) := by ring
      _ = _ := by
        rw [hform, Finset.sum_mul]
        refine Finset.sum_congr rfl fun c _ => ?_
        field_simp
  · have h1 : T k d = 0 := by
      rw [hcol d _ _ hl k, avgVel_area ht hb _ k fun p hpn hs => by
        rw [hfl, hzero k hk p hpn hs, mul_zero, mul_zero], zero_mul]
    exact ⟨h1, (hsym d k).trans h1⟩

/-- C91 (layers across the flow): let `d` be a principal direction of every cell and `r` the resistivities in that direction. If
they integrate to a function `π` of the coordinate (on the faces of every cell `π` has slope `r` of the cell), `d` is a principal
direction of the upscaled tensor, and the conductivity in that direction is exactly the harmonic mean. -/
theorem C91_series (h : Sound I) (ht : Tiling I.G) (hb : FillsBox I.G lo hi side) (hs : Suited I lo hi side)
    (hbc : I.bct = .periodic) (d : Fin 3) (hp : ∀ c k, k ≠ d → cond I c k d = 0)
    (r : Fin I.G.nc → K) (hr : ∀ c, cond I c d d * r c = 1) (π : K → K) (q : Fin I.G.nc → K)
    (hπ : ∀ p : Half I.G, π ((I.G.face p).centroid d) =
      q p.1 + r p.1 * ((I.G.face p).centroid d - (I.G.cell p.1).centroid d)) :
    ∃ T, (∀ b, upscaleEffectivePerm I b = some T) ∧ T d d * mean I r = 1 ∧ ∀ k, k ≠ d → T k d = 0 ∧ T d k = 0 := by
  obtain ⟨hf, hm, T, hT, hcol⟩ := periodic_column h ht hb hs hbc
  have hsym : Mimetic.Symm T := by
    obtain ⟨T', hT', hs', -⟩ := C91_bounds h ht hb hs hbc
    have b0 : Boundary.BCs K := ⟨⟨[], []⟩, [], []⟩
    have : T = T' := Option.some.inj ((hT b0).symm.trans (hT' b0))
    rw [this]; exact hs'
  obtain ⟨D, hDV, hD⟩ := series_drop h ht hb d r hr π q hπ
  have hD0 := hD.2
  have hdrop : Energy.drop (nf := fun c => (I.G.cell c).nf) (fun c => -q c / D)
      (fun p : Half I.G => -π ((I.G.face p).centroid d) / D) =
      gfield I fun c k => if k = d then -(r c) / D else 0 := by
    funext p
    unfold Energy.drop gfield
    beta_reduce
    rw [Finset.sum_eq_single d (fun k _ hk => by rw [if_neg hk, zero_mul]) (by simp), if_pos rfl, hπ p]
    field_simp
    ring
  have hfl : Energy.fluxOf (ipOf I) (gfield I fun c k => if k = d then -(r c) / D else 0) =
      uflow I.G fun k => if k = d then -1 / D else 0 := by
    funext p
    rw [flux_gfield h ht]
    congr 1
    funext k
    rw [Finset.sum_eq_single d (fun k _ hk => by rw [if_neg hk, mul_zero]) (by simp), if_pos rfl]
    by_cases hk : k = d
    · subst hk
      rw [if_pos rfl]
      have := hr p.1
      field_simp
      linear_combination -this
    · rw [if_neg hk, hp _ k hk, zero_mul]
  have hl : FlowSol I (pmate I.G side) (periodicCnd I.G side d) (fun c => -q c / D)
      (fun p : Half I.G => -π ((I.G.face p).centroid d) / D) := by
    refine ⟨?_, ?_, ?_, ?_, ?_, ?_⟩
    · rw [hdrop, hfl]; exact uflow_balanced ht _
    · rw [hdrop, hfl]; exact uflow_pskew ht hb hm _
    · intro p hp
      beta_reduce
      unfold pmate
      rw [if_neg hp, (twin_spec ht p hp).2.2.2.1]
    · intro p _ hd; cases hd
    · intro p _ hd; cases hd
    · intro p hpn _
      have him := pmate_image hm p hpn
      simp only [periodicCnd]
      obtain ⟨k, hk⟩ := some_side hb p hpn
      by_cases hkd : k = d
      · subst hkd
        rcases hk with hk | hk
        · rw [if_pos hk, (low_face hb p hpn k hk).1, (high_face hb _ him.1 k ((image_side him k.val).2.mpr hk)).1]
          field_simp
          rw [hD.1]; ring
        · rw [if_neg (by omega), if_pos hk, (high_face hb p hpn k hk).1,
            (low_face hb _ him.1 k ((image_side him k.val).1.mpr hk)).1]
          field_simp
          rw [hD.1]; ring
      · have : k.val ≠ d.val := fun e => hkd (Fin.ext e)
        rw [if_neg (by omega), if_neg (by omega), him.2.2.2.2 d (by omega), sub_self]
  have hcol' := hcol d _ _ hl
  rw [hdrop, hfl] at hcol'
  simp only [avgVel_uflow ht hb] at hcol'
  refine ⟨T, hT, ?_, fun k hk => ?_⟩
  · have hA := sideArea_pos ht hb (2 * d.val) (by have := d.2; omega)
    have hL : hi d - lo d ≠ 0 := (sub_pos.mpr (hb.lt d)).ne'
    unfold mean
    rw [hcol' d, if_pos rfl, ← hDV, show vol I = _ from volume_eq ht hb d]
    field_simp
  · have h1 : T k d = 0 := by rw [hcol' k, if_neg hk]; ring
    exact ⟨h1, (hsym d k).trans h1⟩

end

/-- Two layers along the third direction. -/
example : ∃ T, (∀ b, upscaleEffectivePerm (exInput .periodic 0 exPerm) b = some T) ∧ T 2 2 = 15 / 4 ∧ T 0 2 = 0 := by
  obtain ⟨T, h1, h2, h3⟩ := C91_parallel (ex_sound .periodic) (ex_tiling true) (ex_box true) (ex_suited _ _ _) rfl 2
    (by
      have : ∀ (c : Fin 2) (k : Fin 3), k ≠ 2 → [1 / 2, 1].sum * exPerm c k 2 = 0 := by decide +kernel
      exact this)
    (by
      have : ∀ p q : Half (exGrid true), ((exGrid true).face p).nbr = some q.1.val →
          ((exGrid true).face q).nbr = some p.1.val → ((exGrid true).face p).normal 2 ≠ 0 →
          [1 / 2, 1].sum * exPerm p.1 2 2 = [1 / 2, 1].sum * exPerm q.1 2 2 := by decide +kernel
      exact this)
    (by
      have : ∀ p q : Half (exGrid true), ((exGrid true).face p).nbr = none →
          ((exGrid true).face q).nbr = none → ((exGrid true).face p).centroid 2 = exLo 2 → 
          ((exGrid true).face q).centroid 2 = exHi 2 →
          (∀ k, k ≠ 2 → ((exGrid true).face p).centroid k = ((exGrid true).face q).centroid k) →
          [1 / 2, 1].sum * exPerm p.1 2 2 = [1 / 2, 1].sum * exPerm q.1 2 2 := by decide +kernel
      exact this)
  refine ⟨T, h1, h2.trans ?_, (h3 0 (by decide)).1⟩
  change (∑ c : Fin 2, (343 : ℚ) * ([1 / 2, 1].sum * exPerm c 2 2)) / (∑ _c : Fin 2, (343 : ℚ)) = 15 / 4
  decide +kernel

/-- Unit and threefold unit tensor, one after the other in the first direction. -/
example : ∃ T, (∀ b, upscaleEffectivePerm (exInput .periodic 0 exSeries) b = some T) ∧ T 0 0 = 9 / 4 ∧ T 1 0 = 0 := by
  have h : Sound (exInput .periodic 0 exSeries) :=
    ⟨ex_regular .periodic 0 _ (by decide +kernel) exSeries_posdef, rfl⟩
  obtain ⟨T, h1, h2, h3⟩ := C91_series h (ex_tiling true) (ex_box true) (ex_suited _ _ _) rfl 0
    (by
      have : ∀ (c : Fin 2) (k : Fin 3), k ≠ 0 → [1 / 2, 1].sum * exSeries c k 0 = 0 := by decide +kernel
      exact this) (fun c : Fin 2 => if c = 0 then 2 / 3 else 2 / 9)
    (by
      have : ∀ c : Fin 2, [1 / 2, 1].sum * exSeries c 0 0 * (if c = 0 then 2 / 3 else 2 / 9) = 1 := by decide +kernel
      exact this) (fun x => if x ≤ 7 then 2 / 3 * x else 14 / 3 + 2 / 9 * (x - 7))
    (fun c : Fin 2 => if c = 0 then 2 else 16 / 3)
    (by
      have : ∀ p : Half (exGrid true), (fun x : ℚ => if x ≤ 7 then 2 / 3 * x else 14 / 3 + 2 / 9 * (x - 7))
          (((exGrid true).face p).centroid 0) = (fun c : Fin 2 => if c = 0 then (2 : ℚ) else 16 / 3) p.1 +
            (fun c : Fin 2 => if c = 0 then (2 / 3 : ℚ) else 2 / 9) p.1 *
              (((exGrid true).face p).centroid 0 - ((exGrid true).cell p.1).centroid 0) := by decide +kernel
      exact this)
  refine ⟨T, h1, ?_, (h3 1 (by decide)).1⟩
  have e : mean (exInput .periodic 0 exSeries) (fun c : Fin 2 => if c = 0 then 2 / 3 else 2 / 9) = 4 / 9 := by
    change (∑ c : Fin 2, (343 : ℚ) * (if c = 0 then 2 / 3 else 2 / 9)) / (∑ _c : Fin 2, (343 : ℚ)) = 4 / 9
    decide +kernel
  rw [e] at h2
  linarith

end Verif.SinglePhase
