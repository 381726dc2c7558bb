import Verif.Lemmas.SinglePhaseTensor
import Verif.Lemmas.SinglePhaseExample

/-!
C89-C92: the tensor that `upscaleEffectivePerm` / `upscaleSinglePhase` returns, from the grid to the averaged flux
(`Verif.Model.SinglePhase`).
-/

namespace Verif.SinglePhase

variable {K : Type} [Field K] [LinearOrder K] [IsStrictOrderedRing K]

section
variable {I : Input K} {lo hi : Fin 3 → K} {side : Boundary.Face K → Nat}

/-! ### C89: homogeneous medium -/

theorem lin_flux (h : Sound I) (ht : Tiling I.G) (κ : Fin 3 → Fin 3 → K) (hκ : ∀ c i j, cond I c i j = κ i j)
    (p0 : K) (g : Fin 3 → K) : Energy.fluxOf (ipOf I) (Energy.drop (linCell I.G p0 g) (linFace I.G p0 g)) =
      uflow I.G fun k => ∑ l, κ k l * g l := by
  funext p
  rw [lin_drop, flux_gfield h ht]
  simp only [hκ]

theorem grad_mul (κ : Fin 3 → Fin 3 → K) (d k : Fin 3) : ∑ l, κ k l * grad lo hi d l = -(κ k d / (hi d - lo d)) := by
  unfold grad
  rw [Finset.sum_eq_single d (fun l _ hl => by rw [if_neg hl, mul_zero]) (by simp), if_pos rfl]
  ring

/-- The linear field solves the flow problem of a homogeneous medium. -/
theorem lin_sol (h : Sound I) (ht : Tiling I.G) (hb : FillsBox I.G lo hi side) (hs : Suited I lo hi side)
    (κ : Fin 3 → Fin 3 → K) (hκ : ∀ c i j, cond I c i j = κ i j) (d : Fin 3)
    (hdiag : I.bct = .fixed → ∀ k, k ≠ d → κ k d = 0) :
    FlowSol I (mateOf I side) (cndOf I lo hi side d) (linCell I.G (hi d / (hi d - lo d)) (grad lo hi d))
      (linFace I.G (hi d / (hi d - lo d)) (grad lo hi d)) := by
  have hfl := lin_flux h ht κ hκ (hi d / (hi d - lo d)) (grad lo hi d)
  have hL : hi d - lo d ≠ 0 := (sub_pos.mpr (hb.lt d)).ne'
  unfold Suited at hs
  unfold mateOf cndOf
  cases hbc : I.bct with
  | fixed =>
    refine ⟨?_, ?_, lin_twin ht _ _, ?_, ?_, ?_⟩
    · rw [hfl]; exact uflow_balanced ht _
    · rw [hfl]; exact uflow_skew ht _
    · intro p hp hd
      by_cases s1 : side (I.G.bface p) = 2 * d.val
      · rw [(lin_ends hb).1 p hp s1]; simp only [fixedCnd]; rw [if_pos s1]
      · by_cases s2 : side (I.G.bface p) = 2 * d.val + 1
        · rw [(lin_ends hb).2 p hp s2]; simp only [fixedCnd]; rw [if_neg s1, if_pos s2]
        · simp only [fixedCnd] at hd; rw [if_neg s1, if_neg s2] at hd; cases hd
    · intro p hp hd
      by_cases s1 : side (I.G.bface p) = 2 * d.val
      · simp only [fixedCnd] at hd; rw [if_pos s1] at hd; cases hd
      by_cases s2 : side (I.G.bface p) = 2 * d.val + 1
      · simp only [fixedCnd] at hd; rw [if_neg s1, if_pos s2] at hd; cases hd
      simp only [fixedCnd]
      rw [if_neg s1, if_neg s2, hfl]
      obtain ⟨k, hk⟩ := some_side hb p hp
      have hkd : k ≠ d := fun e => by subst e; rcases hk with e | e <;> contradiction
      have : ∑ l, κ k l * grad lo hi d l = 0 := by rw [grad_mul, hdiag hbc k hkd, zero_div, neg_zero]
      rcases hk with hk | hk
      · rw [uflow_low hb _ p hp k hk, this, zero_mul]
      · rw [uflow_high hb _ p hp k hk, this, zero_mul, neg_zero]
    · intro p hp hd
      simp only [fixedCnd] at hd
      split at hd
      · cases hd
      · split at hd <;> cases hd
  | linear =>
    refine ⟨?_, ?_, lin_twin ht _ _, ?_, ?_, ?_⟩
    · rw [hfl]; exact uflow_balanced ht _
    · rw [hfl]; exact uflow_skew ht _
    · intro p hp _
      rw [lin_value _ lo hi (hb.lt d)]; rfl
    · intro p hp hd; cases hd
    · intro p hp hd; cases hd
  | periodic =>
    rw [hbc] at hs
    refine ⟨?_, ?_, ?_, ?_, ?_, ?_⟩
    · rw [hfl]; exact uflow_balanced ht _
    · rw [hfl]; exact uflow_pskew ht hb hs.2.1 _
    · intro p hp
      simp only
      rw [lin_twin ht _ _ p hp]
      unfold pmate
      rw [if_neg hp]
    · intro p hp hd; cases hd
    · intro p hp hd; cases hd
    · intro p hp _
      obtain ⟨k, hk⟩ := some_side hb p hp
      have hj := lin_jump hb hs.2.1 (hi d / (hi d - lo d)) (grad lo hi d) p hp k
      have hg : grad lo hi d k * (hi k - lo k) = if k = d then -1 else 0 := by
        unfold grad
        by_cases e : k = d
        · subst e; rw [if_pos rfl, if_pos rfl]; field_simp
        · rw [if_neg e, if_neg e, zero_mul]
      simp only [periodicCnd]
      rcases hk with hk | hk
      · rw [hj.1 hk, hg]
        by_cases e : k = d
        · subst e; rw [if_pos rfl, if_pos hk, neg_neg]
        · have : k.val ≠ d.val := fun h => e (Fin.ext h)
          rw [if_neg e, if_neg (by omega), if_neg (by omega), neg_zero]
      · rw [hj.2 hk, hg]
        by_cases e : k = d
        · subst e; rw [if_pos rfl, if_neg (by omega), if_pos hk]
        · have : k.val ≠ d.val := fun h => e (Fin.ext h)
          rw [if_neg e, if_neg (by omega), if_neg (by omega)]

/-- C89: a homogeneous medium (permeability times total mobility is the tensor `κ` in every cell) is upscaled to `κ` itself, on
every grid of closed cells that fills a box, with linear and with periodic boundary conditions, and whatever conditions an
earlier call left. -/
theorem C89_homogeneous (h : Sound I) (ht : Tiling I.G) (hb : FillsBox I.G lo hi side) (hs : Suited I lo hi side)
    (hbc : I.bct ≠ .fixed) (κ : Fin 3 → Fin 3 → K) (hκ : ∀ c i j, cond I c i j = κ i j) (b : Boundary.BCs K) :
    upscaleEffectivePerm I b = some κ := by
  obtain ⟨T, hT, hsol⟩ := suited_run h ht hb hs
  rw [hT b]
  congr 1
  funext i d
  obtain ⟨c, z, f, e⟩ := hsol d
  have hl := lin_sol h ht hb hs κ hκ d fun e => absurd e hbc
  have hL : hi d - lo d ≠ 0 := (sub_pos.mpr (hb.lt d)).ne'
  rw [e, sol_unique h ht (suited_kind hb hs d) hl f, lin_flux h ht κ hκ, if_neg fun e => hbc e.1, avgVel_uflow ht hb,
    grad_mul, neg_neg, div_mul_cancel₀ _ hL]

/-- C89: with fixed boundary conditions (no flow through the sides) a homogeneous medium with diagonal tensor is upscaled to
itself. -/
theorem C89_homogeneous_fixed (h : Sound I) (ht : Tiling I.G) (hb : FillsBox I.G lo hi side) (hs : Suited I lo hi side)
    (κ : Fin 3 → Fin 3 → K) (hdiag : ∀ i j, i ≠ j → κ i j = 0) (hκ : ∀ c i j, cond I c i j = κ i j) (b : Boundary.BCs K) :
    upscaleEffectivePerm I b = some κ := by
  obtain ⟨T, hT, hsol⟩ := suited_run h ht hb hs
  rw [hT b]
  congr 1
  funext i d
  obtain ⟨c, z, f, e⟩ := hsol d
  have hl := lin_sol h ht hb hs κ hκ d fun _ k hk => hdiag k d hk
  have hL : hi d - lo d ≠ 0 := (sub_pos.mpr (hb.lt d)).ne'
  rw [e, sol_unique h ht (suited_kind hb hs d) hl f, lin_flux h ht κ hκ]
  by_cases hc : I.bct = .fixed ∧ i ≠ d
  · rw [if_pos hc, zero_mul, hdiag i d hc.2]
  · rw [if_neg hc, avgVel_uflow ht hb, grad_mul, neg_neg, div_mul_cancel₀ _ hL]

/-! ### C90: bounds with fixed boundary conditions -/

theorem mean_mul (ht : Tiling I.G) (hb : FillsBox I.G lo hi side) (f : Fin I.G.nc → K) :
    mean I f * vol I = ∑ c, (I.G.cell c).volume * f c := by
  unfold mean
  rw [div_mul_cancel₀ _ (vol_pos ht hb).ne']

theorem fixed_run (h : Sound I) (ht : Tiling I.G) (hb : FillsBox I.G lo hi side) (hs : Suited I lo hi side)
    (hbc : I.bct = .fixed) : ∃ T, (∀ b, upscaleEffectivePerm I b = some T) ∧ (∀ i j, i ≠ j → T i j = 0) ∧
      ∀ d, ∃ c z, FlowSol I (twin I.G) (fixedCnd I.G side d) c z ∧
        T d d * vol I = Energy.form (ipOf I) (Energy.drop c z) (Energy.drop c z) * (hi d - lo d) ^ 2 := by
  obtain ⟨T, hT, hsol⟩ := suited_run h ht hb hs
  refine ⟨T, hT, fun i d hid => ?_, fun d => ?_⟩
  · obtain ⟨c, z, f, e⟩ := hsol d
    rw [e, if_pos ⟨hbc, hid⟩, zero_mul]
  · obtain ⟨c, z, f, e⟩ := hsol d
    have f' : FlowSol I (twin I.G) (fixedCnd I.G side d) c z := by
      unfold mateOf cndOf at f; rw [hbc] at f; exact f
    refine ⟨c, z, f', ?_⟩
    rw [e, if_neg (by simp), fixed_energy ht hb f']

/-- C90: with fixed boundary conditions the computation succeeds and gives a diagonal tensor. Every diagonal entry is positive,
at most the volume weighted arithmetic mean of the conductivities in that direction, and at least the harmonic one (the inverse
of the mean of the diagonal entries of the inverse conductivities). -/
theorem C90_bounds (h : Sound I) (ht : Tiling I.G) (hb : FillsBox I.G lo hi side) (hs : Suited I lo hi side)
    (hbc : I.bct = .fixed) : ∃ T, (∀ b, upscaleEffectivePerm I b = some T) ∧ (∀ i j, i ≠ j → T i j = 0) ∧
      ∀ d, 0 < T d d ∧ T d d ≤ mean I (fun c => cond I c d d) ∧
        ∀ R, Inverse I R → 1 ≤ T d d * mean I fun c => R c d d := by
  obtain ⟨T, hT, hoff, hE⟩ := fixed_run h ht hb hs hbc
  have hV := vol_pos ht hb
  refine ⟨T, hT, hoff, fun d => ?_⟩
  obtain ⟨c, z, f, e⟩ := hE d
  have hL : 0 < hi d - lo d := sub_pos.mpr (hb.lt d)
  have hd := d.2
  refine ⟨?_, ?_, fun R hR => ?_⟩
  · have := mul_pos (fixed_pos h ht hb f) (pow_pos hL 2)
    rw [← e] at this
    exact pos_of_mul_pos_left this hV.le
  · refine le_of_mul_le_mul_right ?_ hV
    rw [mean_mul ht hb, e]
    have hmin := fixed_min h ht hb f (linCell I.G (hi d / (hi d - lo d)) (grad lo hi d))
      (linFace I.G (hi d / (hi d - lo d)) (grad lo hi d)) (lin_twin ht _ _) (lin_ends hb).1 (lin_ends hb).2
    rw [lin_drop, form_gfield h ht] at hmin
    refine (mul_le_mul_of_nonneg_right hmin (pow_pos hL 2).le).trans (le_of_eq ?_)
    rw [Finset.sum_mul]
    refine Finset.sum_congr rfl fun c _ => ?_
    rw [Finset.sum_eq_single d (fun k _ hk => by unfold grad; rw [if_neg hk, zero_mul]) (by simp), grad_mul]
    unfold grad
    rw [if_pos rfl]
    field_simp
  · have hg : ∀ c k, ∑ l, cond I c k l * R c l d = if k = d then 1 else 0 := fun c k => hR c k d
    have hc := Energy.cauchy (ipOf I) (ip_symm h) (fun c => Energy.posSemi_of_posDef (ip_posdef h ht c))
      (Energy.drop c z) (gfield I fun c l => R c l d)
    rw [form_uflow h ht _ (fun c l => R c l d) (fun k => if k = d then 1 else 0) hg,
      fixed_uflow ht hb f (fun k => if k = d then 1 else 0) (fun k hk => if_neg hk), form_gfield h ht] at hc
    simp only [hg, if_true, one_mul] at hc
    have e2 : ∀ c, ∑ k, R c k d * (if k = d then (1 : K) else 0) = R c d d := fun c => by
      rw [Finset.sum_eq_single d (fun k _ hk => by rw [if_neg hk, mul_zero]) (by simp), if_pos rfl, mul_one]
    simp only [e2] at hc
    rw [← mean_mul ht hb fun c => R c d d] at hc
    have hvol : vol I = _ := volume_eq ht hb d
    refine le_of_mul_le_mul_right (le_of_mul_le_mul_right ?_ hV) hV
    have h3 := mul_le_mul_of_nonneg_right hc (pow_pos hL 2).le
    have e3 : (-(sideArea I.G side (2 * d.val))) ^ 2 * (hi d - lo d) ^ 2 = 1 * vol I * vol I := by rw [hvol]; ring
    rw [e3] at h3
    refine h3.trans (le_of_eq ?_)
    linear_combination (-(mean I fun c => R c d d) * vol I) * e

/-- C90 (layers along the flow): if `d` is a principal direction of the conductivity of every cell, and cells that are neighbours
in direction `d` have the same conductivity in that direction, the upscaled one is exactly the arithmetic mean. -/
theorem C90_parallel (h : Sound I) (ht : Tiling I.G) (hb : FillsBox I.G lo hi side) (hs : Suited I lo hi side)
    (hbc : I.bct = .fixed) (d : Fin 3) (hp : ∀ c k, k ≠ d → cond I c k d = 0)
    (hlay : ∀ p q : Half I.G, (I.G.face p).nbr = some q.1.val → (I.G.face q).nbr = some p.1.val →
      (I.G.face p).normal d ≠ 0 → cond I p.1 d d = cond I q.1 d d) :
    ∃ T, (∀ b, upscaleEffectivePerm I b = some T) ∧ T d d = mean I fun c => cond I c d d := by
  obtain ⟨T, hT, hoff, hE⟩ := fixed_run h ht hb hs hbc
  have hV := vol_pos ht hb
  refine ⟨T, hT, ?_⟩
  obtain ⟨c, z, f, e⟩ := hE d
  have hL : hi d - lo d ≠ 0 := (sub_pos.mpr (hb.lt d)).ne'
  have hfl : ∀ p, Energy.fluxOf (ipOf I) (Energy.drop (linCell I.G (hi d / (hi d - lo d)) (grad lo hi d))
      (linFace I.G (hi d / (hi d - lo d)) (grad lo hi d))) p =
      cond I p.1 d d / (hi d - lo d) * ((I.G.face p).area * (I.G.face p).normal d) := by
    intro p
    rw [lin_drop, flux_gfield h ht]
    unfold uflow
    simp only [grad_mul]
    rw [Finset.sum_eq_single d (fun k _ hk => by rw [hp _ k hk]; ring) (by simp)]
    ring
  have hl : FlowSol I (twin I.G) (fixedCnd I.G side d) (linCell I.G (hi d / (hi d - lo d)) (grad lo hi d))
      (linFace I.G (hi d / (hi d - lo d)) (grad lo hi d)) := by
    refine ⟨?_, ?_, lin_twin ht _ _, ?_, ?_, ?_⟩
    · intro c
      simp only [hfl]
      rw [← Finset.mul_sum]
      have := ht.surface c d
      rw [show ∑ r : Fin (I.G.cell c).nf, (I.G.face ⟨c, r⟩).area * (I.G.face ⟨c, r⟩).normal d = 0 from this, mul_zero]
    · intro p hne
      have hpn := (twin_ne_iff ht p).mp hne
      obtain ⟨htw, _, ha, _, hn⟩ := twin_spec ht p hpn
      rw [hfl, hfl, ha, hn]
      by_cases h0 : (I.G.face p).normal d = 0
      · rw [h0]; ring
      · rw [hlay p (twin I.G p) htw.1 htw.2 h0]; ring
    · intro p hp hd
      by_cases s1 : side (I.G.bface p) = 2 * d.val
      · rw [(lin_ends hb).1 p hp s1]; simp only [fixedCnd]; rw [if_pos s1]
      · by_cases s2 : side (I.G.bface p) = 2 * d.val + 1
        · rw [(lin_ends hb).2 p hp s2]; simp only [fixedCnd]; rw [if_neg s1, if_pos s2]
        · simp only [fixedCnd] at hd; rw [if_neg s1, if_neg s2] at hd; cases hd
    · intro p hp hd
      by_cases s1 : side (I.G.bface p) = 2 * d.val
      · simp only [fixedCnd] at hd; rw [if_pos s1] at hd; cases hd
      by_cases s2 : side (I.G.bface p) = 2 * d.val + 1
      · simp only [fixedCnd] at hd; rw [if_neg s1, if_pos s2] at hd; cases hd
      simp only [fixedCnd]
      rw [if_neg s1, if_neg s2, hfl]
      obtain ⟨k, hk⟩ := some_side hb p hp
      have hkd : k ≠ d := fun e => by subst e; rcases hk with e | e <;> contradiction
      have : (I.G.face p).normal d = 0 := by
        rcases hk with hk | hk
        · rw [(low_face hb p hp k hk).2]; simp [Ne.symm hkd]
        · rw [(high_face hb p hp k hk).2]; simp [Ne.symm hkd]
      rw [this, mul_zero, mul_zero]
    · intro p hp hd
      simp only [fixedCnd] at hd
      split at hd
      · cases hd
      · split at hd <;> cases hd
  have hE' := fixed_energy ht hb hl
  have hEf := fixed_energy ht hb f
  rw [sol_unique h ht (fixed_kind I.G side d) f hl, hEf, lin_drop, form_gfield h ht] at hE'
  refine mul_right_cancel₀ hV.ne' ?_
  rw [e, hE', mean_mul ht hb, Finset.sum_mul]
  refine Finset.sum_congr rfl fun c _ => ?_
  rw [Finset.sum_eq_single d (fun k _ hk => by unfold grad; rw [if_neg hk, zero_mul]) (by simp), grad_mul]
  unfold grad
  rw [if_pos rfl]
  field_simp

/-- Total resistance of layers across the flow. -/
theorem series_drop (h : Sound I) (ht : Tiling I.G) (hb : FillsBox I.G lo hi side) (d : Fin 3)
    (r : Fin I.G.nc → K) (hr : ∀ c, cond I c d d * r c = 1) (π : K → K) (q : Fin I.G.nc → K)
    (hπ : ∀ p : Half I.G, π ((I.G.face p).centroid d) =
      q p.1 + r p.1 * ((I.G.face p).centroid d - (I.G.cell p.1).centroid d)) :
    ∃ D, D * sideArea I.G side (2 * d.val) = ∑ c, (I.G.cell c).volume * r c ∧ D = π (hi d) - π (lo d) ∧ D ≠ 0 := by
  set D := π (hi d) - π (lo d) with hD
  have hDV : D * sideArea I.G side (2 * d.val) = ∑ c, (I.G.cell c).volume * r c := by
    have h1 := interior_cancel ht d (fun p => π ((I.G.face p).centroid d)) fun p hp => by
      rw [(twin_spec ht p hp).2.2.2.1]
    rw [boundary_sides hb d] at h1
    rw [sideSum_congr (2 * d.val + 1) _ (fun p => π (hi d) * (I.G.face p).area)
        (fun p hp hs => by rw [(high_face hb p hp d hs).1]),
      sideSum_congr (2 * d.val) _ (fun p => π (lo d) * (I.G.face p).area)
        (fun p hp hs => by rw [(low_face hb p hp d hs).1]), sideSum_mul, sideSum_mul] at h1
    have h2 := sides_equal ht hb d
    have h3 : ∑ p : Half I.G, π ((I.G.face p).centroid d) * ((I.G.face p).area * (I.G.face p).normal d) =
        ∑ c, (I.G.cell c).volume * r c := by
      rw [Fintype.sum_sigma]
      refine Finset.sum_congr rfl fun c _ => ?_
      have e1 : ∀ i : Fin (I.G.cell c).nf, π ((I.G.face ⟨c, i⟩).centroid d) *
          ((I.G.face ⟨c, i⟩).area * (I.G.face ⟨c, i⟩).normal d) =
          q c * (((I.G.cell c).face i).area * ((I.G.cell c).face i).normal d) +
          r c * (((I.G.cell c).face i).area * ((I.G.cell c).face i).normal d *
            (((I.G.cell c).face i).centroid d - (I.G.cell c).centroid d)) := fun i => by
        rw [hπ ⟨c, i⟩]
        change (q c + r c * (((I.G.cell c).face i).centroid d - (I.G.cell c).centroid d)) * (((I.G.cell c).face i).area *
          ((I.G.cell c).face i).normal d) = _
        ring
      refine (Finset.sum_congr rfl fun i _ => e1 i).trans ?_
      rw [Finset.sum_add_distrib, ← Finset.mul_sum, ← Finset.mul_sum, ht.surface c d, ht.closed c d d, if_pos rfl]
      ring
    rw [← h3, h1, hD]
    unfold sideArea at h2 ⊢
    rw [← h2]; ring
  have hrpos : ∀ c, 0 < r c := by
    intro c
    have h1 := h.posdef c (fun k => if k = d then 1 else 0) ⟨d, by simp⟩
    have h2 : 0 < cond I c d d := by
      unfold cond
      refine mul_pos (h.mob c) ?_
      unfold Mimetic.quadForm at h1
      rw [Finset.sum_eq_single d (fun k _ hk => by simp [hk]) (by simp)] at h1
      rw [Finset.sum_eq_single d (fun k _ hk => by simp [hk]) (by simp)] at h1
      simpa using h1
    have h3 := hr c
    by_contra hneg
    have := mul_nonpos_of_nonneg_of_nonpos h2.le (not_lt.mp hneg)
    linarith
  have hsum : 0 < ∑ c, (I.G.cell c).volume * r c := by
    obtain ⟨p, _, _⟩ := hb.ne 0 (by omega)
    exact Finset.sum_pos (fun c _ => mul_pos (ht.volume c) (hrpos c)) ⟨p.1, Finset.mem_univ _⟩
  have hD0 : D ≠ 0 := by
    intro e
    rw [e, zero_mul] at hDV
    exact hsum.ne hDV
  exact ⟨D, hDV, hD, hD0⟩

/-- C90 (layers across the flow): let `d` be a principal direction of every cell and `r` the resistivities in that direction. If
they integrate to a function `π` of the coordinate (on the faces of every cell `π` has slope `r` of the cell), the upscaled
conductivity is exactly the harmonic mean. -/
theorem C90_series (h : Sound I) (ht : Tiling I.G) (hb : FillsBox I.G lo hi side) (hs : Suited I lo hi side)
    (hbc : I.bct = .fixed) (d : Fin 3) (hp : ∀ c k, k ≠ d → cond I c k d = 0)
    (r : Fin I.G.nc → K) (hr : ∀ c, cond I c d d * r c = 1) (π : K → K) (q : Fin I.G.nc → K)
    (hπ : ∀ p : Half I.G, π ((I.G.face p).centroid d) =
      q p.1 + r p.1 * ((I.G.face p).centroid d - (I.G.cell p.1).centroid d)) :
    ∃ T, (∀ b, upscaleEffectivePerm I b = some T) ∧ T d d * mean I r = 1 := by
  obtain ⟨T, hT, hoff, hE⟩ := fixed_run h ht hb hs hbc
  have hV := vol_pos ht hb
  refine ⟨T, hT, ?_⟩
  obtain ⟨c, z, f, e⟩ := hE d
  have hL : hi d - lo d ≠ 0 := (sub_pos.mpr (hb.lt d)).ne'
  obtain ⟨D, hDV, hD, hD0⟩ := series_drop h ht hb d r hr π q hπ
  have hA := sideArea_pos ht hb (2 * d.val) (by have := d.2; omega)
  -- the solution
  have hdrop : Energy.drop (nf := fun c => (I.G.cell c).nf) (fun c => (π (hi d) - q c) / D)
      (fun p : Half I.G => (π (hi d) - π ((I.G.face p).centroid d)) / D) =
      gfield I fun c k => if k = d then -(r c) / D else 0 := by
    funext p
    unfold Energy.drop gfield
    beta_reduce
    rw [Finset.sum_eq_single d (fun k _ hk => by rw [if_neg hk, zero_mul]) (by simp), if_pos rfl, hπ p]
    field_simp
    ring
  have hfl : Energy.fluxOf (ipOf I) (gfield I fun c k => if k = d then -(r c) / D else 0) =
      uflow I.G fun k => if k = d then -1 / D else 0 := by
    funext p
    rw [flux_gfield h ht]
    congr 1
    funext k
    rw [Finset.sum_eq_single d (fun k _ hk => by rw [if_neg hk, mul_zero]) (by simp), if_pos rfl]
    by_cases hk : k = d
    · subst hk
      rw [if_pos rfl]
      have := hr p.1
      field_simp
      linear_combination -this
    · rw [if_neg hk, hp _ k hk, zero_mul]
  have hl : FlowSol I (twin I.G) (fixedCnd I.G side d) (fun c => (π (hi d) - q c) / D)
      (fun p : Half I.G => (π (hi d) - π ((I.G.face p).centroid d)) / D) := by
    refine ⟨?_, ?_, ?_, ?_, ?_, ?_⟩
    · rw [hdrop, hfl]; exact uflow_balanced ht _
    · rw [hdrop, hfl]; exact uflow_skew ht _
    · intro p hp
      beta_reduce
      rw [(twin_spec ht p hp).2.2.2.1]
    · intro p hp hd
      beta_reduce
      by_cases s1 : side (I.G.bface p) = 2 * d.val
      · simp only [fixedCnd]; rw [if_pos s1, (low_face hb p hp d s1).1, ← hD, div_self hD0]
      · by_cases s2 : side (I.G.bface p) = 2 * d.val + 1
        · simp only [fixedCnd]; rw [if_neg s1, if_pos s2, (high_face hb p hp d s2).1, sub_self, zero_div]
        · simp only [fixedCnd] at hd; rw [if_neg s1, if_neg s2] at hd; cases hd
    · intro p hp hd
      by_cases s1 : side (I.G.bface p) = 2 * d.val
      · simp only [fixedCnd] at hd; rw [if_pos s1] at hd; cases hd
      by_cases s2 : side (I.G.bface p) = 2 * d.val + 1
      · simp only [fixedCnd] at hd; rw [if_neg s1, if_pos s2] at hd; cases hd
      simp only [fixedCnd]
      rw [if_neg s1, if_neg s2, hdrop, hfl]
      obtain ⟨k, hk⟩ := some_side hb p hp
      have hkd : k ≠ d := fun e => by subst e; rcases hk with e | e <;> contradiction
      rcases hk with hk | hk
      · rw [uflow_low hb _ p hp k hk, if_neg hkd, zero_mul]
      · rw [uflow_high hb _ p hp k hk, if_neg hkd, zero_mul, neg_zero]
    · intro p hp hd
      simp only [fixedCnd] at hd
      split at hd
      · cases hd
      · split at hd <;> cases hd
  have hEf := fixed_energy ht hb f
  rw [← sol_unique h ht (fixed_kind I.G side d) f hl, hdrop, hfl, avgVel_uflow ht hb, if_pos rfl, ← e] at hEf
  have h1 : T d d = (hi d - lo d) / D := by
    refine mul_right_cancel₀ hV.ne' ?_
    rw [← hEf]; ring
  have hvol : vol I = _ := volume_eq ht hb d
  unfold mean
  rw [h1, ← hDV, hvol]
  field_simp

/-! ### C91: periodic boundary conditions -/

theorem periodic_run (h : Sound I) (ht : Tiling I.G) (hb : FillsBox I.G lo hi side) (hs : Suited I lo hi side)
    (hbc : I.bct = .periodic) : FaceIds I.G lo hi side ∧ Matching I.G side ∧
      ∃ T, (∀ b, upscaleEffectivePerm I b = some T) ∧ ∃ a : Fin 3 → Half I.G → K,
      (∀ d, ∃ c z, FlowSol I (pmate I.G side) (periodicCnd I.G side d) c z ∧ a d = Energy.drop c z) ∧
        ∀ i d, Energy.form (ipOf I) (a i) (a d) * ((hi i - lo i) * (hi d - lo d)) = T i d * vol I := by
  obtain ⟨T, hT, hsol⟩ := suited_run h ht hb hs
  unfold Suited at hs
  rw [hbc] at hs
  refine ⟨hs.1, hs.2.1, T, hT, ?_⟩
  choose c z f e using hsol
  have f' : ∀ d, FlowSol I (pmate I.G side) (periodicCnd I.G side d) (c d) (z d) := fun d => by
    have := f d
    unfold mateOf cndOf at this; rw [hbc] at this; exact this
  refine ⟨fun d => Energy.drop (c d) (z d), fun d => ⟨c d, z d, f' d, rfl⟩, fun i d => ?_⟩
  rw [e, if_neg (by rw [hbc]; simp)]
  unfold Energy.form
  rw [periodic_work ht hb hs.1 hs.2.1 (f' i) _ (f' d).balanced (f' d).skew, show vol I = _ from volume_eq ht hb i]
  ring

/-- Quadratic forms over the three directions. -/
theorem form_three (B : (i : Fin I.G.nc) → Fin (I.G.cell i).nf → Fin (I.G.cell i).nf → K) (s : Fin 3 → K)
    (a : Fin 3 → Half I.G → K) (b : Half I.G → K) :
    Energy.form B (fun p => ∑ d, s d * a d p) b = ∑ d, s d * Energy.form B (a d) b := by
  unfold Energy.form
  simp only [Finset.mul_sum, Finset.sum_mul]
  rw [Finset.sum_comm]
  exact Finset.sum_congr rfl fun d _ => Finset.sum_congr rfl fun p _ => by ring

theorem form_six (B : (i : Fin I.G.nc) → Fin (I.G.cell i).nf → Fin (I.G.cell i).nf → K) (hB : ∀ c, Mimetic.Symm (B c))
    (s t : Fin 3 → K) (a b : Fin 3 → Half I.G → K) :
    Energy.form B (fun p => ∑ d, s d * a d p) (fun p => ∑ d, t d * b d p) =
      ∑ i, ∑ d, s i * t d * Energy.form B (a i) (b d) := by
  rw [form_three]
  refine Finset.sum_congr rfl fun i _ => ?_
  rw [Energy.form_symm B hB, form_three, Finset.mul_sum]
  exact Finset.sum_congr rfl fun d _ => by rw [Energy.form_symm B hB]; ring

/-- C91: with periodic boundary conditions the computation succeeds and gives a symmetric positive definite tensor. As
quadratic forms, it is at most the arithmetic mean of the conductivities and at least the harmonic one (the inverse of the mean
of the inverses; written with Cauchy-Schwarz: `(x . y)^2 <= (x . T x) (y . mean(R) y)`). -/
theorem C91_bounds (h : Sound I) (ht : Tiling I.G) (hb : FillsBox I.G lo hi side) (hs : Suited I lo hi side)
    (hbc : I.bct = .periodic) : ∃ T, (∀ b, upscaleEffectivePerm I b = some T) ∧ Mimetic.Symm T ∧ Mimetic.PosDef T ∧
      (∀ x, Mimetic.quadForm T x ≤ mean I fun c => Mimetic.quadForm (cond I c) x) ∧
      ∀ R, Inverse I R → ∀ x y : Fin 3 → K,
        (∑ d, x d * y d) ^ 2 ≤ Mimetic.quadForm T x * mean I fun c => Mimetic.quadForm (R c) y := by
  obtain ⟨hf, hm, T, hT, a, ha, hE⟩ := periodic_run h ht hb hs hbc
  have hV := vol_pos ht hb
  have hL : ∀ d, 0 < hi d - lo d := fun d => sub_pos.mpr (hb.lt d)
  have hsym := fun a b => Energy.form_symm (ipOf I) (ip_symm h) a b
  have hpsd := fun c => Energy.posSemi_of_posDef (ip_posdef h ht c)
  -- the field for the direction x
  let ax : (Fin 3 → K) → Half I.G → K := fun x p => ∑ d, (x d * (hi d - lo d)) * a d p
  have hquad : ∀ x, Energy.form (ipOf I) (ax x) (ax x) = Mimetic.quadForm T x * vol I := by
    intro x
    rw [form_three, Mimetic.quadForm, Finset.sum_mul]
    refine Finset.sum_congr rfl fun i _ => ?_
    rw [hsym, form_three, Finset.mul_sum, Finset.sum_mul]
    refine Finset.sum_congr rfl fun d _ => ?_
    rw [hsym]
    linear_combination x i * x d * hE i d
  have hwork : ∀ d w, Energy.Balanced (nf := fun c => (I.G.cell c).nf) w →
      Energy.Skew (nf := fun c => (I.G.cell c).nf) (pmate I.G side) w →
      ∑ p, a d p * w p * (hi d - lo d) = avgVel I.G side w d * vol I := by
    intro d w h1 h2
    obtain ⟨c, z, f, e⟩ := ha d
    rw [← Finset.sum_mul, e, periodic_work ht hb hf hm f w h1 h2, show vol I = _ from volume_eq ht hb d]
    ring
  have hflow : ∀ x e, ∑ p, ax x p * uflow I.G e p = -(∑ d, x d * e d) * vol I := by
    intro x e
    have h1 : ∀ p, ax x p * uflow I.G e p = ∑ d, x d * (a d p * uflow I.G e p * (hi d - lo d)) := by
      intro p
      simp only [ax, Finset.sum_mul]
      exact Finset.sum_congr rfl fun d _ => by ring
    simp only [h1]
    rw [Finset.sum_comm, neg_mul, Finset.sum_mul, ← Finset.sum_neg_distrib]
    refine Finset.sum_congr rfl fun d _ => ?_
    rw [← Finset.mul_sum, hwork d _ (uflow_balanced ht e) (uflow_pskew ht hb hm e), avgVel_uflow ht hb]
    ring
  refine ⟨T, hT, fun i d => ?_, fun x hx => ?_, fun x => ?_, fun R hR x y => ?_⟩
  · refine mul_right_cancel₀ hV.ne' ?_
    rw [← hE, ← hE, hsym]; ring
  · have h1 : 0 ≤ Mimetic.quadForm T x * vol I := by rw [← hquad]; exact Energy.form_nonneg _ hpsd _
    refine lt_of_le_of_ne (nonneg_of_mul_nonneg_left h1 hV) fun e => ?_
    have h2 := Energy.form_zero (ipOf I) (ip_posdef h ht) (ax x) (by rw [hquad, ← e, zero_mul])
    have h3 := hflow x x
    simp only [h2, zero_mul, Finset.sum_const_zero] at h3
    have h4 : ∑ d, x d * x d = 0 := by
      rcases mul_eq_zero.mp h3.symm with h | h
      · linarith
      · exact absurd h hV.ne'
    obtain ⟨i, hi⟩ := hx
    have h5 := (Finset.sum_eq_zero_iff_of_nonneg (fun d _ => mul_self_nonneg (x d))).mp h4 i (Finset.mem_univ _)
    exact hi (mul_self_eq_zero.mp h5)
  · refine le_of_mul_le_mul_right ?_ hV
    rw [mean_mul ht hb, ← hquad]
    have hb1 : Energy.form (ipOf I) (gfield I fun _ k => -x k) (gfield I fun _ k => -x k) =
        ∑ c, (I.G.cell c).volume * Mimetic.quadForm (cond I c) x := by
      rw [form_gfield h ht]
      refine Finset.sum_congr rfl fun c _ => ?_
      congr 1
      unfold Mimetic.quadForm
      refine Finset.sum_congr rfl fun i _ => ?_
      rw [Finset.mul_sum]
      exact Finset.sum_congr rfl fun j _ => by ring
    rw [← hb1]
    refine Energy.energy_min (ipOf I) (ip_symm h) hpsd _ _ ?_
    rw [hquad, hsym, form_three]
    have h1 : ∀ d, Energy.form (ipOf I) (a d) (gfield I fun _ k => -x k) * (hi d - lo d) =
        ∑ i, x i * (T i d * vol I) := by
      intro d
      obtain ⟨c, z, f, e⟩ := ha d
      rw [hsym, ← lin_drop (I := I) 0 fun k => -x k]
      unfold Energy.form
      rw [work_periodic ht hb (pmate_invol ht hb hf hm) (pmate_ne ht hm) _ _ _ (fun k => x k * (hi k - lo k))
        (fun p hp => by
          rw [lin_twin ht _ _ p hp]; unfold pmate; rw [if_neg hp])
        (fun p hp k => by
          have := lin_jump hb hm 0 (fun k => -x k) p hp k
          exact ⟨fun hk => by rw [this.1 hk]; ring, fun hk => by rw [this.2 hk]; ring⟩)
        (e ▸ f.balanced) (e ▸ f.skew), Finset.sum_mul]
      refine Finset.sum_congr rfl fun i _ => ?_
      rw [← hE i d]
      obtain ⟨ci, zi, fi, ei⟩ := ha i
      unfold Energy.form
      rw [ei, periodic_work ht hb hf hm fi _ (e ▸ f.balanced) (e ▸ f.skew)]
      ring
    have h2 : ∀ d, x d * (hi d - lo d) * Energy.form (ipOf I) (a d) (gfield I fun _ k => -x k) =
        ∑ i, x i * T i d * x d * vol I := by
      intro d
      have := h1 d
      calc _ = x d * (Energy.form (ipOf I) (a d) (gfield I fun _ k => -x k) * (hi d - lo d)) := by ring
        _ = _ := by
          rw [this, Finset.mul_sum]
          exact Finset.sum_congr rfl fun i _ => by ring
    simp only [h2]
    rw [Finset.sum_comm, Mimetic.quadForm, Finset.sum_mul]
    exact Finset.sum_congr rfl fun i _ => by rw [Finset.sum_mul]
  · have hg : ∀ c k, ∑ l, cond I c k l * (∑ j, R c l j * y j) = y k := by
      intro c k
      simp only [Finset.mul_sum]
      rw [Finset.sum_comm]
      have : ∀ j, ∑ l, cond I c k l * (R c l j * y j) = (if k = j then 1 else 0) * y j := fun j => by
        rw [← hR c k j, Finset.sum_mul]
        exact Finset.sum_congr rfl fun l _ => by ring
      simp only [this]
      rw [Finset.sum_eq_single k (fun j _ hj => by rw [if_neg hj.symm, zero_mul]) (by simp), if_pos rfl, one_mul]
    have hc := Energy.cauchy (ipOf I) (ip_symm h) hpsd (ax x) (gfield I fun c l => ∑ j, R c l j * y j)
    rw [form_uflow h ht _ _ y hg, hflow, hquad, form_gfield h ht] at hc
    simp only [hg] at hc
    have e2 : ∀ c, ∑ k, (∑ j, R c k j * y j) * y k = Mimetic.quadForm (R c) y := by
      intro c
      unfold Mimetic.quadForm
      refine Finset.sum_congr rfl fun k _ => ?_
      rw [Finset.sum_mul]
      exact Finset.sum_congr rfl fun j _ => by ring
    simp only [e2] at hc
    rw [← mean_mul ht hb fun c => Mimetic.quadForm (R c) y] at hc
    refine le_of_mul_le_mul_right (le_of_mul_le_mul_right ?_ hV) hV
    calc (∑ d, x d * y d) ^ 2 * vol I * vol I = (-(∑ d, x d * y d) * vol I) ^ 2 := by ring
      _ ≤ _ := hc
      _ = _ := by ring

/-! ### C92: dependence on the conductivities -/

theorem avgVel_mul (G : Grid K) (side : Boundary.Face K → Nat) (w : Half G → K) (s : K) (d : Fin 3) :
    avgVel G side (fun p => s * w p) d = s * avgVel G side w d := by
  unfold avgVel
  simp only [sideSum_mul]
  ring

theorem ipOf_cond (I : Input K) (c : Fin I.G.nc) (i j : Fin (I.G.cell c).nf) :
    ipOf I c i j = Mimetic.inner (I.G.geo c) (I.Q c) (cond I c) i j := by
  unfold ipOf Mimetic.inverseMatrix Mimetic.totmob Mimetic.inner Mimetic.trace cond
  rw [← List.sum_eq_foldl]
  have e1 : ∀ k, (∑ l, Mimetic.nmat (I.G.geo c) i l * ((I.mob c).sum * I.perm c l k)) =
      (I.mob c).sum * ∑ l, Mimetic.nmat (I.G.geo c) i l * I.perm c l k := fun k => by
    rw [Finset.mul_sum]; exact Finset.sum_congr rfl fun l _ => by ring
  simp only [e1, mul_assoc]
  rw [← Finset.mul_sum, ← Finset.mul_sum]
  ring

theorem inner_mul {n : Nat} (g : Mimetic.Cell K 3 n) (Q : Fin n → Fin 3 → K) (P : Fin 3 → Fin 3 → K) (s : K) (i j : Fin n) :
    Mimetic.inner g Q (fun k l => s * P k l) i j = s * Mimetic.inner g Q P i j := by
  unfold Mimetic.inner Mimetic.trace
  have e1 : ∀ k, (∑ l, Mimetic.nmat g i l * (s * P l k)) = s * ∑ l, Mimetic.nmat g i l * P l k := fun k => by
    rw [Finset.mul_sum]; exact Finset.sum_congr rfl fun l _ => by ring
  simp only [e1, mul_assoc]
  rw [← Finset.mul_sum, ← Finset.mul_sum]
  ring

theorem inner_add {n : Nat} (g : Mimetic.Cell K 3 n) (Q : Fin n → Fin 3 → K) (P P' : Fin 3 → Fin 3 → K) (i j : Fin n) :
    Mimetic.inner g Q (fun k l => P k l + P' k l) i j = Mimetic.inner g Q P i j + Mimetic.inner g Q P' i j := by
  unfold Mimetic.inner Mimetic.trace
  simp only [mul_add, add_mul, Finset.sum_add_distrib]
  ring

/-- C92 (scaling): multiplying all conductivities by the same number multiplies the upscaled tensor by it, for every type of
boundary conditions. In particular only the product of total mobility and permeability matters. -/
theorem C92_scaling (h : Sound I) (ht : Tiling I.G) (hb : FillsBox I.G lo hi side) (hs : Suited I lo hi side)
    (perm : Fin I.G.nc → Fin 3 → Fin 3 → K) (mob rho : Fin I.G.nc → List K) (h' : Sound (withRock I perm mob rho))
    (s : K) (hc : ∀ (c : Fin I.G.nc) i j, (mob c).sum * perm c i j = s * ((I.mob c).sum * I.perm c i j)) :
    ∃ T, (∀ b, upscaleEffectivePerm I b = some T) ∧
      ∀ b, upscaleEffectivePerm (withRock I perm mob rho) b = some fun i j => s * T i j := by
  obtain ⟨T, hT, hsol⟩ := suited_run h ht hb hs
  obtain ⟨T', hT', hsol'⟩ := suited_run (I := withRock I perm mob rho) h' ht hb hs
  refine ⟨T, hT, fun b => ?_⟩
  rw [hT' b]
  congr 1
  let B' : (c : Fin I.G.nc) → Fin (I.G.cell c).nf → Fin (I.G.cell c).nf → K := ipOf (withRock I perm mob rho)
  have hB : ∀ c i j, B' c i j = s * ipOf I c i j := by
    intro c i j
    refine (ipOf_cond (withRock I perm mob rho) c i j).trans (Eq.trans ?_ (congrArg (s * ·) (ipOf_cond I c i j).symm))
    refine Eq.trans ?_ (inner_mul _ _ (cond I c) s i j)
    exact congrArg (fun P => Mimetic.inner (I.G.geo c) (I.Q c) P i j) (funext fun k => funext fun l => hc c k l)
  have hs0 : s ≠ 0 := by
    obtain ⟨p, _, _⟩ := hb.ne 0 (by omega)
    intro e
    have h1 := h'.posdef p.1 (fun k => if k = 0 then 1 else 0) ⟨0, by simp⟩
    unfold Mimetic.quadForm at h1
    rw [Finset.sum_eq_single 0 (fun k _ hk => by simp [hk]) (by simp)] at h1
    rw [Finset.sum_eq_single 0 (fun k _ hk => by simp [hk]) (by simp)] at h1
    have h2 := hc p.1 0 0
    rw [e, zero_mul] at h2
    rcases mul_eq_zero.mp h2 with h3 | h3
    · exact (h'.mob p.1).ne' h3
    · have h4 : perm p.1 0 0 > 0 := by simpa [withRock] using h1
      exact h4.ne' h3
  funext i d
  obtain ⟨c, z, f, e⟩ := hsol d
  obtain ⟨c', z', f', e'⟩ := hsol' d
  have hfl := sol_scale h ht (suited_kind hb hs d) B' s hs0 hB f f'.balanced f'.skew f'.interior
    f'.dirichlet f'.neumann f'.periodic
  rw [e, e']
  change (if I.bct = .fixed ∧ i ≠ d then 0 else avgVel I.G side
    (Energy.fluxOf B' (Energy.drop c' z')) i) * (hi d - lo d) = _
  split
  · ring
  · rw [show Energy.fluxOf B' (Energy.drop c' z') =
      fun p => s * Energy.fluxOf (ipOf I) (Energy.drop c z) p from funext hfl]
    rw [avgVel_mul]
    ring

theorem form_mono (h : Sound I) (ht : Tiling I.G)
    (perm : Fin I.G.nc → Fin 3 → Fin 3 → K) (mob rho : Fin I.G.nc → List K)
    (hc : ∀ (c : Fin I.G.nc) x, Mimetic.quadForm (cond I c) x ≤ (mob c).sum * Mimetic.quadForm (perm c) x)
    (a : Half I.G → K) : Energy.form (ipOf I) a a ≤ Energy.form (ipOf (withRock I perm mob rho)) a a := by
  let B' : (c : Fin I.G.nc) → Fin (I.G.cell c).nf → Fin (I.G.cell c).nf → K := ipOf (withRock I perm mob rho)
  change _ ≤ Energy.form B' a a
  rw [Energy.form_quad, Energy.form_quad]
  refine Finset.sum_le_sum fun c _ => ?_
  have h1 := Mimetic.C36_psd (I.G.geo c) (I.Q c) (fun k l => (mob c).sum * perm c k l + -1 * cond I c k l) [1] (h.basis c)
    (fun x => by
      have := hc c x
      have e : Mimetic.quadForm (fun k l => (mob c).sum * perm c k l + -1 * cond I c k l) x =
          (mob c).sum * Mimetic.quadForm (perm c) x - Mimetic.quadForm (cond I c) x := by
        unfold Mimetic.quadForm
        rw [Finset.mul_sum, ← Finset.sum_sub_distrib]
        refine Finset.sum_congr rfl fun i _ => ?_
        rw [Finset.mul_sum, ← Finset.sum_sub_distrib]
        exact Finset.sum_congr rfl fun j _ => by ring
      rw [e]; linarith) (ht.volume c) (by simp) (fun r => a ⟨c, r⟩)
  have e : ∀ i j, Mimetic.inverseMatrix (Mimetic.inner (I.G.geo c) (I.Q c)
      fun k l => (mob c).sum * perm c k l + -1 * cond I c k l) [1] i j =
      B' c i j - ipOf I c i j := by
    intro i j
    rw [ipOf_cond, show B' c i j = Mimetic.inner (I.G.geo c) (I.Q c) (fun k l => (mob c).sum * perm c k l) i j from
      ipOf_cond (withRock I perm mob rho) c i j]
    unfold Mimetic.inverseMatrix Mimetic.totmob
    have e1 : Mimetic.inner (I.G.geo c) (I.Q c) (fun k l => (mob c).sum * perm c k l + -1 * cond I c k l) i j = _ :=
      inner_add _ _ (fun k l => (mob c).sum * perm c k l) (fun k l => -1 * cond I c k l) i j
    rw [e1, inner_mul _ _ (cond I c)]
    simp
    ring
  have e2 : Mimetic.quadForm (Mimetic.inverseMatrix (Mimetic.inner (I.G.geo c) (I.Q c)
      fun k l => (mob c).sum * perm c k l + -1 * cond I c k l) [1]) (fun r => a ⟨c, r⟩) =
      Mimetic.quadForm (B' c) (fun r => a ⟨c, r⟩) -
        Mimetic.quadForm (ipOf I c) fun r => a ⟨c, r⟩ := by
    unfold Mimetic.quadForm
    rw [← Finset.sum_sub_distrib]
    refine Finset.sum_congr rfl fun i _ => ?_
    rw [← Finset.sum_sub_distrib]
    exact Finset.sum_congr rfl fun j _ => by rw [e]; ring
  rw [e2] at h1
  linarith

/-- C92 (monotonicity): if no conductivity gets smaller (as a quadratic form), the upscaled one does not get smaller in any
direction (fixed: its diagonal; periodic: its quadratic form). -/
theorem C92_monotone_fixed (h : Sound I) (ht : Tiling I.G) (hb : FillsBox I.G lo hi side) (hs : Suited I lo hi side)
    (hbc : I.bct = .fixed) (perm : Fin I.G.nc → Fin 3 → Fin 3 → K) (mob rho : Fin I.G.nc → List K)
    (h' : Sound (withRock I perm mob rho))
    (hc : ∀ (c : Fin I.G.nc) x, Mimetic.quadForm (cond I c) x ≤ (mob c).sum * Mimetic.quadForm (perm c) x) :
    ∃ T T', (∀ b, upscaleEffectivePerm I b = some T) ∧ (∀ b, upscaleEffectivePerm (withRock I perm mob rho) b = some T') ∧
      ∀ d, T d d ≤ T' d d := by
  obtain ⟨T, hT, _, hE⟩ := fixed_run h ht hb hs hbc
  obtain ⟨T', hT', _, hE'⟩ := fixed_run (I := withRock I perm mob rho) h' ht hb hs hbc
  refine ⟨T, T', hT, hT', fun d => ?_⟩
  obtain ⟨c, z, f, e⟩ := hE d
  obtain ⟨c', z', f', e'⟩ := hE' d
  refine le_of_mul_le_mul_right ?_ (vol_pos ht hb)
  change _ ≤ T' d d * vol (withRock I perm mob rho)
  rw [e, e']
  refine mul_le_mul_of_nonneg_right ?_ (sq_nonneg _)
  exact (fixed_min h ht hb f c' z' f'.interior (fixed_ends f').1 (fixed_ends f').2).trans
    (form_mono h ht perm mob rho hc _)

theorem C92_monotone_periodic (h : Sound I) (ht : Tiling I.G) (hb : FillsBox I.G lo hi side) (hs : Suited I lo hi side)
    (hbc : I.bct = .periodic) (perm : Fin I.G.nc → Fin 3 → Fin 3 → K) (mob rho : Fin I.G.nc → List K)
    (h' : Sound (withRock I perm mob rho))
    (hc : ∀ (c : Fin I.G.nc) x, Mimetic.quadForm (cond I c) x ≤ (mob c).sum * Mimetic.quadForm (perm c) x) :
    ∃ T T', (∀ b, upscaleEffectivePerm I b = some T) ∧ (∀ b, upscaleEffectivePerm (withRock I perm mob rho) b = some T') ∧
      ∀ x, Mimetic.quadForm T x ≤ Mimetic.quadForm T' x := by
  obtain ⟨hf, hm, T, hT, a, ha, hE⟩ := periodic_run h ht hb hs hbc
  obtain ⟨_, _, T', hT', a', ha', hE'⟩ := periodic_run (I := withRock I perm mob rho) h' ht hb hs hbc
  refine ⟨T, T', hT, hT', fun x => ?_⟩
  have hV := vol_pos ht hb
  have hpsd := fun c => Energy.posSemi_of_posDef (ip_posdef h ht c)
  let ax : Half I.G → K := fun p => ∑ d, (x d * (hi d - lo d)) * a d p
  let ax' : Half I.G → K := fun p => ∑ d, (x d * (hi d - lo d)) * a' d p
  have q1 : Energy.form (ipOf I) ax ax = Mimetic.quadForm T x * vol I := by
    rw [form_six _ (ip_symm h), Mimetic.quadForm, Finset.sum_mul]
    refine Finset.sum_congr rfl fun i _ => ?_
    rw [Finset.sum_mul]
    exact Finset.sum_congr rfl fun d _ => by linear_combination x i * x d * hE i d
  have q2 : Energy.form (ipOf (withRock I perm mob rho)) ax' ax' = Mimetic.quadForm T' x * vol I := by
    have := form_six (I := withRock I perm mob rho) _ (ip_symm h') (fun d => x d * (hi d - lo d))
      (fun d => x d * (hi d - lo d)) a' a'
    refine Eq.trans this ?_
    rw [Mimetic.quadForm, Finset.sum_mul]
    refine Finset.sum_congr rfl fun i _ => ?_
    rw [Finset.sum_mul]
    exact Finset.sum_congr rfl fun d _ => by
      have := hE' i d
      change _ = T' i d * vol I at this
      linear_combination x i * x d * this
  have q3 : Energy.form (ipOf I) ax' ax = Energy.form (ipOf I) ax ax := by
    refine (form_six (I := I) _ (ip_symm h) _ _ a' a).trans ?_
    refine Eq.trans ?_ (form_six (I := I) _ (ip_symm h) _ _ a a).symm
    refine Finset.sum_congr rfl fun i _ => Finset.sum_congr rfl fun d _ => ?_
    congr 1
    obtain ⟨c, z, f, e⟩ := ha i
    obtain ⟨c', z', f', e'⟩ := ha' i
    obtain ⟨c2, z2, f2, e2⟩ := ha d
    unfold Energy.form
    rw [e, e', e2, periodic_work ht hb hf hm f _ f2.balanced f2.skew]
    exact periodic_work (I := withRock I perm mob rho) ht hb hf hm f' _ f2.balanced f2.skew
  refine le_of_mul_le_mul_right ?_ hV
  rw [← q1, ← q2]
  exact (Energy.energy_min (ipOf I) (ip_symm h) hpsd _ _ q3).trans (form_mono h ht perm mob rho hc _)

/-! ### `upscaleSinglePhase` -/

theorem tracer_cond (I : Input K) (c : Fin I.G.nc) (i j : Fin 3) : cond (tracer I) c i j = I.perm c i j := by
  simp [cond, tracerMob]

/-- C89 for `upscaleSinglePhase`: the permeability of a homogeneous sample comes back. -/
theorem C89_single_phase (h : Sound (tracer I)) (ht : Tiling I.G) (hb : FillsBox I.G lo hi side) (hs : Suited I lo hi side)
    (κ : Fin 3 → Fin 3 → K) (hκ : ∀ c i j, I.perm c i j = κ i j)
    (hf : I.bct = .fixed → ∀ i j, i ≠ j → κ i j = 0) (b : Boundary.BCs K) : upscaleSinglePhase I b = some κ := by
  have e : ∀ c i j, cond (tracer I) c i j = κ i j := fun c i j => (tracer_cond I c i j).trans (hκ c i j)
  by_cases hbc : I.bct = .fixed
  · exact C89_homogeneous_fixed (I := tracer I) h ht hb hs κ (hf hbc) e b
  · exact C89_homogeneous (I := tracer I) h ht hb hs hbc κ e b

/-- C90 for `upscaleSinglePhase`: diagonal, and between harmonic and arithmetic mean of the permeabilities. -/
theorem C90_single_phase (h : Sound (tracer I)) (ht : Tiling I.G) (hb : FillsBox I.G lo hi side) (hs : Suited I lo hi side)
    (hbc : I.bct = .fixed) (R : Fin I.G.nc → Fin 3 → Fin 3 → K)
    (hR : ∀ c i j, ∑ k, I.perm c i k * R c k j = if i = j then 1 else 0) :
    ∃ T, (∀ b, upscaleSinglePhase I b = some T) ∧ (∀ i j, i ≠ j → T i j = 0) ∧
      ∀ d, 0 < T d d ∧ T d d ≤ (∑ c, (I.G.cell c).volume * I.perm c d d) / vol I ∧
        1 ≤ T d d * ((∑ c, (I.G.cell c).volume * R c d d) / vol I) := by
  obtain ⟨T, h1, h2, h3⟩ := C90_bounds (I := tracer I) h ht hb hs hbc
  refine ⟨T, h1, h2, fun d => ⟨(h3 d).1, ?_, ?_⟩⟩
  · have := (h3 d).2.1
    unfold mean at this
    simp only [tracer_cond] at this
    exact this
  · exact (h3 d).2.2 R fun c i j => by
      simp only [tracer_cond]
      exact hR c i j

/-- C91 for `upscaleSinglePhase`. -/
theorem C91_single_phase (h : Sound (tracer I)) (ht : Tiling I.G) (hb : FillsBox I.G lo hi side) (hs : Suited I lo hi side)
    (hbc : I.bct = .periodic) (R : Fin I.G.nc → Fin 3 → Fin 3 → K)
    (hR : ∀ c i j, ∑ k, I.perm c i k * R c k j = if i = j then 1 else 0) :
    ∃ T, (∀ b, upscaleSinglePhase I b = some T) ∧ Mimetic.Symm T ∧ Mimetic.PosDef T ∧
      (∀ x, Mimetic.quadForm T x ≤ (∑ c, (I.G.cell c).volume * Mimetic.quadForm (I.perm c) x) / vol I) ∧
      ∀ x y : Fin 3 → K, (∑ d, x d * y d) ^ 2 ≤
        Mimetic.quadForm T x * ((∑ c, (I.G.cell c).volume * Mimetic.quadForm (R c) y) / vol I) := by
  obtain ⟨T, h1, h2, h3, h4, h5⟩ := C91_bounds (I := tracer I) h ht hb hs hbc
  refine ⟨T, h1, h2, h3, fun x => ?_, h5 R fun c i j => ?_⟩
  · have := h4 x
    have e : ∀ c, cond (tracer I) c = I.perm c := fun c => funext fun i => funext fun j => tracer_cond I c i j
    unfold mean at this
    simp only [e] at this
    exact this
  · simp only [tracer_cond]
    exact hR c i j

end

/-! ### The hypotheses can be met -/

/-- A homogeneous sample of two cells with a full tensor. -/
example (b : Boundary.BCs ℚ) : ∃ T, upscaleEffectivePerm (exInput .periodic 0 fun _ => exPerm 0) b = some T ∧
    T 0 0 = 3 ∧ T 0 1 = 3 / 2 := by
  have h : Sound (exInput .periodic 0 fun _ => exPerm 0) :=
    ⟨ex_regular .periodic 0 _ (fun _ => exPerm_symm 0) fun _ => exPerm_posdef 0, rfl⟩
  refine ⟨_, C89_homogeneous h (ex_tiling true) (ex_box true) (ex_suited _ _ _) (by decide)
    (fun i j => (3 / 2) * exPerm 0 i j) (fun c i j => ?_) b, by decide +kernel, by decide +kernel⟩
  change [1 / 2, 1].sum * exPerm 0 i j = _
  norm_num

/-- The same, diagonal tensor, fixed conditions. -/
example (b : Boundary.BCs ℚ) : ∃ T, upscaleEffectivePerm (exInput .fixed 0 fun _ => exPerm 1) b = some T ∧ T 0 0 = 9 / 2 := by
  have h : Sound (exInput .fixed 0 fun _ => exPerm 1) :=
    ⟨ex_regular .fixed 0 _ (fun _ => exPerm_symm 1) fun _ => exPerm_posdef 1, rfl⟩
  refine ⟨_, C89_homogeneous_fixed h (ex_tiling false) (ex_box false) (ex_suited _ _ _)
    (fun i j => (3 / 2) * exPerm 1 i j) (by decide +kernel) (fun c i j => ?_) b, by decide +kernel⟩
  change [1 / 2, 1].sum * exPerm 1 i j = _
  norm_num

/-- Two different cells, fixed conditions: the upscaled conductivity is at most the arithmetic mean, 15/4. -/
example : ∃ T, (∀ b, upscaleEffectivePerm (exInput .fixed 0 exPerm) b = some T) ∧ T 0 1 = 0 ∧ 0 < T 0 0 ∧ T 0 0 ≤ 15 / 4 := by
  obtain ⟨T, h1, h2, h3⟩ := C90_bounds (ex_sound .fixed) (ex_tiling false) (ex_box false) (ex_suited _ _ _) rfl
  refine ⟨T, h1, h2 0 1 (by decide), (h3 0).1, (h3 0).2.1.trans (le_of_eq ?_)⟩
  change (∑ c : Fin 2, (343 : ℚ) * ([1 / 2, 1].sum * exPerm c 0 0)) / (∑ _c : Fin 2, (343 : ℚ)) = 15 / 4
  decide +kernel

/-- Two layers along the flow (third direction): the arithmetic mean. -/
example : ∃ T, (∀ b, upscaleEffectivePerm (exInput .fixed 0 exPerm) b = some T) ∧ T 2 2 = 15 / 4 := by
  obtain ⟨T, h1, h2⟩ := C90_parallel (ex_sound .fixed) (ex_tiling false) (ex_box false) (ex_suited _ _ _) rfl 2
    (by
      have : ∀ (c : Fin 2) (k : Fin 3), k ≠ 2 → [1 / 2, 1].sum * exPerm c k 2 = 0 := by decide +kernel
      exact this)
    (by
      have : ∀ p q : Half (exGrid false), ((exGrid false).face p).nbr = some q.1.val →
          ((exGrid false).face q).nbr = some p.1.val → ((exGrid false).face p).normal 2 ≠ 0 →
          [1 / 2, 1].sum * exPerm p.1 2 2 = [1 / 2, 1].sum * exPerm q.1 2 2 := by decide +kernel
      exact this)
  refine ⟨T, h1, h2.trans ?_⟩
  change (∑ c : Fin 2, (343 : ℚ) * ([1 / 2, 1].sum * exPerm c 2 2)) / (∑ _c : Fin 2, (343 : ℚ)) = 15 / 4
  decide +kernel

/-- Unit and threefold unit tensor, one after the other in the first direction: the harmonic mean, 9/4. -/
def exSeries (c : Fin 2) (i j : Fin 3) : ℚ := if i = j then (if c = 0 then 1 else 3) else 0

theorem exSeries_posdef (c : Fin 2) : Mimetic.PosDef (exSeries c) := by
  intro v hv
  have h0 := mul_self_nonneg (v 0)
  have h1 := mul_self_nonneg (v 1)
  have h2 := mul_self_nonneg (v 2)
  have hpos : 0 < v 0 * v 0 + v 1 * v 1 + v 2 * v 2 := by
    obtain ⟨i, hi⟩ := hv
    have := mul_self_pos.mpr hi
    fin_cases i <;> simp only [Fin.zero_eta, Fin.mk_one, Fin.reduceFinMk] at this <;> linarith
  fin_cases c <;> simp [Mimetic.quadForm, Fin.sum_univ_three, exSeries] <;> linarith

example : ∃ T, (∀ b, upscaleEffectivePerm (exInput .fixed 0 exSeries) b = some T) ∧ T 0 0 = 9 / 4 := by
  have h : Sound (exInput .fixed 0 exSeries) :=
    ⟨ex_regular .fixed 0 _ (by decide +kernel) exSeries_posdef, rfl⟩
  obtain ⟨T, h1, h2⟩ := C90_series h (ex_tiling false) (ex_box false) (ex_suited _ _ _) rfl 0
    (by
      have : ∀ (c : Fin 2) (k : Fin 3), k ≠ 0 → [1 / 2, 1].sum * exSeries c k 0 = 0 := by decide +kernel
      exact this) (fun c : Fin 2 => if c = 0 then 2 / 3 else 2 / 9)
    (by
      have : ∀ c : Fin 2, [1 / 2, 1].sum * exSeries c 0 0 * (if c = 0 then 2 / 3 else 2 / 9) = 1 := by decide +kernel
      exact this) (fun x => if x ≤ 7 then 2 / 3 * x else 14 / 3 + 2 / 9 * (x - 7))
    (fun c : Fin 2 => if c = 0 then 2 else 16 / 3)
    (by
      have : ∀ p : Half (exGrid false), (fun x : ℚ => if x ≤ 7 then 2 / 3 * x else 14 / 3 + 2 / 9 * (x - 7))
          (((exGrid false).face p).centroid 0) = (fun c : Fin 2 => if c = 0 then (2 : ℚ) else 16 / 3) p.1 +
            (fun c : Fin 2 => if c = 0 then (2 / 3 : ℚ) else 2 / 9) p.1 *
              (((exGrid false).face p).centroid 0 - ((exGrid false).cell p.1).centroid 0) := by decide +kernel
      exact this)
  refine ⟨T, h1, ?_⟩
  have e : mean (exInput .fixed 0 exSeries) (fun c : Fin 2 => if c = 0 then 2 / 3 else 2 / 9) = 4 / 9 := by
    change (∑ c : Fin 2, (343 : ℚ) * (if c = 0 then 2 / 3 else 2 / 9)) / (∑ _c : Fin 2, (343 : ℚ)) = 4 / 9
    decide +kernel
  rw [e] at h2
  linarith

/-- Two different cells, periodic conditions. -/
example : ∃ T, (∀ b, upscaleEffectivePerm (exInput .periodic 0 exPerm) b = some T) ∧ Mimetic.Symm T ∧ Mimetic.PosDef T := by
  obtain ⟨T, h1, h2, h3, _⟩ := C91_bounds (ex_sound .periodic) (ex_tiling true) (ex_box true) (ex_suited _ _ _) rfl
  exact ⟨T, h1, h2, h3⟩

theorem ex_twice (bct : Upscale.BCType) : Sound (exInput bct 0 fun c i j => 2 * exPerm c i j) :=
  ⟨ex_regular bct 0 _ (fun c i j => by rw [exPerm_symm]) fun c v hv => by
    have := exPerm_posdef c v hv
    have e : Mimetic.quadForm (fun i j => 2 * exPerm c i j) v = 2 * Mimetic.quadForm (exPerm c) v := by
      unfold Mimetic.quadForm
      rw [Finset.mul_sum]
      refine Finset.sum_congr rfl fun i _ => ?_
      rw [Finset.mul_sum]
      exact Finset.sum_congr rfl fun j _ => by ring
    rw [e]; linarith, rfl⟩

/-- Twice the permeability: twice the result, whatever the boundary conditions. -/
example (bct : Upscale.BCType) : ∃ T, (∀ b, upscaleEffectivePerm (exInput bct 0 exPerm) b = some T) ∧
    ∀ b, upscaleEffectivePerm (exInput bct 0 fun c i j => 2 * exPerm c i j) b = some fun i j => 2 * T i j := by
  exact C92_scaling (ex_sound bct) (ex_tiling _) (ex_box _) (ex_suited _ _ _) (fun c i j => 2 * exPerm c i j)
    (fun _ => [1 / 2, 1]) (fun _ => [3, 3]) (ex_twice bct) 2 fun c i j => by
      change [1 / 2, 1].sum * (2 * exPerm c i j) = 2 * ([1 / 2, 1].sum * exPerm c i j)
      ring

/-- Twice the permeability is not less. -/
theorem ex_more (c : Fin 2) (x : Fin 3 → ℚ) : Mimetic.quadForm (fun i j => [1 / 2, 1].sum * exPerm c i j) x ≤
    [1 / 2, 1].sum * Mimetic.quadForm (fun i j => 2 * exPerm c i j) x := by
  have h0 : 0 ≤ Mimetic.quadForm (exPerm c) x := Energy.posSemi_of_posDef (exPerm_posdef c) x
  have e : ∀ s : ℚ, Mimetic.quadForm (fun i j => s * exPerm c i j) x = s * Mimetic.quadForm (exPerm c) x := by
    intro s
    unfold Mimetic.quadForm
    rw [Finset.mul_sum]
    refine Finset.sum_congr rfl fun i _ => ?_
    rw [Finset.mul_sum]
    exact Finset.sum_congr rfl fun j _ => by ring
  rw [e, e]
  norm_num
  linarith

example : ∃ T T', (∀ b, upscaleEffectivePerm (exInput .fixed 0 exPerm) b = some T) ∧
    (∀ b, upscaleEffectivePerm (exInput .fixed 0 fun c i j => 2 * exPerm c i j) b = some T') ∧ ∀ d, T d d ≤ T' d d :=
  C92_monotone_fixed (ex_sound .fixed) (ex_tiling _) (ex_box _) (ex_suited _ _ _) rfl (fun c i j => 2 * exPerm c i j)
    (fun _ => [1 / 2, 1]) (fun _ => [3, 3]) (ex_twice .fixed) ex_more

example : ∃ T T', (∀ b, upscaleEffectivePerm (exInput .periodic 0 exPerm) b = some T) ∧
    (∀ b, upscaleEffectivePerm (exInput .periodic 0 fun c i j => 2 * exPerm c i j) b = some T') ∧
    ∀ x, Mimetic.quadForm T x ≤ Mimetic.quadForm T' x :=
  C92_monotone_periodic (ex_sound .periodic) (ex_tiling _) (ex_box _) (ex_suited _ _ _) rfl (fun c i j => 2 * exPerm c i j)
    (fun _ => [1 / 2, 1]) (fun _ => [3, 3]) (ex_twice .periodic) ex_more

end Verif.SinglePhase
