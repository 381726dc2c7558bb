import Verif.Props.ResistChain
import Verif.Props.RelPermLayers

/-!
C148 for layered samples: resistivity across layers is the arithmetic mean, along layers the harmonic mean.
-/

namespace Verif.ResistChain

open Verif.SinglePhase Verif.Resist Verif.Upscale

open Verif.RelPermChain (ofVoigt AlongLayers AcrossLayers EndsMatch)

variable {K : Type} [Field K] [LinearOrder K] [IsStrictOrderedRing K]

variable {J : Job K} {lo hi : Fin 3 → K} {side : Boundary.Face K → Nat}

/-- Resistivities are determined by the input. -/
theorem resistivities_unique {p : K} {R Q : List K} (h : Resistivities J p R) (k : Resistivities J p Q) : Q = R := by
  refine List.ext_getElem (k.length_eq.symm.trans h.length_eq) fun i hi hi' => ?_
  exact resist_unique (k.get (by rw [k.length_eq]; exact hi) hi) (h.get (by rw [h.length_eq]; exact hi') hi')

theorem range_at (R : List K) (hl : R.length = J.I.G.nc) (c : Fin J.I.G.nc) : (List.range R.length).getD c.val 0 = c.val := by
  have : c.val < R.length := by rw [hl]; exact c.isLt
  simp [List.getD_eq_getElem?_getD, this]

theorem cond_pos (R : List K) (hR : ∀ r ∈ R, 0 < r) (c : Nat) (hc : c ∈ List.range R.length) : 0 < 1 / R.getD c 0 :=
  one_div_pos.mpr (getD_pos hR (List.mem_range.mp hc))

theorem harmonic_of (h : Ready J lo hi side) (R : List K) (hl : R.length = J.I.G.nc) (hR : ∀ r ∈ R, 0 < r) {t r : K} (hr : t * r = 1)
    (ht : t = (∑ c : Fin J.I.G.nc, (J.I.G.cell c).volume * (1 / R.getD c.val 0)) / vol J.I) : r = harmonic J R := by
  have hV : 0 < vol J.I := vol_pos h.tiling h.box
  have hm := (harmonic_pos h R hl hR).2
  simp only [mul_one_div] at ht
  unfold harmonic
  rw [ht, div_mul_eq_mul_div, div_eq_one_iff_eq hV.ne', mul_comm] at hr
  exact (eq_div_iff hm.ne').mpr hr

theorem arithmetic_of (h : Ready J lo hi side) (R : List K) {t r : K} (hr : t * r = 1)
    (ht : t * ∑ c : Fin J.I.G.nc, (J.I.G.cell c).volume / (1 / R.getD c.val 0) = vol J.I) : r = arithmetic J R := by
  have hV : 0 < vol J.I := vol_pos h.tiling h.box
  simp only [div_div_eq_mul_div, div_one] at ht
  have ht0 : t ≠ 0 := left_ne_zero_of_mul (hr ▸ one_ne_zero)
  unfold arithmetic
  refine (eq_div_iff hV.ne').mpr (mul_left_cancel₀ ht0 ?_)
  rw [← mul_assoc, hr, one_mul]
  exact ht.symm

/-- **C148.** Layers along the direction of the current, fixed conditions: the reported resistivity is exactly the harmonic mean. -/
theorem C148_parallel (h : Ready J lo hi side) (hv : Valid J) (hbc : J.I.bct = .fixed) (p : K) (R : List K) (hR : Resistivities J p R) (d : Fin 3)
    (hlay : AlongLayers J.I.G d fun c => R.getD c.val 0) :
    ∃ w, MeanSat J p w ∧ ∃ r : Fin 3 → K, (∀ b, point J p b = some (w, [r 0, r 1, r 2])) ∧ r d = harmonic J R := by
  obtain ⟨Q, w, h1, h2, h3, h4, v, h5, h6⟩ := cells_at hv p
  obtain rfl := resistivities_unique hR h1
  have hp : ∀ r ∈ Q, 0 < r := fun r hr => (h3 r hr).1
  obtain ⟨T, r, t1, t2, t3, -⟩ := run_fixed h hbc Q h2 hp
  refine ⟨w, h4, r, fun b => point_of hv h5 h6 (t1 b) t3, ?_⟩
  obtain ⟨T', x1, x2⟩ := RelPermChain.flow_parallel (base_ready h) (List.range Q.length) (fun i => 1 / Q.getD i 0) (by rw [List.length_range]; exact h2)
    (cond_pos Q hp) hbc d (by
      intro a b e1 e2 e3
      simp only [base, range_at Q h2]
      rw [show Q.getD a.1.val 0 = Q.getD b.1.val 0 from hlay a b e1 e2 e3])
  rw [← indexed Q] at x1
  have b0 : Boundary.BCs K := ⟨⟨[], []⟩, [], []⟩
  obtain rfl : T' = T := Option.some.inj ((x1 b0).symm.trans (t1 b0))
  simp only [base, range_at Q h2] at x2
  exact harmonic_of h Q h2 hp (t2 d).2 x2

/-- **C148.** Layers across the direction of the current, fixed conditions: the reported resistivity is exactly the arithmetic mean. -/
theorem C148_series (h : Ready J lo hi side) (hv : Valid J) (hbc : J.I.bct = .fixed) (p : K) (R : List K) (hR : Resistivities J p R) (d : Fin 3)
    (hlay : AcrossLayers J.I.G d fun c => R.getD c.val 0) :
    ∃ w, MeanSat J p w ∧ ∃ r : Fin 3 → K, (∀ b, point J p b = some (w, [r 0, r 1, r 2])) ∧ r d = arithmetic J R := by
  obtain ⟨Q, w, h1, h2, h3, h4, v, h5, h6⟩ := cells_at hv p
  obtain rfl := resistivities_unique hR h1
  have hp : ∀ r ∈ Q, 0 < r := fun r hr => (h3 r hr).1
  obtain ⟨T, r, t1, t2, t3, -⟩ := run_fixed h hbc Q h2 hp
  refine ⟨w, h4, r, fun b => point_of hv h5 h6 (t1 b) t3, ?_⟩
  obtain ⟨T', x1, x2⟩ := RelPermChain.flow_series (base_ready h) (List.range Q.length) (fun i => 1 / Q.getD i 0) (by rw [List.length_range]; exact h2)
    (cond_pos Q hp) hbc d (by simp only [base, range_at Q h2, one_div_one_div]; exact hlay)
  rw [← indexed Q] at x1
  have b0 : Boundary.BCs K := ⟨⟨[], []⟩, [], []⟩
  obtain rfl : T' = T := Option.some.inj ((x1 b0).symm.trans (t1 b0))
  simp only [base, range_at Q h2] at x2
  exact arithmetic_of h Q (t2 d).2 x2

/-- A column of the inverse in a principal direction. -/
theorem column_inverse (T : Fin 3 → Fin 3 → K) (S : Fin 3 → Fin 3 → K) (hs : Mimetic.Symm T) (hp : Mimetic.PosDef T)
    (m1 : ∀ i j, ∑ k, T i k * S k j = if i = j then 1 else 0) (d : Fin 3) (hT : ∀ k, k ≠ d → T k d = 0) :
    T d d * S d d = 1 ∧ ∀ k, k ≠ d → S k d = 0 := by
  have e : ∀ j, T d d * S d j = if d = j then 1 else 0 := by
    intro j
    have := m1 d j
    rw [Finset.sum_eq_single d (fun k _ hk => by rw [hs d k, hT k hk, zero_mul]) (fun hk => absurd (Finset.mem_univ _) hk)] at this
    exact this
  have hdd := e d
  rw [if_pos rfl] at hdd
  refine ⟨hdd, fun k hk => ?_⟩
  have := e k
  rw [if_neg (Ne.symm hk)] at this
  have h0 := (mul_eq_zero.mp this).resolve_left (left_ne_zero_of_mul (hdd ▸ one_ne_zero))
  rw [(inverse_form T S hs hp m1).1 k d]
  exact h0

/-- **C148.** Layers along the direction of the current, periodic conditions: the harmonic mean, and no coupling with other directions. -/
theorem C148_parallel_periodic (h : Ready J lo hi side) (hv : Valid J) (hbc : J.I.bct = .periodic) (p : K) (R : List K) (hR : Resistivities J p R)
    (d : Fin 3) (hlay : AlongLayers J.I.G d fun c => R.getD c.val 0) (hend : EndsMatch J.I.G lo hi d fun c => R.getD c.val 0) :
    ∃ w, MeanSat J p w ∧ ∃ r : Fin 9 → K, (∀ b, point J p b = some (w, List.ofFn r)) ∧ ofVoigt r d d = harmonic J R ∧
      ∀ k, k ≠ d → ofVoigt r k d = 0 := by
  obtain ⟨Q, w, h1, h2, h3, h4, v, h5, h6⟩ := cells_at hv p
  obtain rfl := resistivities_unique hR h1
  have hp : ∀ r ∈ Q, 0 < r := fun r hr => (h3 r hr).1
  obtain ⟨T, r, t1, ts, tp, t4, t5, -⟩ := run_periodic h hbc Q h2 hp
  obtain ⟨T', x1, x2, x3⟩ := RelPermChain.flow_parallel_periodic (base_ready h) (List.range Q.length) (fun i => 1 / Q.getD i 0)
    (by rw [List.length_range]; exact h2) (cond_pos Q hp) hbc d
    (by
      intro a b e1 e2 e3
      simp only [base, range_at Q h2]
      rw [show Q.getD a.1.val 0 = Q.getD b.1.val 0 from hlay a b e1 e2 e3])
    (by
      intro a b e1 e2 e3 e4 e5
      simp only [base, range_at Q h2]
      rw [show Q.getD a.1.val 0 = Q.getD b.1.val 0 from hend a b e1 e2 e3 e4 e5])
  rw [← indexed Q] at x1
  have b0 : Boundary.BCs K := ⟨⟨[], []⟩, [], []⟩
  obtain rfl : T' = T := Option.some.inj ((x1 b0).symm.trans (t1 b0))
  simp only [base, range_at Q h2] at x2
  obtain ⟨c1, c2⟩ := column_inverse T' (fun i j => ofVoigt r i j) ts tp t4 d x3
  exact ⟨w, h4, r, fun b => point_of hv h5 h6 (t1 b) t5, harmonic_of h Q h2 hp c1 x2, c2⟩

/-- **C148.** Layers across the direction of the current, periodic conditions: the arithmetic mean, and no coupling with other directions. -/
theorem C148_series_periodic (h : Ready J lo hi side) (hv : Valid J) (hbc : J.I.bct = .periodic) (p : K) (R : List K) (hR : Resistivities J p R)
    (d : Fin 3) (hlay : AcrossLayers J.I.G d fun c => R.getD c.val 0) :
    ∃ w, MeanSat J p w ∧ ∃ r : Fin 9 → K, (∀ b, point J p b = some (w, List.ofFn r)) ∧ ofVoigt r d d = arithmetic J R ∧
      ∀ k, k ≠ d → ofVoigt r k d = 0 := by
  obtain ⟨Q, w, h1, h2, h3, h4, v, h5, h6⟩ := cells_at hv p
  obtain rfl := resistivities_unique hR h1
  have hp : ∀ r ∈ Q, 0 < r := fun r hr => (h3 r hr).1
  obtain ⟨T, r, t1, ts, tp, t4, t5, -⟩ := run_periodic h hbc Q h2 hp
  obtain ⟨T', x1, x2, x3⟩ := RelPermChain.flow_series_periodic (base_ready h) (List.range Q.length) (fun i => 1 / Q.getD i 0)
    (by rw [List.length_range]; exact h2) (cond_pos Q hp) hbc d (by simp only [base, range_at Q h2, one_div_one_div]; exact hlay)
  rw [← indexed Q] at x1
  have b0 : Boundary.BCs K := ⟨⟨[], []⟩, [], []⟩
  obtain rfl : T' = T := Option.some.inj ((x1 b0).symm.trans (t1 b0))
  simp only [base, range_at Q h2] at x2
  obtain ⟨c1, c2⟩ := column_inverse T' (fun i j => ofVoigt r i j) ts tp t4 d x3
  exact ⟨w, h4, r, fun b => point_of hv h5 h6 (t1 b) t5, arithmetic_of h Q c1 x2, c2⟩

/-! ### The hypotheses are met -/

/-- Two cells of sandstone with porosities 1/4 and 1/10 full of water: resistivities 1/5 and 1/2. -/
theorem ex_resist (bct : BCType) : Resistivities (exJob bct (1 / 10)) 0 [1 / 5, 1 / 2] := by
  refine .cons ?_ (.cons ?_ .nil)
  · constructor
    · intro h; norm_num at h
    · intro h; simp [Spec.isMud, exJob] at h
    · intro _ _ h; norm_num [exJob, Spec.saturation, Spec.leverett] at h
    · intro _ _ _; norm_num [exJob, Spec.saturation, Spec.leverett]
  · constructor
    · intro h; norm_num at h
    · intro h; simp [Spec.isMud, exJob] at h
    · intro _ _ h; norm_num [exJob, Spec.saturation, Spec.leverett] at h
    · intro _ _ _; norm_num [exJob, Spec.saturation, Spec.leverett]

/-- Current along the two cells lying side by side: 2 / (5 + 2). -/
example : ∃ w, ∃ r : Fin 3 → ℚ, (∀ b, point (exJob .fixed (1 / 10)) 0 b = some (w, [r 0, r 1, r 2])) ∧ r 2 = 2 / 7 := by
  have flat : ∀ p q : Half (exGrid false), ((exGrid false).face p).nbr = some q.1.val → ((exGrid false).face q).nbr = some p.1.val →
      ((exGrid false).face p).normal 2 ≠ 0 → p.1 = q.1 := by decide +kernel
  obtain ⟨w, -, r, h1, h2⟩ := C148_parallel (ex_ready .fixed (1 / 10)) (ex_valid .fixed (by norm_num)) rfl 0 _ (ex_resist .fixed) 2
    (fun p q e1 e2 e3 => by rw [flat p q e1 e2 e3])
  refine ⟨w, r, h1, h2.trans ?_⟩
  change (∑ _ : Fin 2, (343 : ℚ)) / ∑ c : Fin 2, (343 : ℚ) / [1 / 5, 1 / 2].getD c.val 0 = 2 / 7
  decide +kernel

/-- Current from one cell to the other, with periodic conditions: (1/5 + 1/2) / 2. -/
example : ∃ w, ∃ r : Fin 9 → ℚ, (∀ b, point (exJob .periodic (1 / 10)) 0 b = some (w, List.ofFn r)) ∧ ofVoigt r 0 0 = 7 / 20 ∧ ofVoigt r 1 0 = 0 := by
  obtain ⟨w, -, r, h1, h2, h3⟩ := C148_series_periodic (ex_ready .periodic (1 / 10)) (ex_valid .periodic (by norm_num)) rfl 0 _ (ex_resist .periodic) 0
    ⟨fun x => if x ≤ 7 then 1 / 5 * x else 7 / 5 + 1 / 2 * (x - 7), fun c : Fin 2 => if c = 0 then 3 / 5 else 29 / 10, by
      have : ∀ p : Half (exGrid true), (fun x : ℚ => if x ≤ 7 then 1 / 5 * x else 7 / 5 + 1 / 2 * (x - 7)) (((exGrid true).face p).centroid 0) =
          (fun c : Fin 2 => if c = 0 then (3 / 5 : ℚ) else 29 / 10) p.1 + (fun c : Fin 2 => [(1 / 5 : ℚ), 1 / 2].getD c.val 0) p.1 *
              (((exGrid true).face p).centroid 0 - ((exGrid true).cell p.1).centroid 0) := by
        decide +kernel
      exact this⟩
  refine ⟨w, r, h1, h2.trans ?_, h3 1 (by decide)⟩
  change (∑ c : Fin 2, (343 : ℚ) * [1 / 5, 1 / 2].getD c.val 0) / ∑ _ : Fin 2, (343 : ℚ) = 7 / 20
  decide +kernel

/-- Current from one cell to the other, with fixed conditions. -/
example : ∃ w, ∃ r : Fin 3 → ℚ, (∀ b, point (exJob .fixed (1 / 10)) 0 b = some (w, [r 0, r 1, r 2])) ∧ r 0 = 7 / 20 := by
  have lay : AcrossLayers (exGrid false) 0 fun c : Fin 2 => [(1 / 5 : ℚ), 1 / 2].getD c.val 0 :=
    ⟨fun x => if x ≤ 7 then 1 / 5 * x else 7 / 5 + 1 / 2 * (x - 7), fun c : Fin 2 => if c = 0 then 3 / 5 else 29 / 10, by decide +kernel⟩
  obtain ⟨w, -, r, h1, h2⟩ := C148_series (ex_ready .fixed (1 / 10)) (ex_valid .fixed (by norm_num)) rfl 0 _ (ex_resist .fixed) 0 lay
  refine ⟨w, r, h1, h2.trans ?_⟩
  change (∑ c : Fin 2, (343 : ℚ) * [1 / 5, 1 / 2].getD c.val 0) / ∑ _ : Fin 2, (343 : ℚ) = 7 / 20
  decide +kernel

/-- Current along the two cells, with periodic conditions. -/
example : ∃ w, ∃ r : Fin 9 → ℚ, (∀ b, point (exJob .periodic (1 / 10)) 0 b = some (w, List.ofFn r)) ∧ ofVoigt r 2 2 = 2 / 7 ∧ ofVoigt r 1 2 = 0 := by
  have flat : ∀ p q : Half (exGrid true), ((exGrid true).face p).nbr = some q.1.val → ((exGrid true).face q).nbr = some p.1.val →
      ((exGrid true).face p).normal 2 ≠ 0 → p.1 = q.1 := by decide +kernel
  have ends : ∀ p q : Half (exGrid true), ((exGrid true).face p).nbr = none → ((exGrid true).face q).nbr = none → ((exGrid true).face p).centroid 2 = exLo 2 →
      ((exGrid true).face q).centroid 2 = exHi 2 → (∀ k, k ≠ 2 → ((exGrid true).face p).centroid k = ((exGrid true).face q).centroid k) → p.1 = q.1 := by
    decide +kernel
  obtain ⟨w, -, r, h1, h2, h3⟩ := C148_parallel_periodic (ex_ready .periodic (1 / 10)) (ex_valid .periodic (by norm_num)) rfl 0 _ (ex_resist .periodic) 2
    (fun p q e1 e2 e3 => by rw [flat p q e1 e2 e3]) (fun p q e1 e2 e3 e4 e5 => by rw [ends p q e1 e2 e3 e4 e5])
  refine ⟨w, r, h1, h2.trans ?_, h3 1 (by decide)⟩
  change (∑ _ : Fin 2, (343 : ℚ)) / ∑ c : Fin 2, (343 : ℚ) / [1 / 5, 1 / 2].getD c.val 0 = 2 / 7
  decide +kernel

end Verif.ResistChain
