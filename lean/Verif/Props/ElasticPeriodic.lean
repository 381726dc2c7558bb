import Verif.Props.ElasticUpscale
import Verif.Lemmas.ElasticMean
import Verif.Lemmas.ElasticExample
import Mathlib.Data.Real.Sqrt
import Mathlib.Tactic.IntervalCases

/-!
C96: upscaling of periodic samples of conforming hexahedra.
-/

namespace Verif.ElasticUp

open Verif.Elastic Verif.Asm

variable {K : Type} [Field K] [LinearOrder K] [IsStrictOrderedRing K]

/-- **C94** (ties). If all constraints tie an unknown to another one, the displacements that compete are those that satisfy the
constraints as they were entered, before chains were resolved. -/
theorem C94_ties (S : Sample K) (D : Cell K → Fin 6 → Fin 6 → K) (hS : Sound S D) (ht : S.tol < 1)
    (h0 : ∀ s c, S.handler.mpcs s = some c → Tie c)
    (solver : Nat → (Nat → Nat → K) → (Nat → K) → Nat → K) (hX : Exact solver) :
    ∃ R : Fin 6 → Fin 6 → K, (∀ m : Fin 6, upscaleCase solver S m = some (R m)) ∧ (∀ m n, R m n = R n m) ∧
      ∀ x : Fin 6 → K,
        (∃ v, Admissible S.handler v ∧ volume S.cells * ∑ m, x m * ∑ n, R m n * x n = energy D S.cells x v) ∧
        ∀ v, Admissible S.handler v → volume S.cells * ∑ m, x m * ∑ n, R m n * x n ≤ energy D S.cells x v := by
  obtain ⟨h, R, he, h1, h2, h3⟩ := C94_stiffness S D hS solver hX
  obtain ⟨h', hR⟩ := ready S D hS
  have : h = h' := Option.some.inj (he.symm.trans hR.eq)
  subst this
  have key := tie_admissible hS ht h0 hR
  refine ⟨R, h1, h2, fun x => ⟨?_, fun v hv => (h3 x).2 v ((key v).mpr hv)⟩⟩
  obtain ⟨v, hv, e⟩ := (h3 x).1
  exact ⟨v, (key v).mp hv, e⟩

/-- The Gauss rule with two points in each direction, which the program uses, is exact enough. -/
theorem gauss_exact : ExactRule (K := ℝ) (
    let r : List ℝ := [1 / 2 - Real.sqrt 3 / 6, 1 / 2 + Real.sqrt 3 / 6]
    r.flatMap fun a => r.flatMap fun b => r.map fun c => (1 / 8, ![a, b, c])) := by
  have h3 : Real.sqrt 3 ^ 2 = 3 := Real.sq_sqrt (by norm_num)
  intro i j k hi hj hk
  have key : ∀ n : ℕ, n ≤ 2 → (1 / 2 - Real.sqrt 3 / 6) ^ n + (1 / 2 + Real.sqrt 3 / 6) ^ n = 2 / ((n : ℝ) + 1) := by
    intro n hn
    interval_cases n
    · norm_num
    · norm_num
    · norm_num
      linear_combination (1 / 18) * h3
  have e : (List.map (fun p : ℝ × (Fin 3 → ℝ) => p.1 * p.2 0 ^ i * p.2 1 ^ j * p.2 2 ^ k) (
      let r : List ℝ := [1 / 2 - Real.sqrt 3 / 6, 1 / 2 + Real.sqrt 3 / 6]
      r.flatMap fun a => r.flatMap fun b => r.map fun c => (1 / 8, ![a, b, c]))).sum =
      1 / 8 * ((1 / 2 - Real.sqrt 3 / 6) ^ i + (1 / 2 + Real.sqrt 3 / 6) ^ i) *
        ((1 / 2 - Real.sqrt 3 / 6) ^ j + (1 / 2 + Real.sqrt 3 / 6) ^ j) *
        ((1 / 2 - Real.sqrt 3 / 6) ^ k + (1 / 2 + Real.sqrt 3 / 6) ^ k) := by
    simp
    ring
  rw [e, key i hi, key j hj, key k hk]
  have a1 : (i : ℝ) + 1 ≠ 0 := by positivity
  have a2 : (j : ℝ) + 1 ≠ 0 := by positivity
  have a3 : (k : ℝ) + 1 ≠ 0 := by positivity
  field_simp
  norm_num

/-- **C96** (mean strain). In a periodic sample of conforming hexahedra, of any shape, displacements that satisfy the constraints have
no mean strain: the mean strain of a load case is the one applied. -/
theorem C96_mean (S : Sample K) (F : List (Shape.Linear K 3)) (X : Nat → Fin 3 → K) (rule : List (K × (Fin 3 → K)))
    (next : Fin 3 → Equiv.Perm (Fin S.cells.length)) (hT : Torus S F X rule next) (v : Nat → Nat → K) (hv : Admissible S.handler v)
    (i : Fin 6) : (S.cells.map fun c => (c.pts.map fun q => q.w * strainAt v c q i).sum).sum = 0 :=
  torus_mean hT v hv i

/-- The two sheared hexahedra; there are admissible displacements other than zero. -/
example : Torus (bar 0 1 7) hexShapes barX simpson (barNext 0 _ _) ∧
    Admissible (bar 0 1 7).handler (fun n i => if n % 3 = 1 ∧ i = 0 then 1 else 0) := by
  refine ⟨bar_torus 0 _ _, fun n i hp => ?_, fun n i m hn hi hm => ?_⟩
  · obtain ⟨f, hf, -⟩ := hp
    have := (bar_fixed hf).1
    beta_reduce
    rw [if_neg]
    simp at this
    omega
  · have hm' : barHandler.mpcs (n * 3 + i) = some m := hm
    obtain ⟨a, ha, rfl⟩ := bar_mpcs hm'
    have hi' : i < 3 := hi
    have e1 : n % 3 = 1 := by omega
    have e2 : a % 3 = 1 := by omega
    have e3 : (n * 3 + i) % 3 = i := by omega
    simp [e1, e2, e3]

/-- A stress `s` that every cell bears at the strain `t c` bounds the energy from below. -/
theorem energy_bound (S : Sample K) (D : Cell K → Fin 6 → Fin 6 → K) (hS : Sound S D) (v : Nat → Nat → K)
    (hm : ∀ i, (S.cells.map fun c => (c.pts.map fun q => q.w * strainAt v c q i).sum).sum = 0)
    (s : Fin 6 → K) (t : Cell K → Fin 6 → K) (hst : ∀ c ∈ S.cells, ∀ i, ∑ k, D c i k * t c k = s i) (x : Fin 6 → K) :
    2 * volume S.cells * ∑ i, s i * x i - (S.cells.map fun c => (c.pts.map fun q => q.w).sum * ∑ i, s i * t c i).sum ≤
      energy D S.cells x v := by
  have hpt : ∀ c ∈ S.cells, ∀ e : Fin 6 → K, 2 * ∑ i, s i * e i - ∑ i, s i * t c i ≤ ∑ i, e i * ∑ k, D c i k * e k := by
    intro c hc e
    have h1 := hS.psd c hc fun i => e i - t c i
    have h2 : ∑ i, (e i - t c i) * ∑ k, D c i k * (e k - t c k) =
        ∑ i, e i * ∑ k, D c i k * e k - 2 * ∑ i, s i * e i + ∑ i, s i * t c i := by
      have e1 : ∀ i, ∑ k, D c i k * (e k - t c k) = ∑ k, D c i k * e k - s i := by
        intro i
        rw [← hst c hc i, ← Finset.sum_sub_distrib]
        exact Finset.sum_congr rfl fun k _ => by ring
      have e2 : ∑ i, t c i * ∑ k, D c i k * e k = ∑ i, s i * e i := by
        simp only [Finset.mul_sum]
        rw [Finset.sum_comm]
        refine Finset.sum_congr rfl fun k _ => ?_
        rw [← hst c hc k, Finset.sum_mul]
        refine Finset.sum_congr rfl fun i _ => ?_
        rw [hS.symm c hc i k]; ring
      simp only [e1]
      have e3 : ∀ i, (e i - t c i) * (∑ k, D c i k * e k - s i) =
          e i * ∑ k, D c i k * e k - t c i * ∑ k, D c i k * e k - s i * e i + s i * t c i := fun i => by ring
      simp only [e3, Finset.sum_add_distrib, Finset.sum_sub_distrib, e2]
      ring
    rw [h2] at h1
    linarith
  have h3 : (S.cells.map fun c => (c.pts.map fun q =>
      q.w * (2 * ∑ i, s i * (x i + strainAt v c q i) - ∑ i, s i * t c i)).sum).sum ≤ energy D S.cells x v := by
    unfold energy
    apply List.sum_le_sum
    intro c hc
    apply List.sum_le_sum
    intro q hq
    exact mul_le_mul_of_nonneg_left (hpt c hc _) (hS.weight c hc q hq)
  refine le_trans (le_of_eq ?_) h3
  have h4 : ∀ c : Cell K, (c.pts.map fun q => q.w * (2 * ∑ i, s i * (x i + strainAt v c q i) - ∑ i, s i * t c i)).sum =
      (2 * ∑ i, s i * x i) * (c.pts.map fun q => q.w).sum + ∑ i, 2 * s i * (c.pts.map fun q => q.w * strainAt v c q i).sum -
        (c.pts.map fun q => q.w).sum * ∑ i, s i * t c i := by
    intro c
    generalize c.pts = l
    induction l with
    | nil => simp
    | cons q l ih =>
      simp only [List.map_cons, List.sum_cons]
      rw [ih]
      simp only [mul_add, Finset.sum_add_distrib]
      have : ∑ i, 2 * s i * (q.w * strainAt v c q i) = q.w * (2 * ∑ i, s i * strainAt v c q i) := by
        rw [Finset.mul_sum, Finset.mul_sum]
        exact Finset.sum_congr rfl fun i _ => by ring
      rw [this]
      ring
  simp only [h4]
  have h5 : ∀ (l : List (Cell K)), (l.map fun c => (2 * ∑ i, s i * x i) * (c.pts.map fun q => q.w).sum +
      ∑ i, 2 * s i * (c.pts.map fun q => q.w * strainAt v c q i).sum - (c.pts.map fun q => q.w).sum * ∑ i, s i * t c i).sum =
      (2 * ∑ i, s i * x i) * volume l + ∑ i, 2 * s i * (l.map fun c => (c.pts.map fun q => q.w * strainAt v c q i).sum).sum -
        (l.map fun c => (c.pts.map fun q => q.w).sum * ∑ i, s i * t c i).sum := by
    intro l
    unfold volume
    induction l with
    | nil => simp
    | cons c l ih =>
      simp only [List.map_cons, List.sum_cons]
      rw [ih]
      simp only [mul_add, Finset.sum_add_distrib]
      ring
  rw [h5]
  simp only [hm, mul_zero, Finset.sum_const_zero]
  ring

/-- **C96** (lower bound). In a periodic sample the upscaled matrix is not below the one of a uniform stress: for every stress `s` that
the cells bear at the strains `t c`, twice the work of `s` on `x` less the energy of `s` bounds the form from below. With invertible
matrices the best `s` gives the inverse of the average of the inverses. -/
theorem C96_lower (S : Sample K) (D : Cell K → Fin 6 → Fin 6 → K) (hS : Sound S D) (ht : S.tol < 1)
    (h0 : ∀ s c, S.handler.mpcs s = some c → Tie c) (F : List (Shape.Linear K 3)) (X : Nat → Fin 3 → K) (rule : List (K × (Fin 3 → K)))
    (next : Fin 3 → Equiv.Perm (Fin S.cells.length)) (hT : Torus S F X rule next)
    (solver : Nat → (Nat → Nat → K) → (Nat → K) → Nat → K) (hX : Exact solver) :
    ∃ R : Fin 6 → Fin 6 → K, (∀ m : Fin 6, upscaleCase solver S m = some (R m)) ∧
      ∀ (x s : Fin 6 → K) (t : Cell K → Fin 6 → K), (∀ c ∈ S.cells, ∀ i, ∑ k, D c i k * t c k = s i) →
        2 * volume S.cells * ∑ i, s i * x i - (S.cells.map fun c => (c.pts.map fun q => q.w).sum * ∑ i, s i * t c i).sum ≤
          volume S.cells * ∑ m, x m * ∑ n, R m n * x n := by
  obtain ⟨R, h1, -, h3⟩ := C94_ties S D hS ht h0 solver hX
  refine ⟨R, h1, fun x s t hst => ?_⟩
  obtain ⟨v, hv, e⟩ := (h3 x).1
  rw [e]
  exact energy_bound S D hS v (fun i => torus_mean hT v hv i) s t hst x

/-- **C96** (exactness). A homogeneous periodic sample, whatever the shapes of its cells, returns its elasticity matrix. -/
theorem C96_homogeneous (S : Sample K) (D0 : Fin 6 → Fin 6 → K) (hS : Sound S fun _ => D0) (ht : S.tol < 1)
    (h0 : ∀ s c, S.handler.mpcs s = some c → Tie c) (F : List (Shape.Linear K 3)) (X : Nat → Fin 3 → K) (rule : List (K × (Fin 3 → K)))
    (next : Fin 3 → Equiv.Perm (Fin S.cells.length)) (hT : Torus S F X rule next)
    (solver : Nat → (Nat → Nat → K) → (Nat → K) → Nat → K) (hX : Exact solver) (m : Fin 6) :
    upscaleCase solver S m = some (D0 m) := by
  obtain ⟨R, h1, h2, h3⟩ := C94_ties S _ hS ht h0 solver hX
  have hne : S.cells ≠ [] := by
    intro e
    have := hS.volume
    rw [e] at this
    simp [volume] at this
  obtain ⟨c0, hc0⟩ := List.exists_mem_of_ne_nil _ hne
  have hfac : ∀ b : K, (S.cells.map fun c => (c.pts.map fun q => q.w).sum * b).sum = volume S.cells * b := by
    intro b
    unfold volume
    rw [List.sum_map_mul_right]
  have : R = D0 := by
    refine eq_of_form h2 (hS.symm c0 hc0) fun x => ?_
    apply mul_left_cancel₀ hS.volume.ne'
    apply le_antisymm
    · have := (h3 x).2 _ (zero_admissible S.handler)
      rw [energy_zero, hfac] at this
      exact this
    · obtain ⟨v, hv, e⟩ := (h3 x).1
      have := energy_bound S _ hS v (fun i => torus_mean hT v hv i) (fun i => ∑ k, D0 i k * x k) (fun _ => x) (fun _ _ _ => rfl) x
      rw [hfac, ← e] at this
      have h4 : ∑ i, (∑ k, D0 i k * x k) * x i = ∑ i, x i * ∑ k, D0 i k * x k := Finset.sum_congr rfl fun i _ => mul_comm _ _
      rw [h4] at this
      linarith
  rw [h1, this]

theorem homogeneous_sound (E : ℚ) (hE : 0 < E) : Sound (barOf 0 (.iso E (1 / 4) 0) (.iso E (1 / 4) 0)) fun _ => (isoC6 E (1 / 4) false).2 := by
  obtain ⟨C, hC, h3, h4⟩ := C43_posdef E (1 / 4) hE (by norm_num) (by norm_num)
  have hsc : scale (barOf 0 (.iso E (1 / 4) 0) (.iso E (1 / 4) 0)) = 1 := by unfold scale barOf; simp
  refine barOf_sound 0 _ _ _ (fun c hc M => ?_) (fun c hc => ?_) fun c hc e => ?_
  · have hm : c.mat = .iso E (1 / 4) 0 := by
      rcases List.mem_cons.mp hc with rfl | hc
      · rfl
      · obtain rfl := List.mem_singleton.mp hc; rfl
    obtain ⟨b, hb⟩ := iso_writes E (1 / 4) 0 M
    exact ⟨b, by rw [hm, hb, hsc]; simp⟩
  · rw [hC]; exact h3
  · rw [hC]
    by_cases he : e = 0
    · subst he; simp
    · exact (h4 e he).le

/-- A homogeneous sample of two sheared hexahedra of different lengths returns its elasticity matrix. -/
example (solver : Nat → (Nat → Nat → ℚ) → (Nat → ℚ) → Nat → ℚ) (hX : Exact solver) (m : Fin 6) :
    upscaleCase solver (barOf 0 (.iso 3 (1 / 4) 0) (.iso 3 (1 / 4) 0)) m = some ((isoC6 3 (1 / 4) false).2 m) :=
  C96_homogeneous _ _ (homogeneous_sound 3 (by norm_num)) (by unfold barOf; norm_num) (bar_ties 0 _ _) _ _ _ _ (bar_torus 0 _ _) solver hX m

/-- **C96** (definiteness). In a periodic sample of definite materials the upscaled matrix is definite. -/
theorem C96_definite (S : Sample K) (D : Cell K → Fin 6 → Fin 6 → K) (hS : Sound S D)
    (hD : ∀ c ∈ S.cells, ∀ e : Fin 6 → K, e ≠ 0 → 0 < ∑ i, e i * ∑ k, D c i k * e k) (ht : S.tol < 1)
    (h0 : ∀ s c, S.handler.mpcs s = some c → Tie c) (F : List (Shape.Linear K 3)) (X : Nat → Fin 3 → K) (rule : List (K × (Fin 3 → K)))
    (next : Fin 3 → Equiv.Perm (Fin S.cells.length)) (hT : Torus S F X rule next)
    (solver : Nat → (Nat → Nat → K) → (Nat → K) → Nat → K) (hX : Exact solver) :
    ∃ R : Fin 6 → Fin 6 → K, (∀ m : Fin 6, upscaleCase solver S m = some (R m)) ∧
      ∀ x : Fin 6 → K, x ≠ 0 → 0 < ∑ m, x m * ∑ n, R m n * x n := by
  obtain ⟨R, h1, -, h3⟩ := C94_ties S D hS ht h0 solver hX
  refine ⟨R, h1, fun x hx => ?_⟩
  obtain ⟨v, hv, e⟩ := (h3 x).1
  have hnn : ∀ c ∈ S.cells, ∀ q ∈ c.pts, 0 ≤ q.w * ∑ i, (x i + strainAt v c q i) * ∑ k, D c i k * (x k + strainAt v c q k) :=
    fun c hc q hq => mul_nonneg (hS.weight c hc q hq) (hS.psd c hc fun i => x i + strainAt v c q i)
  have hpos : 0 ≤ energy D S.cells x v := by
    unfold energy
    apply List.sum_nonneg
    intro y hy
    obtain ⟨c, hc, rfl⟩ := List.mem_map.mp hy
    apply List.sum_nonneg
    intro z hz
    obtain ⟨q, hq, rfl⟩ := List.mem_map.mp hz
    exact hnn c hc q hq
  rcases hpos.lt_or_eq with h | h
  · rw [← e] at h
    exact pos_of_mul_pos_right h hS.volume.le
  · exfalso
    apply hx
    have hz : ∀ c ∈ S.cells, ∀ q ∈ c.pts, ∀ i, q.w * (x i + strainAt v c q i) = 0 := by
      intro c hc q hq i
      have h' := h.symm
      unfold energy at h'
      have a1 := List.all_zero_of_le_zero_le_of_sum_eq_zero (l := S.cells.map fun c => (c.pts.map fun q =>
          q.w * ∑ i, (x i + strainAt v c q i) * ∑ k, D c i k * (x k + strainAt v c q k)).sum) (fun y hy => by
        obtain ⟨c, hc, rfl⟩ := List.mem_map.mp hy
        apply List.sum_nonneg
        intro z hz
        obtain ⟨q, hq, rfl⟩ := List.mem_map.mp hz
        exact hnn c hc q hq) h' (List.mem_map.mpr ⟨c, hc, rfl⟩)
      have a2 := List.all_zero_of_le_zero_le_of_sum_eq_zero (l := c.pts.map fun q =>
          q.w * ∑ i, (x i + strainAt v c q i) * ∑ k, D c i k * (x k + strainAt v c q k)) (fun z hz => by
        obtain ⟨q, hq, rfl⟩ := List.mem_map.mp hz
        exact hnn c hc q hq) a1 (List.mem_map.mpr ⟨q, hq, rfl⟩)
      rcases mul_eq_zero.mp a2 with a3 | a3
      · rw [a3, zero_mul]
      · by_contra hne
        have : (fun i => x i + strainAt v c q i) ≠ 0 := fun h => hne (by rw [congrFun h i]; simp)
        exact absurd a3 (hD c hc _ this).ne'
    have hs : ∀ i, volume S.cells * x i = 0 := by
      intro i
      have h5 : (S.cells.map fun c => (c.pts.map fun q => q.w * (x i + strainAt v c q i)).sum).sum = 0 := by
        apply List.sum_eq_zero
        intro y hy
        obtain ⟨c, hc, rfl⟩ := List.mem_map.mp hy
        apply List.sum_eq_zero
        intro z hz'
        obtain ⟨q, hq, rfl⟩ := List.mem_map.mp hz'
        exact hz c hc q hq i
      simp only [mul_add, List.sum_map_add] at h5
      rw [torus_mean hT v hv i, add_zero] at h5
      rw [← h5]
      unfold volume
      rw [← List.sum_map_mul_right]
      congr 1
      apply List.map_congr_left
      intro c _
      rw [← List.sum_map_mul_right]
    funext i
    exact (mul_eq_zero.mp (hs i)).resolve_left hS.volume.ne'

/-- Two different materials. -/
example (solver : Nat → (Nat → Nat → ℚ) → (Nat → ℚ) → Nat → ℚ) (hX : Exact solver) :
    ∃ R : Fin 6 → Fin 6 → ℚ, (∀ m : Fin 6, upscaleCase solver (bar 0 1 7) m = some (R m)) ∧
      ∀ x : Fin 6 → ℚ, x ≠ 0 → 0 < ∑ m, x m * ∑ n, R m n * x n :=
  C96_definite _ _ (bar_sound 0 1 7 (by norm_num) (by norm_num)) (fun c hc => (bar_definite 0 1 7 (by norm_num) (by norm_num) c hc).2)
    (by unfold bar barOf; norm_num) (bar_ties 0 _ _) _ _ _ _ (bar_torus 0 _ _) solver hX

/-! ### The reported matrix -/

theorem report_eq (solver : Nat → (Nat → Nat → K) → (Nat → K) → Nat → K) (S : Sample K) (R : Fin 6 → Fin 6 → K)
    (h : ∀ m : Fin 6, upscaleCase solver S m = some (R m)) :
    report solver S = some fun i j => clamp (R (Spec.voigt i) (Spec.voigt j)) := by
  have h0 : (List.range 6).mapM (fun m => upscaleCase solver S m) = some [R 0, R 1, R 2, R 3, R 4, R 5] := by
    have e : List.range 6 = [0, 1, 2, 3, 4, 5] := rfl
    have a0 := h 0
    have a1 := h 1
    have a2 := h 2
    have a3 := h 3
    have a4 := h 4
    have a5 := h 5
    simp only [Fin.isValue, Fin.val_zero, Fin.val_one, Fin.val_two] at a0 a1 a2
    change upscaleCase solver S 3 = _ at a3
    change upscaleCase solver S 4 = _ at a4
    change upscaleCase solver S 5 = _ at a5
    rw [e]
    simp only [List.mapM_cons, List.mapM_nil, a0, a1, a2, a3, a4, a5]
    rfl
  unfold report
  rw [h0]
  refine congrArg some (funext fun i => funext fun j => ?_)
  fin_cases i <;> fin_cases j <;> rfl

/-- **C97** (report). The matrix that is printed has the stresses of the load cases in Voigt order (xx, yy, zz, yz, xz, xy); entries
smaller than `1e-4` are replaced by zero. It is symmetric. -/
theorem C97_report (S : Sample K) (D : Cell K → Fin 6 → Fin 6 → K) (hS : Sound S D)
    (solver : Nat → (Nat → Nat → K) → (Nat → K) → Nat → K) (hX : Exact solver) :
    ∃ R M : Fin 6 → Fin 6 → K, (∀ m : Fin 6, upscaleCase solver S m = some (R m)) ∧ report solver S = some M ∧
      (∀ i j, M i j = if |R (![0, 1, 2, 5, 4, 3] i) (![0, 1, 2, 5, 4, 3] j)| < 1 / 10 ^ 4 then 0
        else R (![0, 1, 2, 5, 4, 3] i) (![0, 1, 2, 5, 4, 3] j)) ∧ ∀ i j, M i j = M j i := by
  obtain ⟨R, h1, h2, -⟩ := C94_bounds S D hS solver hX
  refine ⟨R, _, h1, report_eq solver S R h1, fun i j => rfl, fun i j => ?_⟩
  change clamp _ = clamp _
  rw [h2]

/-- **C97** (faithful report). If no entry of the upscaled matrix is smaller than `1e-4` without being zero, the report is the matrix in
Voigt order, and so positive semidefinite. -/
theorem C97_faithful_partial (S : Sample K) (D : Cell K → Fin 6 → Fin 6 → K) (hS : Sound S D)
    (solver : Nat → (Nat → Nat → K) → (Nat → K) → Nat → K) (hX : Exact solver) :
    ∃ R : Fin 6 → Fin 6 → K, (∀ m : Fin 6, upscaleCase solver S m = some (R m)) ∧
      ((∀ i j, R i j ≠ 0 → 1 / 10 ^ 4 ≤ |R i j|) → ∃ M, report solver S = some M ∧
        (∀ i j, M i j = R (![0, 1, 2, 5, 4, 3] i) (![0, 1, 2, 5, 4, 3] j)) ∧
        ∀ x : Fin 6 → K, 0 ≤ ∑ m, x m * ∑ n, M m n * x n) := by
  obtain ⟨R, h1, h2, h3⟩ := C94_bounds S D hS solver hX
  refine ⟨R, h1, fun hR => ?_⟩
  have hc : ∀ i j, clamp (R i j) = R i j := by
    intro i j
    unfold clamp
    by_cases h0 : R i j = 0
    · rw [h0]; simp
    · rw [if_neg (not_lt.mpr (hR i j h0))]
  have hM : ∀ i j, clamp (R (Spec.voigt i) (Spec.voigt j)) = R (![0, 1, 2, 5, 4, 3] i) (![0, 1, 2, 5, 4, 3] j) := fun i j => hc _ _
  refine ⟨_, report_eq solver S R h1, hM, fun x => ?_⟩
  have hv : Function.Involutive (Spec.voigt) := by
    intro i; revert i; decide
  have := (h3 fun m => x (Spec.voigt m)).1
  refine this.trans (le_of_eq ?_)
  rw [← Equiv.sum_comp hv.toPerm]
  refine Finset.sum_congr rfl fun m _ => ?_
  rw [← Equiv.sum_comp hv.toPerm]
  change x (Spec.voigt (Spec.voigt m)) * ∑ n, R (Spec.voigt m) (Spec.voigt n) * x (Spec.voigt (Spec.voigt n)) = _
  simp only [hv _, hc]

/-- The homogeneous sample with modulus 3 has no small entries. -/
example : ∀ i j, (isoC6 (3 : ℚ) (1 / 4) false).2 i j ≠ 0 → 1 / 10 ^ 4 ≤ |(isoC6 (3 : ℚ) (1 / 4) false).2 i j| := by decide +kernel

/-- **C97** (violated: units). A homogeneous sample with a modulus of `1e-6` in the units of the input is reported as a zero matrix,
although its upscaled matrix is definite. -/
theorem C97_violated_units (solver : Nat → (Nat → Nat → ℚ) → (Nat → ℚ) → Nat → ℚ) (hX : Exact solver) :
    ∃ S D, Sound S D ∧ (∀ c ∈ S.cells, c.mat = .iso (1 / 10 ^ 6) (1 / 4) 0) ∧
      (∀ m : Fin 6, upscaleCase solver S m = some ((isoC6 (1 / 10 ^ 6) (1 / 4) false).2 m)) ∧
      report solver S = some fun _ _ => 0 := by
  have hS := homogeneous_sound (1 / 10 ^ 6) (by norm_num)
  have hR := C96_homogeneous _ _ hS (by unfold barOf; norm_num) (bar_ties 0 _ _) _ _ _ _ (bar_torus 0 _ _) solver hX
  refine ⟨_, _, hS, fun c hc => ?_, hR, ?_⟩
  · rcases List.mem_cons.mp hc with rfl | hc
    · rfl
    · obtain rfl := List.mem_singleton.mp hc; rfl
  · rw [report_eq solver _ _ hR]
    have : ∀ i j : Fin 6, clamp ((isoC6 (1 / 10 ^ 6 : ℚ) (1 / 4) false).2 i j) = 0 := by decide +kernel
    refine congrArg some (funext fun i => funext fun j => this _ _)

/-- An anisotropic matrix that is positive definite, with entries of very different size. -/
def skewD (i j : Fin 6) : ℚ := if i = j then (if i = 1 then 9 / 10 ^ 5 else 1) else if i.val + j.val = 1 then 5 / 10 ^ 3 else 0

/-- **C97** (violated: definiteness). Replacing small entries by zero can destroy positive semidefiniteness: the sample consists of one
anisotropic material with a positive definite matrix. -/
theorem C97_violated_definite (solver : Nat → (Nat → Nat → ℚ) → (Nat → ℚ) → Nat → ℚ) (hX : Exact solver) :
    ∃ S : Sample ℚ, Sound S (fun _ => skewD) ∧ (∀ e : Fin 6 → ℚ, e ≠ 0 → 0 < ∑ i, e i * ∑ k, skewD i k * e k) ∧
      ∃ (M : Fin 6 → Fin 6 → ℚ) (x : Fin 6 → ℚ), report solver S = some M ∧ ∑ m, x m * ∑ n, M m n * x n < 0 := by
  have hpos : ∀ e : Fin 6 → ℚ, e ≠ 0 → 0 < ∑ i, e i * ∑ k, skewD i k * e k := by
    intro e he
    have e1 : ∑ i, e i * ∑ k, skewD i k * e k = (e 0 + 1 / 200 * e 1) ^ 2 + 13 / 200000 * e 1 ^ 2 + e 2 ^ 2 + e 3 ^ 2 + e 4 ^ 2 + e 5 ^ 2 := by
      simp only [Fin.sum_univ_six]
      have hv : ∀ i j : Fin 6, skewD i j = ![![1, 1 / 200, 0, 0, 0, 0], ![1 / 200, 9 / 100000, 0, 0, 0, 0], ![0, 0, 1, 0, 0, 0],
          ![0, 0, 0, 1, 0, 0], ![0, 0, 0, 0, 1, 0], ![0, 0, 0, 0, 0, 1]] i j := by decide +kernel
      simp only [hv]
      simp
      ring
    rw [e1]
    by_contra hle
    apply he
    have h0 := sq_nonneg (e 0 + 1 / 200 * e 1)
    have h1 := sq_nonneg (e 1)
    have h2 := sq_nonneg (e 2)
    have h3 := sq_nonneg (e 3)
    have h4 := sq_nonneg (e 4)
    have h5 := sq_nonneg (e 5)
    have z1 : e 1 = 0 := by apply pow_eq_zero_iff (two_ne_zero) |>.mp; linarith
    have z2 : e 2 = 0 := by apply pow_eq_zero_iff (two_ne_zero) |>.mp; linarith
    have z3 : e 3 = 0 := by apply pow_eq_zero_iff (two_ne_zero) |>.mp; linarith
    have z4 : e 4 = 0 := by apply pow_eq_zero_iff (two_ne_zero) |>.mp; linarith
    have z5 : e 5 = 0 := by apply pow_eq_zero_iff (two_ne_zero) |>.mp; linarith
    have z0 : e 0 + 1 / 200 * e 1 = 0 := by apply pow_eq_zero_iff (two_ne_zero) |>.mp; linarith
    rw [z1] at z0
    have z0' : e 0 = 0 := by linarith
    funext i
    fin_cases i <;> assumption
  obtain ⟨Cu, hCu⟩ : ∃ Cu : Nat → ℚ, symC6 Cu = skewD := by
    refine ⟨fun k => if k = 0 then 1 else if k = 1 then 5 / 10 ^ 3 else if k = 6 then 9 / 10 ^ 5 else
      if k = 11 ∨ k = 15 ∨ k = 18 ∨ k = 20 then 1 else 0, ?_⟩
    funext i j
    revert i j
    decide +kernel
  have hsc : scale (barOf 0 (.sym Cu) (.sym Cu)) = 1 := by unfold scale barOf; simp
  have hS : Sound (barOf 0 (.sym Cu) (.sym Cu)) fun _ => skewD := by
    refine barOf_sound 0 _ _ _ (fun c hc M => ?_) (fun c hc => by decide +kernel) fun c hc e => ?_
    · have hm : c.mat = .sym Cu := by
        rcases List.mem_cons.mp hc with rfl | hc
        · rfl
        · obtain rfl := List.mem_singleton.mp hc; rfl
      refine ⟨true, ?_⟩
      rw [hm, hsc, ← hCu]
      simp [Material.constitutive]
    · by_cases he : e = 0
      · subst he; simp
      · exact (hpos e he).le
  have hR := C96_homogeneous _ _ hS (by unfold barOf; norm_num) (bar_ties 0 _ _) _ _ _ _ (bar_torus 0 _ _) solver hX
  refine ⟨_, hS, hpos, _, ![1, -200, 0, 0, 0, 0], report_eq solver _ _ hR, ?_⟩
  decide +kernel

end Verif.ElasticUp
