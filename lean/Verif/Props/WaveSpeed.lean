import Verif.Spec.WaveSpeed
import Mathlib.LinearAlgebra.Matrix.Determinant.Basic
import Mathlib.LinearAlgebra.Matrix.ToLinearEquiv
import Mathlib.Algebra.BigOperators.Fin
import Mathlib.Analysis.Matrix.Spectrum
import Mathlib.Algebra.Polynomial.Roots
import Mathlib.Tactic.FinCases
import Mathlib.Tactic.Linarith
import Mathlib.Tactic.Ring

/-!
C128: wave speeds of an elastic tensor.
-/

namespace Verif.Wave

open Spec Verif.ElasticUp

/-- C128. The direction is a unit vector, for all angles; dip 90 degrees is the vertical, dip 0 and azimuth 0 the x-direction. -/
theorem C128_direction (φ θ : ℝ) : Unit3 (dir φ θ) ∧ norm (dir φ θ) = 1 ∧ dir (Real.pi / 2) θ = ![0, 0, 1] ∧ dir 0 0 = ![1, 0, 0] := by
  have h : Unit3 (dir φ θ) := by
    unfold Unit3 dir
    simp only [Matrix.cons_val_zero, Matrix.cons_val_one, Matrix.cons_val]
    have h1 := Real.sin_sq_add_cos_sq φ
    have h2 := Real.sin_sq_add_cos_sq θ
    nlinarith
  refine ⟨h, by unfold norm; rw [h]; exact Real.sqrt_one, ?_, ?_⟩
  · funext i; fin_cases i <;> simp [dir]
  · funext i; fin_cases i <;> simp [dir]

/-- C128. For a unit vector the matrix is that of Christoffel: entry (i,k) is the sum of the tensor's components (i,j,k,l) times the components j and l of the direction. -/
theorem C128_christoffel (C : Fin 6 → Fin 6 → ℝ) (n : Fin 3 → ℝ) (h : Unit3 n) (i k : Fin 3) :
    christoffel C n i k = ∑ j : Fin 3, ∑ l : Fin 3, C (voigt i j) (voigt k l) * n j * n l := by
  have hn : norm n = 1 := by unfold norm; rw [h]; exact Real.sqrt_one
  unfold christoffel dMat
  rw [hn]
  fin_cases i <;> fin_cases k <;> simp [Fin.sum_univ_succ, voigt] <;> ring

/-! ### Spectra -/

theorem spectrum_perm (a b c x y z : ℝ) (h : ∀ t : ℝ, (a - t) * (b - t) * (c - t) = (x - t) * (y - t) * (z - t)) : [a, b, c].Perm [x, y, z] := by
  have hp : ((([a, b, c] : Multiset ℝ).map fun r => Polynomial.X - Polynomial.C r).prod) = ((([x, y, z] : Multiset ℝ).map fun r => Polynomial.X - Polynomial.C r).prod) := by
    apply Polynomial.funext
    intro t
    have := h t
    simp [Polynomial.eval_mul, Polynomial.eval_sub, Polynomial.eval_X, Polynomial.eval_C]
    linear_combination -this
  have := congrArg Polynomial.roots hp
  rw [Polynomial.roots_multiset_prod_X_sub_C, Polynomial.roots_multiset_prod_X_sub_C] at this
  exact Multiset.coe_eq_coe.mp this

/-- The sorted spectrum does not depend on the order in which eigenvalues are found. -/
theorem sorted_spectrum {E : Fin 3 → Fin 3 → ℝ} {l m : List ℝ} (hl : IsSpectrum E l) (hm : IsSpectrum E m) :
    l.insertionSort (· ≥ ·) = m.insertionSort (· ≥ ·) := by
  obtain ⟨a, b, c, rfl, h1⟩ := hl
  obtain ⟨x, y, z, rfl, h2⟩ := hm
  have hp := spectrum_perm a b c x y z (fun t => (h1 t).symm.trans (h2 t))
  have s1 := List.pairwise_insertionSort (r := (· ≥ · : ℝ → ℝ → Prop)) [a, b, c]
  have s2 := List.pairwise_insertionSort (r := (· ≥ · : ℝ → ℝ → Prop)) [x, y, z]
  exact ((List.perm_insertionSort _ _).trans (hp.trans (List.perm_insertionSort _ _).symm)).eq_of_pairwise (fun _ _ _ _ h1 h2 => le_antisymm h2 h1) s1 s2

/-- C128. The result has three speeds, the fastest first, each the root of an eigenvalue of the Christoffel matrix divided by the density, and every eigenvalue is used. -/
theorem C128_speeds (eig : (Fin 3 → Fin 3 → ℝ) → List ℝ) (C : Fin 6 → Fin 6 → ℝ) (φ θ ρ : ℝ) (hρ : 0 < ρ) (he : IsSpectrum (christoffel C (dir φ θ)) (eig (christoffel C (dir φ θ)))) :
    ∃ a b c, a ≥ b ∧ b ≥ c ∧ IsSpectrum (christoffel C (dir φ θ)) [a, b, c] ∧ waveSpeeds eig C φ θ ρ = [Real.sqrt (a / ρ), Real.sqrt (b / ρ), Real.sqrt (c / ρ)] ∧
      Real.sqrt (a / ρ) ≥ Real.sqrt (b / ρ) ∧ Real.sqrt (b / ρ) ≥ Real.sqrt (c / ρ) := by
  have hs : IsSpectrum (christoffel C (dir φ θ)) ((eig (christoffel C (dir φ θ))).insertionSort (· ≥ ·)) := by
    obtain ⟨a, b, c, hl, h⟩ := he
    rw [hl]
    have hp := List.perm_insertionSort (· ≥ ·) [a, b, c]
    obtain ⟨x, y, z, hxyz⟩ : ∃ x y z, [a, b, c].insertionSort (· ≥ ·) = [x, y, z] := List.length_eq_three.mp hp.length_eq
    refine ⟨x, y, z, hxyz, fun t => ?_⟩
    rw [h t]
    rw [hxyz] at hp
    have := (hp.map fun r => r - t).prod_eq
    simp only [List.map_cons, List.map_nil, List.prod_cons, List.prod_nil, mul_one] at this
    linear_combination -this
  obtain ⟨a, b, c, hl, h⟩ := hs
  have hsort := List.pairwise_insertionSort (r := (· ≥ · : ℝ → ℝ → Prop)) (eig (christoffel C (dir φ θ)))
  rw [hl] at hsort
  simp only [List.pairwise_cons, List.mem_cons, List.not_mem_nil, or_false, forall_eq_or_imp, forall_eq] at hsort
  refine ⟨a, b, c, hsort.1.1, hsort.2.1, ⟨a, b, c, rfl, h⟩, by unfold waveSpeeds; rw [hl]; rfl, ?_, ?_⟩
  · exact Real.sqrt_le_sqrt (div_le_div_of_nonneg_right hsort.1.1 hρ.le)
  · exact Real.sqrt_le_sqrt (div_le_div_of_nonneg_right hsort.2.1 hρ.le)

theorem isotropic_entry (lam mu : ℝ) (n : Fin 3 → ℝ) (h : Unit3 n) (i k : Fin 3) :
    christoffel (isotropic lam mu) n i k = (lam + mu) * n i * n k + if i = k then mu else 0 := by
  rw [C128_christoffel _ n h]
  unfold Unit3 at h
  fin_cases i <;> fin_cases k <;> simp [Fin.sum_univ_succ, voigt, isotropic] <;> first | linear_combination mu * h | ring

theorem isotropic_spectrum (lam mu : ℝ) (n : Fin 3 → ℝ) (h : Unit3 n) : IsSpectrum (christoffel (isotropic lam mu) n) [lam + 2 * mu, mu, mu] := by
  refine ⟨_, _, _, rfl, fun t => ?_⟩
  rw [Matrix.det_fin_three]
  simp only [Matrix.of_apply, isotropic_entry lam mu n h]
  simp
  unfold Unit3 at h
  linear_combination (lam + mu) * (mu - t) ^ 2 * h

/-- C128. In an isotropic material the speeds are, for every direction, the root of (λ+2μ)/ρ and twice that of μ/ρ. -/
theorem C128_isotropic (eig : (Fin 3 → Fin 3 → ℝ) → List ℝ) (lam mu φ θ ρ : ℝ) (h : 0 ≤ lam + mu) (he : ∀ E, (∃ l, IsSpectrum E l) → IsSpectrum E (eig E)) :
    waveSpeeds eig (isotropic lam mu) φ θ ρ = [Real.sqrt ((lam + 2 * mu) / ρ), Real.sqrt (mu / ρ), Real.sqrt (mu / ρ)] := by
  have hs := isotropic_spectrum lam mu _ (C128_direction φ θ).1
  unfold waveSpeeds
  rw [sorted_spectrum (he _ ⟨_, hs⟩) hs]
  have : [lam + 2 * mu, mu, mu].insertionSort (· ≥ ·) = [lam + 2 * mu, mu, mu] := by
    apply List.Pairwise.insertionSort_eq
    simp
    linarith
  rw [this]
  rfl

/-- C128. A direction and its opposite have the same speeds. -/
theorem C128_opposite (eig : (Fin 3 → Fin 3 → ℝ) → List ℝ) (C : Fin 6 → Fin 6 → ℝ) (φ θ ρ : ℝ) : waveSpeeds eig C (-φ) (θ + Real.pi) ρ = waveSpeeds eig C φ θ ρ := by
  have hd : dir (-φ) (θ + Real.pi) = fun i => - dir φ θ i := by
    funext i; fin_cases i <;> simp [dir]
  have : christoffel C (dir (-φ) (θ + Real.pi)) = christoffel C (dir φ θ) := by
    funext i k
    rw [C128_christoffel _ _ (C128_direction _ _).1, C128_christoffel _ _ (C128_direction _ _).1, hd]
    apply Finset.sum_congr rfl; intro j _
    apply Finset.sum_congr rfl; intro l _
    ring
  unfold waveSpeeds
  rw [this]

/-- C128. For a symmetric tensor the three eigenvalues exist and are real, in every direction. -/
theorem C128_real (C : Fin 6 → Fin 6 → ℝ) (hC : ∀ a b, C a b = C b a) (φ θ : ℝ) : ∃ l, IsSpectrum (christoffel C (dir φ θ)) l := by
  have hE : ∀ i k, christoffel C (dir φ θ) i k = christoffel C (dir φ θ) k i := by
    intro i k
    rw [C128_christoffel _ _ (C128_direction _ _).1, C128_christoffel _ _ (C128_direction _ _).1, Finset.sum_comm]
    apply Finset.sum_congr rfl; intro j _
    apply Finset.sum_congr rfl; intro l _
    rw [hC]; ring
  have hH : (Matrix.of (christoffel C (dir φ θ))).IsHermitian := by
    ext i j
    simp [Matrix.conjTranspose_apply, hE j i]
  refine ⟨_, hH.eigenvalues 0, hH.eigenvalues 1, hH.eigenvalues 2, rfl, fun t => ?_⟩
  have h1 := congrArg (Polynomial.eval t) hH.charpoly_eq
  rw [Matrix.eval_charpoly, Polynomial.eval_prod, Fin.prod_univ_three] at h1
  simp only [Polynomial.eval_sub, Polynomial.eval_X, Polynomial.eval_C] at h1
  rw [Matrix.det_fin_three] at h1 ⊢
  simp at h1 ⊢
  linear_combination -h1

theorem eigenvector {E : Fin 3 → Fin 3 → ℝ} {l : List ℝ} (h : IsSpectrum E l) (a : ℝ) (ha : a ∈ l) : ∃ v : Fin 3 → ℝ, v ≠ 0 ∧ ∀ i, ∑ j, E i j * v j = a * v i := by
  obtain ⟨x, y, z, rfl, hd⟩ := h
  have h0 : Matrix.det (Matrix.of fun i j => E i j - if i = j then a else 0) = 0 := by
    rw [hd a]
    simp only [List.mem_cons, List.not_mem_nil, or_false] at ha
    rcases ha with rfl | rfl | rfl <;> ring
  obtain ⟨v, hv, hm⟩ := Matrix.exists_mulVec_eq_zero_iff.mpr h0
  refine ⟨v, hv, fun i => ?_⟩
  have := congrFun hm i
  simp only [Matrix.mulVec, dotProduct, Matrix.of_apply, Pi.zero_apply] at this
  have e : ∑ j, (E i j - if i = j then a else 0) * v j = ∑ j, E i j * v j - a * v i := by
    simp only [sub_mul, Finset.sum_sub_distrib, ite_mul, zero_mul, Finset.sum_ite_eq, Finset.mem_univ, if_true]
  rw [e] at this
  linarith

/-- C128. If the strain energy is positive, all eigenvalues are positive: three real, positive speeds. -/
theorem C128_positive (eig : (Fin 3 → Fin 3 → ℝ) → List ℝ) (C : Fin 6 → Fin 6 → ℝ) (hC : Positive C) (φ θ ρ : ℝ) (hρ : 0 < ρ)
    (he : IsSpectrum (christoffel C (dir φ θ)) (eig (christoffel C (dir φ θ)))) : (∀ a ∈ eig (christoffel C (dir φ θ)), 0 < a) ∧ ∀ v ∈ waveSpeeds eig C φ θ ρ, 0 < v := by
  have hpos : ∀ a ∈ eig (christoffel C (dir φ θ)), 0 < a := by
    intro a ha
    obtain ⟨v, hv, hE⟩ := eigenvector he a ha
    set n := dir φ θ with hn
    have hu : Unit3 n := (C128_direction φ θ).1
    set e : Fin 6 → ℝ := ![n 0 * v 0, n 1 * v 1, n 2 * v 2, n 2 * v 1 + n 1 * v 2, n 2 * v 0 + n 0 * v 2, n 1 * v 0 + n 0 * v 1] with hedef
    have hne : e ≠ 0 := by
      intro h0
      have g0 : n 0 * v 0 = 0 := congrFun h0 0
      have g1 : n 1 * v 1 = 0 := congrFun h0 1
      have g2 : n 2 * v 2 = 0 := congrFun h0 2
      have g3 : n 2 * v 1 + n 1 * v 2 = 0 := congrFun h0 3
      have g4 : n 2 * v 0 + n 0 * v 2 = 0 := congrFun h0 4
      have g5 : n 1 * v 0 + n 0 * v 1 = 0 := congrFun h0 5
      apply hv
      have hv0 : v 0 = 0 := by
        have : v 0 * (n 0 * n 0 + n 1 * n 1 + n 2 * n 2) = 0 := by linear_combination n 0 * g0 + n 1 * g5 - n 0 * g1 + n 2 * g4 - n 0 * g2
        rw [show n 0 * n 0 + n 1 * n 1 + n 2 * n 2 = 1 from hu, mul_one] at this
        exact this
      have hv1 : v 1 = 0 := by
        have : v 1 * (n 0 * n 0 + n 1 * n 1 + n 2 * n 2) = 0 := by linear_combination n 1 * g1 + n 0 * g5 - n 1 * g0 + n 2 * g3 - n 1 * g2
        rw [show n 0 * n 0 + n 1 * n 1 + n 2 * n 2 = 1 from hu, mul_one] at this
        exact this
      have hv2 : v 2 = 0 := by
        have : v 2 * (n 0 * n 0 + n 1 * n 1 + n 2 * n 2) = 0 := by linear_combination n 2 * g2 + n 0 * g4 - n 2 * g0 + n 1 * g3 - n 2 * g1
        rw [show n 0 * n 0 + n 1 * n 1 + n 2 * n 2 = 1 from hu, mul_one] at this
        exact this
      funext i
      fin_cases i <;> assumption
    have henergy := hC e hne
    have hform : ∑ p, ∑ q, e p * C p q * e q = ∑ i, v i * ∑ j, christoffel C n i j * v j := by
      simp only [C128_christoffel C n hu, Fin.sum_univ_succ, voigt, hedef]
      simp
      ring
    rw [hform] at henergy
    simp only [hE] at henergy
    have e2 : ∑ i, v i * (a * v i) = a * ∑ i, v i * v i := by
      rw [Finset.mul_sum]; apply Finset.sum_congr rfl; intro i _; ring
    rw [e2] at henergy
    have hvv : 0 ≤ ∑ i, v i * v i := Finset.sum_nonneg fun i _ => mul_self_nonneg _
    by_contra hle
    have : a * ∑ i, v i * v i ≤ 0 := mul_nonpos_of_nonpos_of_nonneg (not_lt.mp hle) hvv
    linarith
  refine ⟨hpos, fun v hv => ?_⟩
  unfold waveSpeeds at hv
  obtain ⟨a, ha, rfl⟩ := List.mem_map.mp hv
  exact Real.sqrt_pos.mpr (div_pos (hpos a ((List.perm_insertionSort _ _).mem_iff.mp ha)) hρ)

/-! ### The driver -/

/-- C128. If the printed matrix does not change when the shear rows yz and xy are exchanged, the speeds that the driver reports are those of the printed matrix, but not divided by the root of the density. -/
theorem C128_driver (eig : (Fin 3 → Fin 3 → ℝ) → List ℝ) (C : Fin 6 → Fin 6 → ℝ) (hs : driverMatrix C = C) (dip azimuth ρ : ℝ) (hρ : 0 < ρ) :
    ∃ l, driverSpeeds eig C dip azimuth ρ = some l ∧ waveSpeeds eig (driverMatrix C) dip azimuth ρ = l.map fun v => v / Real.sqrt ρ := by
  refine ⟨waveSpeeds eig C dip azimuth 1, if_pos (by linarith), ?_⟩
  rw [hs]
  unfold waveSpeeds
  rw [List.map_map]
  apply List.map_congr_left
  intro a _
  simp only [Function.comp, div_one]
  exact Real.sqrt_div' a hρ.le

theorem isotropic_swap (lam mu : ℝ) : driverMatrix (isotropic lam mu) = isotropic lam mu := by
  funext i j
  fin_cases i <;> fin_cases j <;> simp [driverMatrix, isotropic, swap35]

/-- C128. The speeds are reported for density one: wrong for every isotropic material with another density. -/
theorem C128_violated_density (eig : (Fin 3 → Fin 3 → ℝ) → List ℝ) (he : ∀ E, (∃ l, IsSpectrum E l) → IsSpectrum E (eig E)) (lam mu dip azimuth ρ : ℝ) (h : 0 ≤ lam + mu) (hmu : 0 < mu) (hρ : 0 < ρ) (h1 : ρ ≠ 1) :
    driverSpeeds eig (isotropic lam mu) dip azimuth ρ ≠ some (waveSpeeds eig (driverMatrix (isotropic lam mu)) dip azimuth ρ) := by
  intro hc
  unfold driverSpeeds at hc
  rw [if_pos (by linarith), isotropic_swap, C128_isotropic eig lam mu _ _ _ h he, C128_isotropic eig lam mu _ _ _ h he] at hc
  have h2 := (List.cons.inj (List.cons.inj (Option.some.inj hc)).2).1
  rw [div_one, Real.sqrt_inj hmu.le (div_nonneg hmu.le hρ.le)] at h2
  apply h1
  rw [eq_div_iff hρ.ne'] at h2
  exact mul_left_cancel₀ hmu.ne' (by linarith)

/-- A matrix with entries on the diagonal only. -/
def diag6 (d : Fin 6 → ℝ) (i j : Fin 6) : ℝ := if i = j then d i else 0

theorem diag_spectrum (d : Fin 6 → ℝ) : IsSpectrum (christoffel (diag6 d) (dir 0 0)) [d 0, d 5, d 4] := by
  have hd : dir 0 0 = ![1, 0, 0] := (C128_direction 0 0).2.2.2
  have hu : Unit3 (dir 0 0) := (C128_direction 0 0).1
  refine ⟨_, _, _, rfl, fun t => ?_⟩
  rw [Matrix.det_fin_three]
  simp only [Matrix.of_apply, C128_christoffel _ _ hu]
  rw [hd]
  simp [Fin.sum_univ_succ, voigt, diag6]

/-- C128. The speeds are computed before the rows are brought into Voigt order: a tensor with three shear moduli, density one. The driver reports 2, √2, 1; the printed matrix has speeds 2, √3, √2. -/
theorem C128_violated_order (eig : (Fin 3 → Fin 3 → ℝ) → List ℝ) (he : ∀ E, (∃ l, IsSpectrum E l) → IsSpectrum E (eig E)) :
    ∃ C : Fin 6 → Fin 6 → ℝ, Positive C ∧ driverSpeeds eig C 0 0 1 = some [Real.sqrt 4, Real.sqrt 2, Real.sqrt 1] ∧ waveSpeeds eig (driverMatrix C) 0 0 1 = [Real.sqrt 4, Real.sqrt 3, Real.sqrt 2] := by
  refine ⟨diag6 ![4, 4, 4, 3, 2, 1], ?_, ?_, ?_⟩
  · intro e he
    have h1 : ∑ a, ∑ b, e a * diag6 ![4, 4, 4, 3, 2, 1] a b * e b = 4 * e 0 ^ 2 + 4 * e 1 ^ 2 + 4 * e 2 ^ 2 + 3 * e 3 ^ 2 + 2 * e 4 ^ 2 + 1 * e 5 ^ 2 := by
      simp [Fin.sum_univ_succ, diag6]
      ring
    rw [h1]
    by_contra hle
    apply he
    funext i
    fin_cases i <;> simp <;> nlinarith [sq_nonneg (e 0), sq_nonneg (e 1), sq_nonneg (e 2), sq_nonneg (e 3), sq_nonneg (e 4), sq_nonneg (e 5)]
  · unfold driverSpeeds waveSpeeds
    rw [if_pos (by norm_num)]
    have hs := diag_spectrum ![4, 4, 4, 3, 2, 1]
    rw [sorted_spectrum (he _ ⟨_, hs⟩) hs]
    simp
    norm_num [List.orderedInsert]
  · have hm : driverMatrix (diag6 ![4, 4, 4, 3, 2, 1]) = diag6 ![4, 4, 4, 1, 2, 3] := by
      funext i j
      fin_cases i <;> fin_cases j <;> simp [driverMatrix, diag6, swap35]
    unfold waveSpeeds
    rw [hm]
    have hs := diag_spectrum ![4, 4, 4, 1, 2, 3]
    rw [sorted_spectrum (he _ ⟨_, hs⟩) hs]
    simp
    norm_num [List.orderedInsert]

/-! ### Hypotheses are met -/

/-- The hypotheses on `eig` can be met: choose a spectrum where there is one. -/
example : ∃ eig : (Fin 3 → Fin 3 → ℝ) → List ℝ, ∀ E, (∃ l, IsSpectrum E l) → IsSpectrum E (eig E) := by
  classical
  exact ⟨fun E => if h : ∃ l, IsSpectrum E l then h.choose else [], fun E h => by simp only [dif_pos h]; exact h.choose_spec⟩

/-- An isotropic tensor has positive energy for λ ≥ 0, μ > 0: hypotheses of the theorems above are met, in all directions. -/
example (φ θ : ℝ) : Positive (isotropic 2 1) ∧ IsSpectrum (christoffel (isotropic 2 1) (dir φ θ)) [2 + 2 * 1, 1, 1] := by
  refine ⟨?_, isotropic_spectrum 2 1 _ (C128_direction φ θ).1⟩
  intro e he
  have h1 : ∑ a, ∑ b, e a * isotropic 2 1 a b * e b = 2 * (e 0 + e 1 + e 2) ^ 2 + 2 * e 0 ^ 2 + 2 * e 1 ^ 2 + 2 * e 2 ^ 2 + e 3 ^ 2 + e 4 ^ 2 + e 5 ^ 2 := by
    simp [Fin.sum_univ_succ, isotropic]
    ring
  rw [h1]
  by_contra hle
  apply he
  funext i
  fin_cases i <;> simp <;> nlinarith [sq_nonneg (e 0 + e 1 + e 2), sq_nonneg (e 0), sq_nonneg (e 1), sq_nonneg (e 2), sq_nonneg (e 3), sq_nonneg (e 4), sq_nonneg (e 5)]

end Verif.Wave
