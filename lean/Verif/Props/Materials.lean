import Verif.Model.Materials
import Verif.Spec.Elastic
import Mathlib.Algebra.BigOperators.Fin
import Mathlib.Algebra.Field.Rat
import Mathlib.Algebra.Order.Ring.Unbundled.Rat
import Mathlib.Tactic.Ring
import Mathlib.Tactic.Linarith
import Mathlib.Tactic.Positivity
import Mathlib.Tactic.FieldSimp
import Mathlib.Tactic.FinCases
import Mathlib.Tactic.NormNum
import Mathlib.Tactic.LinearCombination

/-!
Property C43: elastic materials.
-/

namespace Verif.Elastic

open Spec Verif.Upscale

variable {K : Type} [Field K] [LinearOrder K] [IsStrictOrderedRing K]

/-- Matrix with a block of `d` and `o` and a diagonal of `s`. -/
def block6 (d o s : K) (i j : Fin 6) : K :=
  if i.val < 3 ∧ j.val < 3 then (if i = j then d else o) else if i = j then s else 0

omit [LinearOrder K] [IsStrictOrderedRing K] in
theorem block6_mulVec (d o s : K) (e : Fin 6 → K) : (Matrix.of (block6 d o s)).mulVec e =
    ![d * e 0 + o * e 1 + o * e 2, o * e 0 + d * e 1 + o * e 2, o * e 0 + o * e 1 + d * e 2,
      s * e 3, s * e 4, s * e 5] := by
  ext i
  fin_cases i <;> simp [Matrix.mulVec, dotProduct, Fin.sum_univ_six, block6]

omit [LinearOrder K] [IsStrictOrderedRing K] in
theorem block6_mul (d o s d' o' s' : K) : Matrix.of (block6 d o s) * Matrix.of (block6 d' o' s') =
    Matrix.of (block6 (d * d' + 2 * (o * o')) (d * o' + o * d' + o * o') (s * s')) := by
  ext i j
  fin_cases i <;> fin_cases j <;> simp [Matrix.mul_apply, Fin.sum_univ_six, block6] <;> ring

omit [LinearOrder K] [IsStrictOrderedRing K] in
theorem block6_one : Matrix.of (block6 (1 : K) 0 1) = 1 := by
  ext i j
  fin_cases i <;> fin_cases j <;> simp [block6]

/-- Matrix with a block of `d` and `o` and an element `s`. -/
def block3 (d o s : K) (i j : Fin 3) : K :=
  if i.val < 2 ∧ j.val < 2 then (if i = j then d else o) else if i = j then s else 0

omit [LinearOrder K] [IsStrictOrderedRing K] in
theorem block3_mulVec (d o s : K) (e : Fin 3 → K) : (Matrix.of (block3 d o s)).mulVec e =
    ![d * e 0 + o * e 1, o * e 0 + d * e 1, s * e 2] := by
  ext i
  fin_cases i <;> simp [Matrix.mulVec, dotProduct, Fin.sum_univ_three, block3]

omit [LinearOrder K] [IsStrictOrderedRing K] in
theorem block3_mul (d o s d' o' s' : K) : Matrix.of (block3 d o s) * Matrix.of (block3 d' o' s') =
    Matrix.of (block3 (d * d' + o * o') (d * o' + o * d') (s * s')) := by
  ext i j
  fin_cases i <;> fin_cases j <;> simp [Matrix.mul_apply, Fin.sum_univ_three, block3] <;> ring

omit [LinearOrder K] [IsStrictOrderedRing K] in
theorem block3_one : Matrix.of (block3 (1 : K) 0 1) = 1 := by
  ext i j
  fin_cases i <;> fin_cases j <;> simp [block3]

omit [IsStrictOrderedRing K] in
/-- The matrix of an accepted isotropic material. -/
theorem isoC6_eq (E nu : K) (h0 : 0 ≤ nu) (h1 : nu < 1 / 2) :
    isoC6 E nu false = (true, block6 ((1 - nu) * (E / ((1 + nu) * (1 - nu - nu))))
      (nu * (E / ((1 + nu) * (1 - nu - nu)))) ((1 / 2 - nu) * (E / ((1 + nu) * (1 - nu - nu))))) ∧
    isoC6 E nu true = (true, block6 (1 / E) (-nu / E) ((2 + nu + nu) / E)) := by
  unfold isoC6
  rw [if_neg (by push Not; exact ⟨h0, h1⟩), if_neg (by push Not; exact ⟨h0, h1⟩)]
  exact ⟨rfl, rfl⟩

omit [IsStrictOrderedRing K] in
theorem isoC3_eq (E nu : K) (h0 : 0 ≤ nu) (h1 : nu < 1 / 2) :
    isoC3 E nu false (fun _ _ => 0) = (true, block3 ((1 - nu) * (E / ((1 + nu) * (1 - nu - nu))))
      (nu * (E / ((1 + nu) * (1 - nu - nu)))) ((1 / 2 - nu) * (E / ((1 + nu) * (1 - nu - nu))))) ∧
    isoC3 E nu true (fun _ _ => 0) =
      (true, block3 ((1 - nu * nu) / E) ((-nu - nu * nu) / E) ((2 + nu + nu) / E)) := by
  unfold isoC3
  rw [if_neg (by push Not; exact ⟨h0, h1⟩), if_neg (by push Not; exact ⟨h0, h1⟩)]
  exact ⟨rfl, rfl⟩

/-- The Lamé parameters inside the matrix. -/
theorem lame_of (E nu : K) (h0 : 0 ≤ nu) (h1 : nu < 1 / 2) :
    (1 - nu) * (E / ((1 + nu) * (1 - nu - nu))) =
      E * nu / ((1 + nu) * (1 - 2 * nu)) + 2 * (E / (2 * (1 + nu))) ∧
    nu * (E / ((1 + nu) * (1 - nu - nu))) = E * nu / ((1 + nu) * (1 - 2 * nu)) ∧
    (1 / 2 - nu) * (E / ((1 + nu) * (1 - nu - nu))) = E / (2 * (1 + nu)) := by
  have a : (1 + nu) ≠ 0 := by positivity
  have b : 1 - 2 * nu ≠ 0 := by
    intro h; linarith
  obtain ⟨w, hw⟩ : ∃ w, w = 1 - 2 * nu := ⟨_, rfl⟩
  have e1 : 1 - nu - nu = w := by rw [hw]; ring
  have e2 : 1 - nu = nu + w := by rw [hw]; ring
  have e3 : 1 / 2 - nu = w / 2 := by rw [hw]; ring
  rw [← hw] at b ⊢
  rw [e1, e2, e3]
  refine ⟨?_, ?_, ?_⟩ <;> field_simp

/-- C43: an isotropic material with `0 ≤ nu < 1/2` obeys Hooke's law with the Lamé parameters of `E` and `nu`. -/
theorem C43_hooke (E nu : K) (h0 : 0 ≤ nu) (h1 : nu < 1 / 2) :
    ∃ C, isoC6 E nu false = (true, C) ∧ Hooke (E * nu / ((1 + nu) * (1 - 2 * nu))) (E / (2 * (1 + nu))) C := by
  refine ⟨_, (isoC6_eq E nu h0 h1).1, fun e => ?_⟩
  obtain ⟨h1, h2, h3⟩ := lame_of E nu h0 h1
  rw [h1, h2, h3, block6_mulVec]
  ext i
  fin_cases i <;> simp <;> ring

/-- C43: the matrix is symmetric and positive definite. -/
theorem C43_posdef (E nu : K) (hE : 0 < E) (h0 : 0 ≤ nu) (h1 : nu < 1 / 2) :
    ∃ C, isoC6 E nu false = (true, C) ∧ (∀ i j, C i j = C j i) ∧
      ∀ e : Fin 6 → K, e ≠ 0 → 0 < e ⬝ᵥ (Matrix.of C).mulVec e := by
  refine ⟨_, (isoC6_eq E nu h0 h1).1, ?_, fun e he => ?_⟩
  · intro i j
    unfold block6
    simp only [and_comm, eq_comm]
  · have hb : 0 < 1 - nu - nu := by linarith
    have hf : 0 < E / ((1 + nu) * (1 - nu - nu)) := by positivity
    generalize E / ((1 + nu) * (1 - nu - nu)) = f at hf
    have key : e ⬝ᵥ (Matrix.of (block6 ((1 - nu) * f) (nu * f) ((1 / 2 - nu) * f))).mulVec e =
        f * (nu * (e 0 + e 1 + e 2) ^ 2 + (1 - nu - nu) * (e 0 ^ 2 + e 1 ^ 2 + e 2 ^ 2) +
          (1 / 2 - nu) * (e 3 ^ 2 + e 4 ^ 2 + e 5 ^ 2)) := by
      rw [block6_mulVec]
      simp [dotProduct, Fin.sum_univ_six]
      ring
    rw [key]
    apply mul_pos hf
    have h3 : 0 < 1 / 2 - nu := by linarith
    have hd : 0 ≤ nu * (e 0 + e 1 + e 2) ^ 2 := by positivity
    have p1 : 0 ≤ (1 - nu - nu) * (e 0 ^ 2 + e 1 ^ 2 + e 2 ^ 2) := by positivity
    have p2 : 0 ≤ (1 / 2 - nu) * (e 3 ^ 2 + e 4 ^ 2 + e 5 ^ 2) := mul_nonneg h3.le (by positivity)
    obtain ⟨i, hi⟩ := Function.ne_iff.mp he
    have hsq : 0 < e i ^ 2 := by
      have : e i ≠ 0 := hi
      positivity
    have hn : ∀ j, 0 ≤ e j ^ 2 := fun j => sq_nonneg _
    have hcase : 0 < e 0 ^ 2 + e 1 ^ 2 + e 2 ^ 2 ∨ 0 < e 3 ^ 2 + e 4 ^ 2 + e 5 ^ 2 := by
      have n0 := hn 0
      have n1 := hn 1
      have n2 := hn 2
      have n3 := hn 3
      have n4 := hn 4
      have n5 := hn 5
      match i, hsq with
      | 0, hsq => left; linarith
      | 1, hsq => left; linarith
      | 2, hsq => left; linarith
      | 3, hsq => right; linarith
      | 4, hsq => right; linarith
      | 5, hsq => right; linarith
    rcases hcase with h | h
    · have := mul_pos hb h
      linarith
    · have := mul_pos h3 h
      linarith

/-- C43: with the inverse flag the material returns the two-sided inverse. -/
theorem C43_inverse (E nu : K) (hE : E ≠ 0) (h0 : 0 ≤ nu) (h1 : nu < 1 / 2) :
    ∃ C S, isoC6 E nu false = (true, C) ∧ isoC6 E nu true = (true, S) ∧
      Matrix.of C * Matrix.of S = 1 ∧ Matrix.of S * Matrix.of C = 1 := by
  have a : (1 + nu) ≠ 0 := by positivity
  have b' : 1 - nu - nu ≠ 0 := by
    intro h; linarith
  refine ⟨_, _, (isoC6_eq E nu h0 h1).1, (isoC6_eq E nu h0 h1).2, ?_, ?_⟩ <;>
  · rw [block6_mul, ← block6_one]
    congr 2
    · field_simp; ring
    · field_simp; ring
    · field_simp; ring

omit [IsStrictOrderedRing K] in
/-- C43: other Poisson ratios are refused, and nothing but zeros is returned. -/
theorem C43_refused (E nu : K) (inv : Bool) :
    ((isoC6 E nu inv).1 = false ↔ nu < 0 ∨ 1 / 2 ≤ nu) ∧
    ((isoC6 E nu inv).1 = false → (isoC6 E nu inv).2 = fun _ _ => 0) := by
  unfold isoC6
  by_cases h : nu < 0 ∨ nu ≥ 1 / 2
  · rw [if_pos h]
    exact ⟨⟨fun _ => h, fun _ => rfl⟩, fun _ => rfl⟩
  · rw [if_neg h]
    exact ⟨⟨fun hc => by simp at hc, fun hc => absurd hc h⟩, fun hc => by simp at hc⟩

/-- C43, two dimensions: plane strain with the same Lamé parameters, symmetric, and inverted by the inverse flag (given a
zero matrix to fill). -/
theorem C43_plane (E nu : K) (hE : E ≠ 0) (h0 : 0 ≤ nu) (h1 : nu < 1 / 2) :
    ∃ C S, isoC3 E nu false (fun _ _ => 0) = (true, C) ∧ isoC3 E nu true (fun _ _ => 0) = (true, S) ∧
      HookePlane (E * nu / ((1 + nu) * (1 - 2 * nu))) (E / (2 * (1 + nu))) C ∧
      (∀ i j, C i j = C j i) ∧ Matrix.of C * Matrix.of S = 1 ∧ Matrix.of S * Matrix.of C = 1 := by
  have a : (1 + nu) ≠ 0 := by positivity
  have b' : 1 - nu - nu ≠ 0 := by
    intro h; linarith
  refine ⟨_, _, (isoC3_eq E nu h0 h1).1, (isoC3_eq E nu h0 h1).2, fun e => ?_, ?_, ?_, ?_⟩
  · obtain ⟨h1, h2, h3⟩ := lame_of E nu h0 h1
    rw [h1, h2, h3, block3_mulVec]
    ext i
    fin_cases i <;> simp <;> ring
  · intro i j
    unfold block3
    simp only [and_comm, eq_comm]
  · rw [block3_mul, ← block3_one]
    congr 2
    · field_simp; ring
    · field_simp; ring
    · field_simp; ring
  · rw [block3_mul, ← block3_one]
    congr 2
    · field_simp; ring
    · field_simp; ring
    · field_simp; ring

/-! ### rock files -/

/-- `E` and `nu` belong to the Lamé parameters `lam` and `mu`. -/
theorem hooke_of (E nu lam mu : K) (h0 : 0 ≤ nu) (h1 : nu < 1 / 2)
    (hl : E * nu = lam * ((1 + nu) * (1 - 2 * nu))) (hm : E = mu * (2 * (1 + nu))) :
    ∃ C, isoC6 E nu false = (true, C) ∧ Hooke lam mu C := by
  obtain ⟨C, hC, hH⟩ := C43_hooke E nu h0 h1
  have a : (1 + nu) ≠ 0 := by positivity
  have b : 1 - 2 * nu ≠ 0 := by
    intro h; linarith
  refine ⟨C, hC, ?_⟩
  rwa [div_eq_of_eq_mul (mul_ne_zero a b) hl, div_eq_of_eq_mul (mul_ne_zero two_ne_zero a) hm] at hH

/-- C43: bulk and shear modulus. An ordinary material (`3K ≥ 2G`, `G > 0`) obeys Hooke's law with `lam = K - 2G/3` and
`mu = G`. -/
theorem C43_km (k g rho : K) (hg : 0 < g) (hk : 2 * g ≤ 3 * k) :
    ∃ E nu C, createFile (.km k g rho) = .material (.iso E nu rho) ∧ isoC6 E nu false = (true, C) ∧
      Hooke (k - 2 / 3 * g) g C := by
  have hd : 0 < 6 * k + 2 * g := by linarith
  set nu := (3 * k - 2 * g) / (6 * k + 2 * g) with hnu
  have h0 : 0 ≤ nu := div_nonneg (by linarith) hd.le
  have h1 : nu < 1 / 2 := by rw [hnu, div_lt_div_iff₀ hd two_pos]; linarith
  have hmul : nu * (6 * k + 2 * g) = 3 * k - 2 * g := by rw [hnu, div_mul_cancel₀ _ hd.ne']
  have h3 : (3 : K) ≠ 0 := three_ne_zero
  clear_value nu
  obtain ⟨C, hC, hH⟩ := hooke_of (2 * g * (1 + nu)) nu (k - 2 / 3 * g) g h0 h1
    (by field_simp; linear_combination hmul) (by ring)
  refine ⟨2 * g * (1 + nu), nu, C, ?_, hC, hH⟩
  simp only [createFile, fromKM, quot, if_neg hd.ne', Option.map_some, isoOrExit, ← hnu]
  rw [if_neg (by push Not; exact ⟨h0, h1.le⟩)]

/-- C43: velocities. `mu = rho vs²` and `lam + 2 mu = rho vp²`. -/
theorem C43_vpvs (vp vs rho : K) (hr : 0 < rho) (hs : vs ≠ 0) (hp : 2 * vs ^ 2 ≤ vp ^ 2) :
    ∃ E nu C, createFile (.vpvs vp vs rho) = .material (.iso E nu rho) ∧ isoC6 E nu false = (true, C) ∧
      Hooke (rho * vp ^ 2 - 2 * (rho * vs ^ 2)) (rho * vs ^ 2) C := by
  have hg : 0 < rho * vs * vs := by rw [mul_assoc]; exact mul_pos hr (mul_self_pos.mpr hs)
  obtain ⟨E, nu, C, h1, h2, h3⟩ := C43_km (rho * vp * vp - 4 / 3 * rho * vs * vs) (rho * vs * vs) rho hg
    (by nlinarith)
  refine ⟨E, nu, C, h1, h2, ?_⟩
  convert h3 using 1 <;> ring

/-- C43: Lamé parameters, both positive. Missing: `lam = 0` (`C43_violated_lambda_zero`). -/
theorem C43_lm_partial (l g rho : K) (hg : 0 < g) (hl : 0 < l) :
    ∃ E nu C, createFile (.lm l g rho) = .material (.iso E nu rho) ∧ isoC6 E nu false = (true, C) ∧ Hooke l g C := by
  have hd : 0 < 2 * (g + l) := by linarith
  set nu := l / (2 * (g + l)) with hnu
  have hpos : 0 < nu := div_pos hl hd
  have h1 : nu < 1 / 2 := by rw [hnu, div_lt_div_iff₀ hd two_pos]; linarith
  have hmul : nu * (2 * (g + l)) = l := by rw [hnu, div_mul_cancel₀ _ hd.ne']
  obtain ⟨C, hC, hH⟩ := hooke_of ((1 + nu) * (1 - 2 * nu) * l / nu) nu l g hpos.le h1
    (by field_simp) (by field_simp; linear_combination -hmul)
  refine ⟨_, nu, C, ?_, hC, hH⟩
  simp only [createFile, fromLM, quot, if_neg hd.ne', ← hnu, if_neg hpos.ne', Option.map_some, isoOrExit]
  rw [if_neg (by push Not; exact ⟨hpos.le, h1.le⟩)]

/-- C43 is violated for Lamé parameters `(0, mu)`, a valid material with Poisson ratio 0: the modulus is computed as 0/0. -/
theorem C43_violated_lambda_zero (g rho : K) (hg : 0 < g) : createFile (.lm 0 g rho) = .nan := by
  simp [createFile, fromLM, quot, isoOrExit, hg.ne']

/-- C43: Young's modulus and Poisson ratio are used as given. -/
theorem C43_en (E nu rho : K) :
    (0 ≤ nu → nu ≤ 1 / 2 → createFile (.en E nu rho) = .material (.iso E nu rho)) ∧
    (nu < 0 ∨ 1 / 2 < nu → createFile (.en E nu rho) = .exit) := by
  constructor
  · intro h0 h1
    simp only [createFile, isoOrExit]
    rw [if_neg (by push Not; exact ⟨h0, h1⟩)]
  · intro h
    simp only [createFile, isoOrExit]
    rw [if_pos h]

/-- C43: materials with a negative Poisson ratio (`3K < 2G`) are not accepted. -/
theorem C43_km_auxetic (k g rho : K) (hk : 0 < k) (hg : 3 * k < 2 * g) : createFile (.km k g rho) = .exit := by
  have hd : 0 < 6 * k + 2 * g := by linarith
  simp only [createFile, fromKM, quot, if_neg hd.ne', Option.map_some, isoOrExit]
  rw [if_pos (Or.inl (div_neg_of_neg_of_pos (by linarith) hd))]

/-- A material without shear stiffness passes the check of the rock file reader (`nu = 1/2` is not above 1/2) and is
refused later, when the result flag is no longer looked at: its constitutive matrix is zero. -/
theorem C43_violated_fluid (k rho : K) (hk : 0 < k) :
    ∃ E nu, createFile (.km k 0 rho) = .material (.iso E nu rho) ∧ isoC6 E nu false = (false, fun _ _ => 0) := by
  have h : (3 * k) / (6 * k) = 1 / 2 := by
    rw [div_eq_div_iff (by positivity) two_ne_zero]; ring
  refine ⟨0, 1 / 2, ?_, ?_⟩
  · simp [createFile, fromKM, quot, isoOrExit, hk.ne', h]
  · simp [isoC6]

/-! ### other materials -/

omit [LinearOrder K] [IsStrictOrderedRing K] in
/-- C43: a general symmetric material given by the upper triangle of its matrix in Voigt order has that matrix, in the
order of the code. -/
theorem C43_symmetric (M : Fin 6 → Fin 6 → K) (hM : ∀ i j, M i j = M j i) :
    ∃ Cu, mkSym (fun i => (upper M).getD i 0) = .sym Cu ∧ ∀ i j, symC6 Cu i j = M (voigt i) (voigt j) := by
  refine ⟨_, rfl, fun i j => ?_⟩
  fin_cases i <;> fin_cases j <;> first | rfl | exact hM _ _

omit [IsStrictOrderedRing K] in
/-- C43: what the parameter lists give. Nine parameters are the upper triangle of an orthotropic matrix in Voigt order, without its
zeros; 21 the whole upper triangle. -/
theorem C43_create_symmetric (M : Fin 6 → Fin 6 → K) :
    create (upper M) = some (mkSym fun i => (upper M).getD i 0) ∧
    ((∀ i j, i < j → 3 ≤ j → M i j = 0) →
      create [M 0 0, M 0 1, M 0 2, M 1 1, M 1 2, M 2 2, M 3 3, M 4 4, M 5 5] =
        some (mkSym fun i => (upper M).getD i 0)) := by
  refine ⟨rfl, fun h => ?_⟩
  have e1 := h 0 3 (by decide) (by decide)
  have e2 := h 0 4 (by decide) (by decide)
  have e3 := h 0 5 (by decide) (by decide)
  have e4 := h 1 3 (by decide) (by decide)
  have e5 := h 1 4 (by decide) (by decide)
  have e6 := h 1 5 (by decide) (by decide)
  have e7 := h 2 3 (by decide) (by decide)
  have e8 := h 2 4 (by decide) (by decide)
  have e9 := h 2 5 (by decide) (by decide)
  have e10 := h 3 4 (by decide) (by decide)
  have e11 := h 3 5 (by decide) (by decide)
  have e12 := h 4 5 (by decide) (by decide)
  simp only [upper, e1, e2, e3, e4, e5, e6, e7, e8, e9, e10, e11, e12]
  rfl

omit [IsStrictOrderedRing K] in
/-- C43: the transversely isotropic rock file: symmetric about the z axis, with `C12 = a - 2e`. -/
theorem C43_ti (a b c d e rho : K) :
    ∃ Cu, createFile (.ti a b c d e rho) = .material (.sym Cu) ∧
      symC6 Cu = !![a, a - 2 * e, b, 0, 0, 0; a - 2 * e, a, b, 0, 0, 0; b, b, c, 0, 0, 0;
        0, 0, 0, e, 0, 0; 0, 0, 0, 0, d, 0; 0, 0, 0, 0, 0, d] := by
  refine ⟨_, rfl, ?_⟩
  funext i j
  fin_cases i <;> fin_cases j <;> rfl

omit [IsStrictOrderedRing K] in
/-- C43: the density of a material: the one given for an isotropic material, zero for all others. -/
theorem C43_density (m : Material K) : (∀ E nu rho, m = .iso E nu rho → m.density = rho) ∧ ((∀ E nu rho, m ≠ .iso E nu rho) → m.density = 0) := by
  cases m with
  | iso E nu rho => exact ⟨fun _ _ _ h => by cases h; rfl, fun h => absurd rfl (h E nu rho)⟩
  | orthoD E => exact ⟨(fun _ _ _ h => by cases h), fun _ => rfl⟩
  | sym C => exact ⟨(fun _ _ _ h => by cases h), fun _ => rfl⟩

omit [IsStrictOrderedRing K] in
/-- The density given in such a file is lost. -/
theorem C43_violated_density (a b c d e rho : K) (h : rho ≠ 0) :
    ∃ m, createFile (.ti a b c d e rho) = .material m ∧ m.density ≠ rho :=
  ⟨_, rfl, fun hc => h hc.symm⟩

omit [IsStrictOrderedRing K] in
/-- C43: diagonal orthotropic materials, filling a zero matrix: diagonal, with shear moduli defaulting to the previous
one, and inverted by the inverse flag if no modulus is zero. -/
theorem C43_orthotropic (Ex Ey Ez Gxy : K) (Gxz Gyz : K) (hGxy : Gxy ≠ 0) (hx : Ex ≠ 0) (hy : Ey ≠ 0) (hz : Ez ≠ 0) :
    ∃ E S C, mkOrthoD Ex Ey Ez Gxy Gxz Gyz = .orthoD E ∧ orthoDC6 E false (fun _ _ => 0) = (true, C) ∧
      orthoDC6 E true (fun _ _ => 0) = (true, S) ∧ Matrix.of C * Matrix.of S = 1 ∧ Matrix.of S * Matrix.of C = 1 ∧
      Matrix.of C = Matrix.diagonal ![Ex, Ey, Ez, Gxy, if 0 < Gxz then Gxz else Gxy,
        if 0 < Gyz then Gyz else if 0 < Gxz then Gxz else Gxy] := by
  have h4 : (if 0 < Gxz then Gxz else Gxy) ≠ 0 := by split <;> [exact (‹0 < Gxz›).ne'; exact hGxy]
  have h5 : (if 0 < Gyz then Gyz else if 0 < Gxz then Gxz else Gxy) ≠ 0 := by
    split <;> [exact (‹0 < Gyz›).ne'; exact h4]
  set G4 := if 0 < Gxz then Gxz else Gxy with hG4
  set G5 := if 0 < Gyz then Gyz else G4 with hG5
  let v : Fin 6 → K := ![Ex, Ey, Ez, Gxy, G4, G5]
  have hv : ∀ i, v i ≠ 0 := by
    intro i
    fin_cases i
    exacts [hx, hy, hz, hGxy, h4, h5]
  have hE : mkOrthoD Ex Ey Ez Gxy Gxz Gyz = .orthoD v := by
    unfold mkOrthoD
    simp only [Material.orthoD.injEq]
    funext i
    fin_cases i <;> rfl
  have hCd : (Matrix.of (orthoDC6 v false fun _ _ => 0).2) = Matrix.diagonal v := by
    ext i j
    by_cases h : i = j
    · subst h; simp [orthoDC6]
    · simp [orthoDC6, h]
  have hSd : (Matrix.of (orthoDC6 v true fun _ _ => 0).2) = Matrix.diagonal fun i => 1 / v i := by
    ext i j
    by_cases h : i = j
    · subst h; simp [orthoDC6]
    · simp [orthoDC6, h]
  refine ⟨v, _, _, hE, rfl, rfl, ?_, ?_, hCd⟩
  · refine (congrArg₂ (· * ·) hCd hSd).trans ?_
    rw [Matrix.diagonal_mul_diagonal, ← Matrix.diagonal_one]
    congr 1
    funext i
    rw [mul_one_div, div_self (hv i)]
  · refine (congrArg₂ (· * ·) hSd hCd).trans ?_
    rw [Matrix.diagonal_mul_diagonal, ← Matrix.diagonal_one]
    congr 1
    funext i
    rw [one_div_mul_cancel (hv i)]

/-- Only the diagonal is written: a matrix used for another material before keeps its off-diagonal elements. -/
theorem C43_violated_stale :
    (orthoDC6 (fun _ => 1) false (isoC6 (1 : ℚ) (1 / 4) false).2).2 0 1 ≠ 0 := by decide +kernel

/-- C43: the constructors by number of parameters. One to three numbers are modulus, Poisson ratio and density of an isotropic
material (zero if not given); four to six positive numbers are the diagonal `Ex Ey Ez Gxy Gxz Gyz`, missing shear moduli being
those of the previous plane. -/
theorem C43_create (a b c d e f : K) (he : 0 < e) (hf : 0 < f) :
    create [a] = some (.iso a 0 0) ∧ create [a, b] = some (.iso a b 0) ∧ create [a, b, c] = some (.iso a b c) ∧
      create [a, b, c, d] = some (.orthoD ![a, b, c, d, d, d]) ∧
      create [a, b, c, d, e] = some (.orthoD ![a, b, c, d, e, e]) ∧
      create [a, b, c, d, e, f] = some (.orthoD ![a, b, c, d, e, f]) := by
  have h1 : ¬ (0 : K) < -1 := by linarith [zero_lt_one (α := K)]
  refine ⟨rfl, rfl, rfl, ?_, ?_, ?_⟩ <;>
  · unfold create mkOrthoD
    simp only [gt_iff_lt, he, hf, if_true, if_neg h1]
    congr 2
    funext i
    fin_cases i <;> rfl

example : create [30, 20, 10, 4, (3 : ℚ)] = some (.orthoD ![30, 20, 10, 4, 3, 3]) :=
  (C43_create 30 20 10 4 3 1 (by norm_num) (by norm_num)).2.2.2.2.1

omit [IsStrictOrderedRing K] in
/-- C43: other numbers of parameters give no material. -/
theorem C43_create_count (params : List K) : create params = none ↔ params.length ∉ [1, 2, 3, 4, 5, 6, 9, 21] := by
  unfold create
  split <;> simp_all
  rename_i h1 h2 h3 h4 h5 h6 h7
  constructor
  · intro h
    refine ⟨?_, ?_, ?_, ?_, ?_, ?_, ?_, h⟩ <;> intro hl
    · obtain ⟨a, rfl⟩ := List.length_eq_one_iff.mp hl; exact h1 a rfl
    · obtain ⟨a, b, rfl⟩ := List.length_eq_two.mp hl; exact h2 a b rfl
    · obtain ⟨a, b, c, rfl⟩ := List.length_eq_three.mp hl; exact h3 a b c rfl
    · match params, hl with
      | [a, b, c, d], _ => exact h4 a b c d rfl
    · match params, hl with
      | [a, b, c, d, e], _ => exact h5 a b c d e rfl
    · match params, hl with
      | [a, b, c, d, e, f], _ => exact h6 a b c d e f rfl
    · match params, hl with
      | [a, b, c, d, e, f, g, i, j], _ => exact h7 a b c d e f g i j rfl
  · exact fun h => h.2.2.2.2.2.2.2

example : createFile (.km 10 3 2 : RockFile ℚ) = .material (.iso (90 / 11) (4 / 11) 2) ∧
    createFile (.lm 8 3 2 : RockFile ℚ) = .material (.iso (90 / 11) (4 / 11) 2) := by
  constructor <;> norm_num [createFile, fromKM, fromLM, quot, isoOrExit]

/-! ### Instances -/

example := C43_hooke (K := ℚ) 10 (1 / 4) (by norm_num) (by norm_num)
example := C43_posdef (K := ℚ) 10 (1 / 4) (by norm_num) (by norm_num) (by norm_num)
example := C43_inverse (K := ℚ) 10 (1 / 4) (by norm_num) (by norm_num) (by norm_num)
example := C43_plane (K := ℚ) 10 (1 / 4) (by norm_num) (by norm_num) (by norm_num)
example := C43_km (K := ℚ) 5 3 2000 (by norm_num) (by norm_num)
example := C43_vpvs (K := ℚ) 3000 2000 2000 (by norm_num) (by norm_num) (by norm_num)
example := C43_lm_partial (K := ℚ) 5 3 2000 (by norm_num) (by norm_num)
example := C43_km_auxetic (K := ℚ) 1 2 2000 (by norm_num) (by norm_num)
example := C43_symmetric (K := ℚ) (fun i j => (i : ℕ) + (j : ℕ)) (fun i j => add_comm _ _)
example := C43_orthotropic (K := ℚ) 1 2 3 4 (-1) 5 (by norm_num) (by norm_num) (by norm_num) (by norm_num)

end Verif.Elastic
