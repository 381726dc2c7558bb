import Verif.Lemmas.Mimetic
import Mathlib.Tactic.NormNum
import Mathlib.Tactic.FinCases
import Mathlib.Data.Fin.VecNotation
import Mathlib.Algebra.Field.Rat
import Mathlib.Algebra.Order.Ring.Unbundled.Rat

/-!
C36: the mimetic inner product. `Q` is what the LAPACK orthogonalisation returns: orthonormal columns spanning the centroid
matrix (`OrthBasis`); the other hypotheses are about the input geometry and permeability.
-/

namespace Verif.Mimetic

variable {K : Type} [Field K] {dim nf : Nat}

/-- The unit square with the left and the right side split in two faces each. -/
def squareCell : Cell ℚ 2 6 where
  face := ![⟨1/2, ![0, 1/4], ![-1, 0]⟩, ⟨1/2, ![0, 3/4], ![-1, 0]⟩, ⟨1/2, ![1, 1/4], ![1, 0]⟩, ⟨1/2, ![1, 3/4], ![1, 0]⟩,
    ⟨1, ![1/2, 0], ![0, -1]⟩, ⟨1, ![1/2, 1], ![0, 1]⟩]
  centroid := ![1/2, 1/2]
  volume := 1

def squareQ : Fin 6 → Fin 2 → ℚ :=
  ![![-1/2, -1/6], ![-1/2, 1/6], ![1/2, -1/6], ![1/2, 1/6], ![0, -2/3], ![0, 2/3]]

/-- An anisotropic, symmetric, positive definite permeability. -/
def fullPerm : Fin 2 → Fin 2 → ℚ := ![![2, 1], ![1, 3]]

theorem square_closed : Closed squareCell := by
  unfold Closed; decide +kernel

theorem square_orth : OrthBasis (cmat squareCell) squareQ :=
  ⟨by decide +kernel, ![![1/2, 0], ![0, 3/4]], by decide +kernel⟩

theorem fullPerm_symm : Symm fullPerm := by unfold Symm; decide +kernel

theorem fullPerm_posdef : PosDef fullPerm := by
  intro v ⟨i, hi⟩
  have e : quadForm fullPerm v = v 0 ^ 2 + (v 0 + v 1) ^ 2 + 2 * v 1 ^ 2 := by
    simp [quadForm, fullPerm, Fin.sum_univ_two]; ring
  rw [e]
  fin_cases i <;> simp at hi <;> positivity

theorem fullPerm_psd : PosSemi fullPerm := by
  intro v
  have e : quadForm fullPerm v = v 0 ^ 2 + (v 0 + v 1) ^ 2 + 2 * v 1 ^ 2 := by
    simp [quadForm, fullPerm, Fin.sum_univ_two]; ring
  rw [e]; positivity

/-! ### Symmetry and definiteness -/

/-- For symmetric permeability the inverse inner product of any cell is symmetric. -/
theorem C36_symmetric (c : Cell K dim nf) (Q : Fin nf → Fin dim → K) (P : Fin dim → Fin dim → K) (mob : List K)
    (hP : Symm P) : Symm (inverseMatrix (inner c Q P) mob) := by
  have h1 : ∀ i j, (∑ k, (∑ l, nmat c i l * P l k) * nmat c j k) = ∑ k, (∑ l, nmat c j l * P l k) * nmat c i k := by
    intro i j
    simp only [Finset.sum_mul]
    rw [Finset.sum_comm]
    exact Finset.sum_congr rfl fun k _ => Finset.sum_congr rfl fun l _ => by rw [hP l k]; ring
  have h2 : ∀ i j, second c Q i j = second c Q j i := by
    intro i j
    unfold second
    have e : ∑ k, Q i k * Q j k = ∑ k, Q j k * Q i k := Finset.sum_congr rfl fun k _ => by ring
    rw [e]
    by_cases h : i = j
    · rw [h]
    · rw [if_neg h, if_neg (Ne.symm h)]; ring
  intro i j
  unfold inverseMatrix inner
  rw [h1 i j, h2 i j]

example : Symm (inverseMatrix (inner squareCell squareQ fullPerm) [1, 2]) :=
  C36_symmetric _ _ _ _ fullPerm_symm

section Ordered

variable [LinearOrder K] [IsStrictOrderedRing K]

/-- For positive semidefinite permeability, positive cell volume and non-negative total mobility it is positive
semidefinite. -/
theorem C36_psd (c : Cell K dim nf) (Q : Fin nf → Fin dim → K) (P : Fin dim → Fin dim → K) (mob : List K)
    (hQ : OrthBasis (cmat c) Q) (hP : PosSemi P) (hv : 0 < c.volume) (hm : 0 ≤ mob.sum) :
    PosSemi (inverseMatrix (inner c Q P) mob) := by
  intro x
  have e : quadForm (inverseMatrix (inner c Q P) mob) x = quadForm (inner c Q P) x * mob.sum := by
    unfold quadForm inverseMatrix totmob
    rw [← List.sum_eq_foldl, Finset.sum_mul]
    refine Finset.sum_congr rfl fun i _ => ?_
    rw [Finset.sum_mul]
    exact Finset.sum_congr rfl fun j _ => by ring
  rw [e, inner_form c Q hQ.1]
  refine mul_nonneg (add_nonneg (mul_nonneg (by positivity) (hP _)) (mul_nonneg ?_ ?_)) hm
  · have := trace_nonneg hP; positivity
  · exact Finset.sum_nonneg fun i _ => sq_nonneg _

example : PosSemi (inverseMatrix (inner squareCell squareQ fullPerm) [1, 2]) :=
  C36_psd _ _ _ _ square_orth fullPerm_psd (by norm_num [squareCell]) (by norm_num)

/-- On a closed cell with positive volume, non-degenerate faces, positive definite permeability and positive total mobility it
is positive definite: every non-zero pressure difference drives a flux. -/
theorem C36_posdef (c : Cell K dim nf) (Q : Fin nf → Fin dim → K) (P : Fin dim → Fin dim → K) (mob : List K)
    (hQ : OrthBasis (cmat c) Q) (hc : Closed c) (hP : PosDef P) (hd : 0 < dim) (hv : 0 < c.volume)
    (ha : ∀ i, (c.face i).area ≠ 0) (hm : 0 < mob.sum) :
    PosDef (inverseMatrix (inner c Q P) mob) := by
  intro x hx
  have e : quadForm (inverseMatrix (inner c Q P) mob) x = quadForm (inner c Q P) x * mob.sum := by
    unfold quadForm inverseMatrix totmob
    rw [← List.sum_eq_foldl, Finset.sum_mul]
    refine Finset.sum_congr rfl fun i _ => ?_
    rw [Finset.sum_mul]
    exact Finset.sum_congr rfl fun j _ => by ring
  rw [e, inner_form c Q hQ.1]
  refine mul_pos ?_ hm
  have ht := trace_pos hP hd
  have hd' : (0 : K) < dim := by exact_mod_cast hd
  by_cases hw : ∃ k, (fun k => ∑ j, nmat c j k * x j) k ≠ 0
  · refine add_pos_of_pos_of_nonneg (mul_pos (by positivity) (hP _ hw)) (mul_nonneg (by positivity) ?_)
    exact Finset.sum_nonneg fun i _ => sq_nonneg _
  · have hw0 : ∀ k, ∑ j, nmat c j k * x j = 0 := fun k => by_contra fun h => hw ⟨k, h⟩
    have hz : quadForm P (fun k => ∑ j, nmat c j k * x j) = 0 := by
      unfold quadForm; simp [hw0]
    rw [hz, mul_zero, zero_add]
    refine mul_pos (by positivity) (lt_of_le_of_ne (Finset.sum_nonneg fun i _ => sq_nonneg _) (Ne.symm fun h0 => ?_))
    rw [Finset.sum_eq_zero_iff_of_nonneg fun i _ => sq_nonneg _] at h0
    have hy : ∀ i, (c.face i).area * x i = ∑ k, Q i k * ∑ j, Q j k * ((c.face j).area * x j) := fun i =>
      sub_eq_zero.mp (pow_eq_zero_iff (two_ne_zero) |>.mp (h0 i (Finset.mem_univ i)))
    set z : Fin dim → K := fun k => ∑ j, Q j k * ((c.face j).area * x j) with hzdef
    obtain ⟨hQ1, R, hR⟩ := hQ
    replace hR : ∀ i e, (c.face i).area * ((c.face i).centroid e - c.centroid e) = ∑ k, Q i k * R k e :=
      fun i e => by rw [← hR i e]; unfold cmat; ring
    set M : Matrix (Fin dim) (Fin dim) K := fun d k => ∑ i, (c.face i).normal d * Q i k with hM
    set R' : Matrix (Fin dim) (Fin dim) K := R with hR'
    have hMR : M * R' = c.volume • (1 : Matrix (Fin dim) (Fin dim) K) := by
      ext d f
      rw [Matrix.mul_apply, Matrix.smul_apply, Matrix.one_apply]
      have := hc d f
      simp only [smul_eq_mul, mul_ite, mul_one, mul_zero]
      rw [← this]
      simp only [hM, Finset.sum_mul]
      rw [Finset.sum_comm]
      refine Finset.sum_congr rfl fun i _ => ?_
      have h3 := hR i f
      calc _ = (c.face i).normal d * ∑ k, Q i k * R k f := by
            rw [Finset.mul_sum]; exact Finset.sum_congr rfl fun k _ => by ring
        _ = _ := by rw [← h3]; ring
    have hMR' : ((1 / c.volume) • M) * R' = 1 := by
      rw [Matrix.smul_mul, hMR, smul_smul, one_div, inv_mul_cancel₀ hv.ne', one_smul]
    have hRM := mul_eq_one_comm.mp hMR'
    have hMz : M.mulVec z = 0 := by
      funext d
      have := hw0 d
      rw [Matrix.mulVec, dotProduct, Pi.zero_apply]
      rw [← this]
      simp only [hM, Finset.sum_mul]
      rw [Finset.sum_comm]
      refine Finset.sum_congr rfl fun i _ => ?_
      calc _ = (c.face i).normal d * ∑ k, Q i k * z k := by
            rw [Finset.mul_sum]; exact Finset.sum_congr rfl fun k _ => by ring
        _ = _ := by rw [← hy i]; unfold nmat; ring
    have hz0 : z = 0 := by
      have h4 : (1 : Matrix (Fin dim) (Fin dim) K).mulVec z = 0 := by
        rw [← hRM, ← Matrix.mulVec_mulVec, Matrix.smul_mulVec, hMz, smul_zero, Matrix.mulVec_zero]
      rwa [Matrix.one_mulVec] at h4
    obtain ⟨i, hi⟩ := hx
    have h5 := hy i
    rw [Finset.sum_eq_zero fun k _ => by
      rw [show ∑ j, Q j k * ((c.face j).area * x j) = 0 from congrFun hz0 k, mul_zero]] at h5
    exact (mul_ne_zero (ha i) hi) h5

example : PosDef (inverseMatrix (inner squareCell squareQ fullPerm) [1, 2]) :=
  C36_posdef _ _ _ _ square_orth square_closed fullPerm_posdef (by norm_num) (by norm_num [squareCell])
    (by decide +kernel) (by norm_num)

end Ordered

/-! ### Exactness for linear pressure fields -/

theorem inner_centroid (c : Cell K dim nf) (Q : Fin nf → Fin dim → K) (P : Fin dim → Fin dim → K) (g : Fin dim → K)
    (hQ : OrthBasis (cmat c) Q) (hc : Closed c) (hv : c.volume ≠ 0) (i : Fin nf) :
    ∑ j, inner c Q P i j * (∑ k, ((c.face j).centroid k - c.centroid k) * g k) =
      (c.face i).area * ∑ k, (c.face i).normal k * ∑ l, P k l * g l := by
  obtain ⟨hQ1, R, hR⟩ := hQ
  replace hR : ∀ i e, (c.face i).area * ((c.face i).centroid e - c.centroid e) = ∑ k, Q i k * R k e :=
    fun i e => by rw [← hR i e]; unfold cmat; ring
  set x : Fin nf → K := fun j => ∑ k, ((c.face j).centroid k - c.centroid k) * g k with hx
  show ∑ j, inner c Q P i j * x j = _
  rw [inner_apply c Q P x i]
  have h1 : ∀ k, ∑ j, nmat c j k * x j = c.volume * g k := by
    intro k
    have : ∀ j, nmat c j k * x j =
        ∑ e, ((c.face j).area * (c.face j).normal k * ((c.face j).centroid e - c.centroid e)) * g e := by
      intro j
      unfold nmat
      rw [hx, Finset.mul_sum]
      exact Finset.sum_congr rfl fun e _ => by ring
    rw [Finset.sum_congr rfl fun j _ => this j, Finset.sum_comm]
    rw [Finset.sum_congr rfl fun e _ => (Finset.sum_mul _ _ _).symm]
    rw [Finset.sum_congr rfl fun e _ => by rw [hc k e]]
    simp
  have h2 : ∀ j, (c.face j).area * x j = ∑ k, Q j k * ∑ e, R k e * g e := by
    intro j
    have : (c.face j).area * x j = ∑ e, ((c.face j).area * ((c.face j).centroid e - c.centroid e)) * g e := by
      rw [hx, Finset.mul_sum]; exact Finset.sum_congr rfl fun e _ => by ring
    rw [this, Finset.sum_congr rfl fun e _ => by rw [hR j e]]
    simp only [Finset.sum_mul, Finset.mul_sum]
    rw [Finset.sum_comm]
    exact Finset.sum_congr rfl fun k _ => Finset.sum_congr rfl fun e _ => by ring
  have h3 : ∀ k, ∑ j, Q j k * ((c.face j).area * x j) = ∑ e, R k e * g e := by
    intro k
    set r : Fin dim → K := fun k => ∑ e, R k e * g e with hr
    have : ∀ j, Q j k * ((c.face j).area * x j) = ∑ l, (Q j k * Q j l) * r l := by
      intro j; rw [h2 j, Finset.mul_sum]; exact Finset.sum_congr rfl fun l _ => by ring
    rw [Finset.sum_congr rfl fun j _ => this j, Finset.sum_comm]
    rw [Finset.sum_congr rfl fun l _ => (Finset.sum_mul _ _ _).symm]
    rw [Finset.sum_congr rfl fun l _ => by rw [hQ1 k l]]
    simp [hr]
  have h4 : (c.face i).area * x i - ∑ k, Q i k * ∑ j, Q j k * ((c.face j).area * x j) = 0 := by
    rw [Finset.sum_congr rfl fun k _ => by rw [h3 k], ← h2 i, sub_self]
  rw [h4, mul_zero, mul_zero, add_zero]
  simp only [h1]
  rw [Finset.mul_sum, Finset.mul_sum]
  refine Finset.sum_congr rfl fun l _ => ?_
  have : ∑ k, P l k * (c.volume * g k) = c.volume * ∑ k, P l k * g k := by
    rw [Finset.mul_sum]; exact Finset.sum_congr rfl fun k _ => by ring
  rw [this]
  unfold nmat
  field_simp

/-- Exactness: on a closed cell of non-zero volume, the fluxes that the inverse inner product produces from the cell and face
pressures of any linear pressure field are the fluxes of the constant Darcy velocity, times the total mobility. -/
theorem C36_exact (c : Cell K dim nf) (Q : Fin nf → Fin dim → K) (P : Fin dim → Fin dim → K) (mob : List K)
    (hQ : OrthBasis (cmat c) Q) (hc : Closed c) (hv : c.volume ≠ 0) (p0 : K) (g : Fin dim → K) (i : Fin nf) :
    ∑ j, inverseMatrix (inner c Q P) mob i j *
        (linearPressure p0 g c.centroid - linearPressure p0 g (c.face j).centroid) =
      mob.sum * darcyFlux (c.face i) P g := by
  have h := inner_centroid c Q P g hQ hc hv i
  unfold darcyFlux
  rw [← h, ← Finset.sum_neg_distrib, Finset.mul_sum]
  refine Finset.sum_congr rfl fun j _ => ?_
  unfold inverseMatrix totmob
  rw [← List.sum_eq_foldl]
  have : linearPressure p0 g c.centroid - linearPressure p0 g (c.face j).centroid =
      -∑ k, ((c.face j).centroid k - c.centroid k) * g k := by
    unfold linearPressure
    rw [add_sub_add_left_eq_sub, ← Finset.sum_sub_distrib, ← Finset.sum_neg_distrib]
    exact Finset.sum_congr rfl fun k _ => by ring
  rw [this]; ring

/-- On the square with total mobility 3: a pressure of gradient `(1, 0)` drives the velocity `-(2, 1)`. -/
example : (List.finRange 6).map (fun i => ∑ j, inverseMatrix (inner squareCell squareQ fullPerm) [1, 2] i j *
    (linearPressure 7 ![1, 0] squareCell.centroid - linearPressure 7 ![1, 0] (squareCell.face j).centroid)) =
      [3, 3, -3, -3, 3, -3] := by
  decide +kernel

/-! ### Mobility and gravity -/

/-- The matrix is linear in the total mobility: it only depends on the sum of the phase mobilities, and scaling all of them
scales it. -/
theorem C36_mobility (B : Fin nf → Fin nf → K) (mob mob' : List K) (s : K) (h : mob'.sum = s * mob.sum) (i j : Fin nf) :
    inverseMatrix B mob' i j = s * inverseMatrix B mob i j := by
  unfold inverseMatrix totmob
  rw [← List.sum_eq_foldl, ← List.sum_eq_foldl, h]; ring

example : inverseMatrix (fun _ _ => (5 : ℚ)) [2, 4] (0 : Fin 1) (0 : Fin 1) =
    2 * inverseMatrix (fun _ _ => 5) [1, 2] (0 : Fin 1) (0 : Fin 1) := C36_mobility _ _ _ 2 (by norm_num) _ _

theorem foldl_pairs (l : List (K × K)) (a : K) :
    l.foldl (fun a p => a + p.1 * p.2) a = a + (l.map fun p => p.1 * p.2).sum := by
  induction l generalizing a with
  | nil => simp
  | cons p l ih => rw [List.foldl_cons, ih, List.map_cons, List.sum_cons]; ring

/-- Gravity is consistent with the inner product: with `omega` the mobility weighted mean density, the matrix applied to the
gravity term is the gravity flux `(∑ rho_p mob_p) area n . K g` on every closed cell. -/
theorem C36_gravity [DecidableEq K] (c : Cell K dim nf) (Q : Fin nf → Fin dim → K) (P : Fin dim → Fin dim → K)
    (rho mob : List K) (om : K) (hQ : OrthBasis (cmat c) Q) (hc : Closed c) (hv : c.volume ≠ 0) (g : Fin dim → K)
    (ho : omega rho mob = some om) (i : Fin nf) :
    ∑ j, inverseMatrix (inner c Q P) mob i j * gravityTerm c g om j = gravityFlux c P g rho mob i ∧
      gravityFlux c P g rho mob i = -((rho.zip mob).map fun p => p.1 * p.2).sum * darcyFlux (c.face i) P g := by
  unfold omega at ho
  by_cases h0 : totmob mob = 0
  · rw [if_pos h0] at ho; cases ho
  rw [if_neg h0] at ho
  cases ho
  have hg : gflux c P g i = (c.face i).area * ∑ k, (c.face i).normal k * ∑ l, P k l * g l := by
    unfold gflux nmat
    rw [Finset.mul_sum]; exact Finset.sum_congr rfl fun k _ => by ring
  constructor
  · unfold gravityFlux
    rw [hg, ← inner_centroid c Q P g hQ hc hv i, Finset.sum_mul]
    refine Finset.sum_congr rfl fun j _ => ?_
    unfold inverseMatrix gravityTerm
    field_simp
  · unfold gravityFlux darcyFlux mobDens
    rw [hg, foldl_pairs]; ring

example : omega [(1000 : ℚ), 800] [1, 3] = some 850 := by decide +kernel

/-! ### Tensor mobilities -/

theorem lam_fold (l : List (Fin dim → Fin dim → K)) (a : Fin dim → Fin dim → K) (i j : Fin dim) :
    (l.foldl (fun a m => fun i j => a i j + m i j) a) i j = a i j + (l.map fun m => m i j).sum := by
  induction l generalizing a with
  | nil => simp
  | cons m l ih => rw [List.foldl_cons, ih, List.map_cons, List.sum_cons]; ring

/-- The tensor version: the effective permeability is the sum of the phase mobility tensors times the permeability, and the
resulting inner product is exact for linear pressure fields with it. -/
theorem C36_aniso_exact (c : Cell K dim nf) (Q : Fin nf → Fin dim → K) (P : Fin dim → Fin dim → K)
    (pmob : List (Fin dim → Fin dim → K)) (hQ : OrthBasis (cmat c) Q) (hc : Closed c) (hv : c.volume ≠ 0) (p0 : K)
    (g : Fin dim → K) (i : Fin nf) :
    ∑ j, inner c Q (lambdaK P pmob) i j *
        (linearPressure p0 g c.centroid - linearPressure p0 g (c.face j).centroid) =
      darcyFlux (c.face i) (fun k l => ∑ m, (pmob.map fun t => t k m).sum * P m l) g := by
  have h := C36_exact c Q (lambdaK P pmob) [1] hQ hc hv p0 g i
  have e : lambdaK P pmob = fun k l => ∑ m, (pmob.map fun t => t k m).sum * P m l := by
    funext k l
    unfold lambdaK
    exact Finset.sum_congr rfl fun m _ => by rw [lam_fold, zero_add]
  rw [← e]
  unfold inverseMatrix totmob at h
  simpa using h

/-- With tensor mobilities the matrix is symmetric whenever mobility times permeability is (for instance isotropic mobility,
or a diagonal permeability). -/
theorem C36_aniso_symmetric_partial (c : Cell K dim nf) (Q : Fin nf → Fin dim → K) (P : Fin dim → Fin dim → K)
    (pmob : List (Fin dim → Fin dim → K)) (h : Symm (lambdaK P pmob)) : Symm (inner c Q (lambdaK P pmob)) := by
  intro i j
  have := C36_symmetric c Q (lambdaK P pmob) [1] h i j
  unfold inverseMatrix totmob at this
  simpa using this

example : Symm (lambdaK ![![2, 0], ![0, 3]] [![![1, 0], ![0, 2]], ![![3, 0], ![0, (1 : ℚ)]]]) := by
  unfold Symm; decide +kernel

/-- A deviation: symmetric positive definite mobility and permeability are not enough. With the full tensor above and
mobility `diag(1, 2)` the inverse inner product of the square is not symmetric, whatever `Q` is. -/
theorem C36_violated_aniso : Symm fullPerm ∧ PosDef fullPerm ∧
    ∀ Q, inner squareCell Q (lambdaK fullPerm [![![1, 0], ![0, 2]]]) 2 5 ≠
      inner squareCell Q (lambdaK fullPerm [![![1, 0], ![0, 2]]]) 5 2 := by
  refine ⟨fullPerm_symm, fullPerm_posdef, fun Q h => ?_⟩
  have h2 : second squareCell Q 2 5 = second squareCell Q 5 2 := by
    unfold second
    have e : ∑ k, Q 2 k * Q 5 k = ∑ k, Q 5 k * Q 2 k := Finset.sum_congr rfl fun k _ => by ring
    rw [e, if_neg (by decide), if_neg (by decide)]; ring
  unfold inner at h
  rw [h2, add_left_inj] at h
  revert h
  decide +kernel

/-- Isotropic mobilities give the same matrix and the same gravity flux in both evaluators. -/
theorem C36_aniso_isotropic (c : Cell K dim nf) (Q : Fin nf → Fin dim → K) (P : Fin dim → Fin dim → K) (g : Fin dim → K)
    (ph : List (K × K)) (i j : Fin nf) :
    inner c Q (lambdaK P (ph.map fun p => fun a b => if a = b then p.2 else 0)) i j =
        inverseMatrix (inner c Q P) (ph.map Prod.snd) i j ∧
      gravityFluxAniso c P g (ph.map fun p => (p.1, fun a b => if a = b then p.2 else 0)) i =
        gravityFlux c P g (ph.map Prod.fst) (ph.map Prod.snd) i := by
  have hl : lambdaK P (ph.map fun p => fun a b => if a = b then p.2 else 0) =
      fun k l => (ph.map Prod.snd).sum * P k l := by
    funext k l
    unfold lambdaK
    simp only [lam_fold, zero_add, List.map_map]
    rw [Finset.sum_eq_single k]
    · congr 2
      exact List.map_congr_left fun p _ => by simp
    · intro b _ hb
      have : (ph.map ((fun m : Fin dim → Fin dim → K => m k b) ∘ fun p => fun a b => if a = b then p.2 else 0)) =
          ph.map fun _ => 0 := List.map_congr_left fun p _ => by simp [Ne.symm hb]
      rw [this]; simp
    · simp
  have hd : ∀ (l : List (K × K)) (a : Fin dim → K) (k : Fin dim),
      ((l.map fun p => (p.1, fun a b => if a = b then p.2 else 0)).foldl
        (fun (a : Fin dim → K) (p : K × (Fin dim → Fin dim → K)) =>
          fun i => a i + p.1 * ∑ k, p.2 i k * ∑ l, P k l * g l) a) k =
        a k + ((l.map fun p => p.1 * p.2).sum) * ∑ l, P k l * g l := by
    intro l
    induction l with
    | nil => intro a k; simp
    | cons p l ih =>
      intro a k
      rw [List.map_cons, List.foldl_cons, ih, List.map_cons, List.sum_cons]
      simp only [ite_mul, zero_mul, Finset.sum_ite_eq, Finset.mem_univ, if_true]
      ring
  constructor
  · rw [hl]
    unfold inverseMatrix totmob inner trace
    rw [← List.sum_eq_foldl]
    set s := (ph.map Prod.snd).sum
    have e1 : ∀ l k, nmat c i l * (s * P l k) = s * (nmat c i l * P l k) := fun l k => by ring
    have e2 : (∑ k, (∑ l, nmat c i l * (s * P l k)) * nmat c j k) = s * ∑ k, (∑ l, nmat c i l * P l k) * nmat c j k := by
      simp only [e1, ← Finset.mul_sum, mul_assoc]
    rw [e2, ← Finset.mul_sum]; ring
  · unfold gravityFluxAniso gravityFlux gflux dynKg mobDens
    rw [foldl_pairs, List.zip_map, List.map_map, Finset.sum_mul]
    refine Finset.sum_congr rfl fun k _ => ?_
    rw [hd]
    have : (List.map ((fun p : K × K => p.1 * p.2) ∘ Prod.map Prod.fst Prod.snd) (ph.zip ph)).sum =
        (ph.map fun p => p.1 * p.2).sum := by
      clear hl hd
      induction ph with
      | nil => rfl
      | cons p l ih => simp only [List.zip_cons_cons, List.map_cons, List.sum_cons]; rw [ih]; rfl
    rw [this]; ring

example : (List.finRange 6).map (fun i => gravityFluxAniso squareCell fullPerm ![0, -10]
    [(2, ![![1, 0], ![0, 1]]), (1, ![![3, 0], ![0, 3]])] i) = [25, 25, -25, -25, 150, -150] := by
  decide +kernel

end Verif.Mimetic
