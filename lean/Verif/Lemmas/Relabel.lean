import Verif.Spec.Relabel
import Verif.Props.SinglePhase
import Mathlib.LinearAlgebra.Matrix.NonsingularInverse

/-! Lemmas for C158: inner product, sides and opposite faces of two descriptions of the same sample. -/

namespace Verif.Mimetic

open Matrix

variable {K : Type} [Field K]

/-- Two orthonormal systems, the first within the range of the second and conversely, have the same projection. -/
theorem projection_unique {n : Nat} (Q Q' : Matrix (Fin n) (Fin 3) K) (h : Qᵀ * Q = 1) (h' : Q'ᵀ * Q' = 1)
    (S S' : Matrix (Fin 3) (Fin 3) K) (e : Q = Q' * S) (e' : Q' = Q * S') : Q * Qᵀ = Q' * Q'ᵀ := by
  have p1 : Q' * Q'ᵀ * (Q * Qᵀ) = Q * Qᵀ := by
    have : Q' * Q'ᵀ * Q = Q := by
      rw [e, Matrix.mul_assoc Q', ← Matrix.mul_assoc Q'ᵀ, h', Matrix.one_mul]
    rw [← Matrix.mul_assoc, this]
  have p2 : Q * Qᵀ * (Q' * Q'ᵀ) = Q' * Q'ᵀ := by
    have : Q * Qᵀ * Q' = Q' := by
      rw [e', Matrix.mul_assoc Q, ← Matrix.mul_assoc Qᵀ, h, Matrix.one_mul]
    rw [← Matrix.mul_assoc, this]
  have := congrArg Matrix.transpose p1
  rw [Matrix.transpose_mul, Matrix.transpose_mul, Matrix.transpose_mul, Matrix.transpose_transpose, Matrix.transpose_transpose, p2] at this
  exact this.symm

/-- The orthonormal basis of a closed cell is a combination of the columns it was made from. -/
theorem basis_of_closed {n : Nat} (g : Cell K 3 n) (Q : Fin n → Fin 3 → K) (h : OrthBasis (cmat g) Q) (hc : Closed g) (hv : g.volume ≠ 0) :
    ∃ R S : Matrix (Fin 3) (Fin 3) K, Matrix.of (cmat g) = Matrix.of Q * R ∧ Matrix.of Q = Matrix.of (cmat g) * S := by
  obtain ⟨-, R, hR⟩ := h
  let C : Matrix (Fin n) (Fin 3) K := Matrix.of (cmat g)
  let N : Matrix (Fin n) (Fin 3) K := Matrix.of fun i d => (g.face i).normal d
  let R' : Matrix (Fin 3) (Fin 3) K := Matrix.of R
  have e1 : C = Matrix.of Q * R' := by
    ext i k
    exact hR i k
  have e2 : Nᵀ * C = g.volume • (1 : Matrix (Fin 3) (Fin 3) K) := by
    ext d k
    rw [Matrix.mul_apply, Matrix.smul_apply, Matrix.one_apply, smul_eq_mul, mul_ite, mul_one, mul_zero, ← hc d k]
    refine Finset.sum_congr rfl fun i _ => ?_
    change (g.face i).normal d * (((g.face i).centroid k - g.centroid k) * (g.face i).area) = _
    ring
  have e3 : (g.volume⁻¹ • (Nᵀ * Matrix.of Q)) * R' = 1 := by
    rw [Matrix.smul_mul, Matrix.mul_assoc, ← e1, e2, smul_smul, inv_mul_cancel₀ hv, one_smul]
  refine ⟨R', g.volume⁻¹ • (Nᵀ * Matrix.of Q), e1, ?_⟩
  change Matrix.of Q = C * _
  rw [e1, Matrix.mul_assoc, mul_eq_one_comm.mp e3, Matrix.mul_one]

theorem inner_relabel {n m : Nat} (g : Cell K 3 n) (g' : Cell K 3 m) (Q : Fin n → Fin 3 → K) (Q' : Fin m → Fin 3 → K)
    (P P' : Fin 3 → Fin 3 → K) (a : K) (ha : a ≠ 0) (t : Fin 3 → K) (π : Equiv.Perm (Fin 3)) (τ : Fin n ≃ Fin m)
    (area : ∀ i, (g'.face (τ i)).area = a ^ 2 * (g.face i).area) (normal : ∀ i k, (g'.face (τ i)).normal (π k) = (g.face i).normal k)
    (face : ∀ i k, (g'.face (τ i)).centroid (π k) = a * (g.face i).centroid k + t k) (cell : ∀ k, g'.centroid (π k) = a * g.centroid k + t k)
    (volume : g'.volume = a ^ 3 * g.volume) (rock : ∀ i j, P' (π i) (π j) = P i j)
    (hQ : OrthBasis (cmat g) Q) (hQ' : OrthBasis (cmat g') Q') (hc : Closed g) (hc' : Closed g') (hv : g.volume ≠ 0) (i j : Fin n) :
    inner g' Q' P' (τ i) (τ j) = a * inner g Q P i j := by
  have hv' : g'.volume ≠ 0 := by rw [volume]; exact mul_ne_zero (pow_ne_zero _ ha) hv
  obtain ⟨R, S, r1, s1⟩ := basis_of_closed g Q hQ hc hv
  obtain ⟨R', S', r2, s2⟩ := basis_of_closed g' Q' hQ' hc' hv'
  -- The second basis with the numbers of the first description.
  let Z : Matrix (Fin n) (Fin 3) K := (Matrix.of Q').submatrix τ id
  have hZ : Zᵀ * Z = 1 := by
    ext k l
    rw [Matrix.mul_apply, Matrix.one_apply, ← hQ'.1 k l]
    exact Equiv.sum_comp τ fun i => Q' i k * Q' i l
  have hQ1 : (Matrix.of Q)ᵀ * Matrix.of Q = 1 := by
    ext k l
    rw [Matrix.mul_apply, Matrix.one_apply, ← hQ.1 k l]
    rfl
  have hC : (Matrix.of (cmat g')).submatrix τ π = a ^ 3 • Matrix.of (cmat g) := by
    ext i k
    change ((g'.face (τ i)).centroid (π k) - g'.centroid (π k)) * (g'.face (τ i)).area = a ^ 3 * (((g.face i).centroid k - g.centroid k) * (g.face i).area)
    rw [face, cell, area]
    ring
  have hC2 : (Matrix.of (cmat g')).submatrix τ id = (a ^ 3 • Matrix.of (cmat g)).submatrix id π.symm := by
    rw [← hC, Matrix.submatrix_submatrix]
    congr 1
    funext k
    exact (π.apply_symm_apply k).symm
  have ha3 : a ^ 3 ≠ 0 := pow_ne_zero _ ha
  have q1 : Z = Matrix.of Q * (a ^ 3 • R.submatrix id π.symm * S') := by
    have : Z = (Matrix.of (cmat g')).submatrix τ id * S' := by
      change (Matrix.of Q').submatrix τ id = _
      rw [s2]
      rfl
    rw [this, hC2, r1, ← Matrix.mul_assoc]
    congr 1
    rw [Matrix.mul_smul, Matrix.submatrix_smul]
    rfl
  have q2 : Matrix.of Q = Z * ((R'.submatrix id π) * ((a ^ 3)⁻¹ • S)) := by
    have : a ^ 3 • Matrix.of (cmat g) = Z * R'.submatrix id π := by
      rw [← hC, r2]
      rfl
    rw [← Matrix.mul_assoc, ← this, Matrix.smul_mul, Matrix.mul_smul, smul_smul, mul_inv_cancel₀ ha3, one_smul]
    exact s1
  have hproj : ∑ k, Q' (τ i) k * Q' (τ j) k = ∑ k, Q i k * Q j k :=
    (congrFun (congrFun (projection_unique (Matrix.of Q) Z hQ1 hZ _ _ q2 q1) i) j).symm
  have hN : ∀ i k, nmat g' (τ i) (π k) = a ^ 2 * nmat g i k := fun i k => by
    unfold nmat
    rw [normal, area]
    ring
  have hfirst : (∑ k, (∑ l, nmat g' (τ i) l * P' l k) * nmat g' (τ j) k) = a ^ 4 * ∑ k, (∑ l, nmat g i l * P l k) * nmat g j k := by
    rw [← Equiv.sum_comp π, Finset.mul_sum]
    refine Finset.sum_congr rfl fun k _ => ?_
    rw [← Equiv.sum_comp π, hN, Finset.sum_mul, Finset.sum_mul, Finset.mul_sum]
    refine Finset.sum_congr rfl fun l _ => ?_
    rw [hN, rock]
    ring
  have htr : trace P' = trace P := by
    unfold trace
    rw [← Equiv.sum_comp π]
    exact Finset.sum_congr rfl fun k _ => rock k k
  unfold inner second
  rw [hproj, hfirst, htr, volume, area, area]
  have hij : (τ i = τ j) ↔ i = j := τ.injective.eq_iff
  simp only [hij]
  field_simp

end Verif.Mimetic

namespace Verif.SinglePhase

variable {K : Type} [Field K] [LinearOrder K] [IsStrictOrderedRing K]

section
variable {I I' : Input K} {lo hi lo' hi' : Fin 3 → K} {side side' : Boundary.Face K → Nat} {a : K} {t : Fin 3 → K} {π : Equiv.Perm (Fin 3)}
  {σ : Fin I.G.nc ≃ Fin I'.G.nc} {τ : (c : Fin I.G.nc) → Fin (I.G.cell c).nf ≃ Fin (I'.G.cell (σ c)).nf}

/-- The faces of the two descriptions. -/
def halfEquiv (σ : Fin I.G.nc ≃ Fin I'.G.nc) (τ : (c : Fin I.G.nc) → Fin (I.G.cell c).nf ≃ Fin (I'.G.cell (σ c)).nf) : Half I.G ≃ Half I'.G :=
  Equiv.sigmaCongr σ τ

omit [IsStrictOrderedRing K] in
theorem half_apply (p : Half I.G) : halfEquiv σ τ p = ⟨σ p.1, τ p.1 p.2⟩ := rfl

omit [IsStrictOrderedRing K] in
theorem nbr_none (h : SameSample I I' a t π σ τ) (p : Half I.G) : (I'.G.face (halfEquiv σ τ p)).nbr = none ↔ (I.G.face p).nbr = none :=
  h.outer p.1 p.2

theorem ip_relabel (h : SameSample I I' a t π σ τ) (s : Sound I) (s' : Sound I') (ht : Tiling I.G) (ht' : Tiling I'.G) (c : Fin I.G.nc)
    (i j : Fin (I.G.cell c).nf) : ipOf I' (σ c) (τ c i) (τ c j) = a * ipOf I c i j := by
  rw [ipOf_cond, ipOf_cond]
  exact Mimetic.inner_relabel (I.G.geo c) (I'.G.geo (σ c)) (I.Q c) (I'.Q (σ c)) (cond I c) (cond I' (σ c)) a h.unit.ne' t π (τ c)
    (h.area c) (h.normal c) (h.face c) (h.cell c) (h.volume c) (h.rock c) (s.basis c) (s'.basis (σ c)) (closed_geo ht c) (closed_geo ht' (σ c))
    (ht.volume c).ne' i j

/-- Sides. -/
theorem side_relabel (h : SameSample I I' a t π σ τ) (hb : FillsBox I.G lo hi side) (hb' : FillsBox I'.G lo' hi' side') (p : Half I.G)
    (hp : (I.G.face p).nbr = none) : ∃ d : Fin 3,
      (side (I.G.bface p) = 2 * d.val ∧ side' (I'.G.bface (halfEquiv σ τ p)) = 2 * (π d).val ∧ lo' (π d) = a * lo d + t d) ∨
      (side (I.G.bface p) = 2 * d.val + 1 ∧ side' (I'.G.bface (halfEquiv σ τ p)) = 2 * (π d).val + 1 ∧ hi' (π d) = a * hi d + t d) := by
  obtain ⟨d, hd⟩ := hb.sides p hp
  obtain ⟨e, he⟩ := hb'.sides _ ((nbr_none h p).mpr hp)
  have hn : ∀ k, (I'.G.face (halfEquiv σ τ p)).normal (π k) = (I.G.face p).normal k := h.normal p.1 p.2
  have hf : ∀ k, (I'.G.face (halfEquiv σ τ p)).centroid (π k) = a * (I.G.face p).centroid k + t k := h.face p.1 p.2
  have h1 : (1 : K) ≠ -1 := by
    intro e
    have : (0 : K) < 1 := one_pos
    linarith
  refine ⟨d, ?_⟩
  rcases hd with ⟨x1, x2, x3⟩ | ⟨x1, x2, x3⟩ <;> rcases he with ⟨y1, y2, y3⟩ | ⟨y1, y2, y3⟩
  · have e1 := hn d
    rw [x3, y3] at e1
    beta_reduce at e1
    rw [if_pos rfl] at e1
    have : π d = e := by
      by_contra hne
      rw [if_neg hne] at e1
      exact one_ne_zero (neg_eq_zero.mp e1.symm)
    subst this
    exact Or.inl ⟨x1, y1, by rw [← y2, ← x2]; exact hf d⟩
  · have e1 := hn d
    rw [x3, y3] at e1
    beta_reduce at e1
    rw [if_pos rfl] at e1
    split at e1
    · exact absurd e1 h1
    · exact absurd e1.symm (neg_ne_zero.mpr one_ne_zero)
  · have e1 := hn d
    rw [x3, y3] at e1
    beta_reduce at e1
    rw [if_pos rfl] at e1
    split at e1
    · exact absurd e1.symm h1
    · exact absurd e1.symm one_ne_zero
  · have e1 := hn d
    rw [x3, y3] at e1
    beta_reduce at e1
    rw [if_pos rfl] at e1
    have : π d = e := by
      by_contra hne
      rw [if_neg hne] at e1
      exact one_ne_zero e1.symm
    subst this
    exact Or.inr ⟨x1, y1, by rw [← y2, ← x2]; exact hf d⟩

theorem side_low (h : SameSample I I' a t π σ τ) (hb : FillsBox I.G lo hi side) (hb' : FillsBox I'.G lo' hi' side') (p : Half I.G)
    (hp : (I.G.face p).nbr = none) (d : Fin 3) :
    (side' (I'.G.bface (halfEquiv σ τ p)) = 2 * (π d).val ↔ side (I.G.bface p) = 2 * d.val) ∧
    (side' (I'.G.bface (halfEquiv σ τ p)) = 2 * (π d).val + 1 ↔ side (I.G.bface p) = 2 * d.val + 1) := by
  obtain ⟨e, he⟩ := side_relabel h hb hb' p hp
  have key : (π e).val = (π d).val ↔ e.val = d.val := by
    rw [← Fin.ext_iff, ← Fin.ext_iff, π.injective.eq_iff]
  rcases he with ⟨x1, x2, -⟩ | ⟨x1, x2, -⟩ <;> rw [x1, x2] <;> constructor <;> constructor <;> intro k <;> omega

theorem ends_relabel (h : SameSample I I' a t π σ τ) (hb : FillsBox I.G lo hi side) (hb' : FillsBox I'.G lo' hi' side') (d : Fin 3) :
    lo' (π d) = a * lo d + t d ∧ hi' (π d) = a * hi d + t d := by
  obtain ⟨p, hp, sp⟩ := hb.ne (2 * d.val) (by omega)
  obtain ⟨q, hq, sq⟩ := hb.ne (2 * d.val + 1) (by omega)
  constructor
  · obtain ⟨e, ⟨x1, -, x3⟩ | ⟨x1, -, x3⟩⟩ := side_relabel h hb hb' p hp
    · obtain rfl : e = d := Fin.ext (by omega)
      exact x3
    · omega
  · obtain ⟨e, ⟨x1, -, x3⟩ | ⟨x1, -, x3⟩⟩ := side_relabel h hb hb' q hq
    · omega
    · obtain rfl : e = d := Fin.ext (by omega)
      exact x3

omit [IsStrictOrderedRing K] in
theorem twin_relabel (h : SameSample I I' a t π σ τ) (ht : Tiling I.G) (ht' : Tiling I'.G) (p : Half I.G) :
    halfEquiv σ τ (twin I.G p) = twin I'.G (halfEquiv σ τ p) := by
  by_cases hp : (I.G.face p).nbr = none
  · rw [twin_none _ _ hp, twin_none _ _ ((nbr_none h p).mpr hp)]
  · have ht1 := (twin_spec ht p hp).1
    refine ((twin_iff ht' _ _).mp ⟨?_, ?_⟩).2
    · exact h.inner p.1 p.2 _ ht1.1
    · exact h.inner _ _ _ ht1.2

theorem image_relabel (h : SameSample I I' a t π σ τ) (hb : FillsBox I.G lo hi side) (hb' : FillsBox I'.G lo' hi' side') (p q : Half I.G)
    (hp : (I.G.face p).nbr = none) (hi : Image I.G side p q) : Image I'.G side' (halfEquiv σ τ p) (halfEquiv σ τ q) := by
  obtain ⟨i1, i2, i3, i4, i5⟩ := hi
  obtain ⟨d, hd⟩ := side_relabel h hb hb' p hp
  obtain ⟨e, he⟩ := side_relabel h hb hb' q i1
  have hde : d = e := by
    refine Fin.ext ?_
    rcases hd with ⟨x1, -⟩ | ⟨x1, -⟩ <;> rcases he with ⟨y1, -⟩ | ⟨y1, -⟩ <;> omega
  subst hde
  refine ⟨(nbr_none h q).mpr i1, ?_, ?_, ?_, fun k hk => ?_⟩
  · rcases hd with ⟨x1, x2, -⟩ | ⟨x1, x2, -⟩ <;> rcases he with ⟨y1, y2, -⟩ | ⟨y1, y2, -⟩ <;> omega
  · rcases hd with ⟨x1, x2, -⟩ | ⟨x1, x2, -⟩ <;> rcases he with ⟨y1, y2, -⟩ | ⟨y1, y2, -⟩ <;> omega
  · refine (h.area p.1 p.2).trans (Eq.trans ?_ (h.area q.1 q.2).symm)
    exact congrArg _ i4
  · have hk' : (π.symm k).val ≠ side (I.G.bface p) / 2 := by
      intro e
      have e1 : side (I.G.bface p) / 2 = d.val := by rcases hd with ⟨x1, -⟩ | ⟨x1, -⟩ <;> omega
      have e2 : π.symm k = d := Fin.ext (e.trans e1)
      have e3 : k = π d := by rw [← e2, π.apply_symm_apply]
      apply hk
      rw [e3]
      rcases hd with ⟨-, x2, -⟩ | ⟨-, x2, -⟩ <;> omega
    have f1 := h.face p.1 p.2 (π.symm k)
    have f2 := h.face q.1 q.2 (π.symm k)
    rw [π.apply_symm_apply] at f1 f2
    refine f1.trans (Eq.trans ?_ f2.symm)
    exact congrArg (fun x => a * x + _) (i5 _ hk')

theorem mate_relabel (h : SameSample I I' a t π σ τ) (ht : Tiling I.G) (ht' : Tiling I'.G) (hb : FillsBox I.G lo hi side)
    (hb' : FillsBox I'.G lo' hi' side') (hs : Suited I lo hi side) (hs' : Suited I' lo' hi' side') (p : Half I.G) :
    halfEquiv σ τ (mateOf I side p) = mateOf I' side' (halfEquiv σ τ p) := by
  have hc := h.conditions
  unfold mateOf
  unfold Suited at hs hs'
  rw [hc] at hs' ⊢
  cases hbc : I.bct with
  | fixed => exact twin_relabel h ht ht' p
  | linear => exact twin_relabel h ht ht' p
  | periodic =>
    rw [hbc] at hs hs'
    dsimp only at hs hs' ⊢
    by_cases hp : (I.G.face p).nbr = none
    · exact image_unique hb' hs'.1 hs'.2.1 ((nbr_none h p).mpr hp) (image_relabel h hb hb' p _ hp (pmate_image hs.2.1 p hp))
        (pmate_image hs'.2.1 _ ((nbr_none h p).mpr hp))
    · unfold pmate
      rw [if_neg hp, if_neg (fun e => hp ((nbr_none h p).mp e))]
      exact twin_relabel h ht ht' p

theorem cnd_relabel (h : SameSample I I' a t π σ τ) (hb : FillsBox I.G lo hi side) (hb' : FillsBox I'.G lo' hi' side') (d : Fin 3) (p : Half I.G)
    (hp : (I.G.face p).nbr = none) : cndOf I' lo' hi' side' (π d) (halfEquiv σ τ p) = cndOf I lo hi side d p := by
  obtain ⟨s1, s2⟩ := side_low h hb hb' p hp d
  unfold cndOf
  rw [h.conditions]
  cases I.bct with
  | fixed =>
    dsimp only
    unfold fixedCnd
    simp only [s1, s2]
  | linear =>
    dsimp only
    unfold linearCnd
    obtain ⟨e1, e2⟩ := ends_relabel h hb hb' d
    have e3 : (I'.G.face (halfEquiv σ τ p)).centroid (π d) = a * (I.G.face p).centroid d + t d := h.face p.1 p.2 d
    rw [e1, e2, e3]
    congr 1
    rw [show a * hi d + t d - (a * (I.G.face p).centroid d + t d) = a * (hi d - (I.G.face p).centroid d) by ring,
      show a * hi d + t d - (a * lo d + t d) = a * (hi d - lo d) by ring, mul_div_mul_left _ _ h.unit.ne']
  | periodic =>
    dsimp only
    unfold periodicCnd
    simp only [s1, s2]

theorem sum_relabel (h : SameSample I I' a t π σ τ) (hb : FillsBox I.G lo hi side) (hb' : FillsBox I'.G lo' hi' side') (f : Half I'.G → K) (d : Fin 3) :
    sideSum I'.G side' f (2 * (π d).val) = sideSum I.G side (fun p => f (halfEquiv σ τ p)) (2 * d.val) ∧
    sideSum I'.G side' f (2 * (π d).val + 1) = sideSum I.G side (fun p => f (halfEquiv σ τ p)) (2 * d.val + 1) := by
  unfold sideSum
  constructor <;>
  · rw [← Equiv.sum_comp (halfEquiv σ τ)]
    refine Finset.sum_congr rfl fun p _ => ?_
    by_cases hp : (I.G.face p).nbr = none
    · simp only [nbr_none h, side_low h hb hb' p hp d]
    · simp only [nbr_none h, hp, false_and]

theorem avg_relabel (h : SameSample I I' a t π σ τ) (hb : FillsBox I.G lo hi side) (hb' : FillsBox I'.G lo' hi' side') (f : Half I'.G → K) (d : Fin 3) :
    avgVel I'.G side' f (π d) = avgVel I.G side (fun p => f (halfEquiv σ τ p)) d / a ^ 2 := by
  have ha : ∀ s, sideSum I.G side (fun p => (I'.G.face (halfEquiv σ τ p)).area) s = a ^ 2 * sideArea I.G side s := by
    intro s
    unfold sideArea sideSum
    rw [Finset.mul_sum]
    refine Finset.sum_congr rfl fun p _ => ?_
    rw [mul_ite, mul_zero]
    exact if_congr Iff.rfl (h.area p.1 p.2) rfl
  unfold avgVel
  rw [(sum_relabel h hb hb' f d).1, (sum_relabel h hb hb' f d).2]
  unfold sideArea
  rw [(sum_relabel h hb hb' _ d).1, (sum_relabel h hb hb' _ d).2, ha, ha]
  have := h.unit.ne'
  unfold sideArea
  field_simp

end

end Verif.SinglePhase
