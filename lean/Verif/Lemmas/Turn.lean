import Verif.Spec.Turn
import Verif.Lemmas.Laminate

/-! Turned elastic samples: strains and energies. -/

namespace Verif.ElasticUp

open Verif.Elastic Verif.Asm

variable {K : Type} [Field K]

theorem turn_pair {Q : Fin 3 → Fin 3 → K} (hQ : Rotation Q) (A H : Fin 3 → Fin 3 → K) :
    ∑ d, ∑ e, turn Q A d e * turn Q H d e = ∑ d, ∑ e, A d e * H d e := by
  have h1 : ∑ d, ∑ e, turn Q A d e * turn Q H d e = ((Matrix.of Q * Matrix.of A * (Matrix.of Q).transpose) *
      (Matrix.of Q * Matrix.of H * (Matrix.of Q).transpose).transpose).trace := by
    simp only [Matrix.trace, Matrix.diag, Matrix.mul_apply, Matrix.transpose_apply, Matrix.of_apply, turn]
    refine Finset.sum_congr rfl fun d _ => Finset.sum_congr rfl fun e _ => ?_
    simp only [Fin.sum_univ_three]
    ring
  have hq : (Matrix.of Q).transpose * Matrix.of Q = 1 := by
    ext d e
    rw [Matrix.mul_apply, Matrix.one_apply]
    exact hQ.orth d e
  rw [h1]
  have h2 : (Matrix.of Q * Matrix.of A * (Matrix.of Q).transpose) * (Matrix.of Q * Matrix.of H * (Matrix.of Q).transpose).transpose =
      Matrix.of Q * (Matrix.of A * (Matrix.of H).transpose) * (Matrix.of Q).transpose := by
    simp only [Matrix.transpose_mul, Matrix.transpose_transpose]
    calc _ = Matrix.of Q * Matrix.of A * ((Matrix.of Q).transpose * Matrix.of Q) * (Matrix.of H).transpose * (Matrix.of Q).transpose := by
            simp only [Matrix.mul_assoc]
      _ = _ := by rw [hq, Matrix.mul_one]; simp only [Matrix.mul_assoc]
  rw [h2, Matrix.trace_mul_comm, ← Matrix.mul_assoc, hq, Matrix.one_mul]
  simp only [Matrix.trace, Matrix.diag, Matrix.mul_apply, Matrix.transpose_apply, Matrix.of_apply]

theorem strain_sym [CharZero K] (x : Fin 6 → K) : Spec.strain3 (sym3 x) = x := by
  funext i
  fin_cases i <;> simp [Spec.strain3, sym3]

theorem strain_turn [CharZero K] (Q H : Fin 3 → Fin 3 → K) : Spec.strain3 (turn Q H) = turnStrain Q (Spec.strain3 H) := by
  funext i
  fin_cases i <;> simp [turnStrain, Spec.strain3, sym3, turn, Fin.sum_univ_three] <;> ring

theorem turnStrain_add (Q : Fin 3 → Fin 3 → K) (x y : Fin 6 → K) (i : Fin 6) :
    turnStrain Q (fun i => x i + y i) i = turnStrain Q x i + turnStrain Q y i := by
  fin_cases i <;> simp [turnStrain, Spec.strain3, sym3, turn, Fin.sum_univ_three] <;> ring

theorem turn_back {Q : Fin 3 → Fin 3 → K} (hQ : Rotation Q) (H : Fin 3 → Fin 3 → K) : turn Q (turn (fun d e => Q e d) H) = H := by
  have hq : Matrix.of Q * (Matrix.of Q).transpose = 1 := by
    ext d e
    rw [Matrix.mul_apply, Matrix.one_apply]
    exact hQ.orth' d e
  have h1 : Matrix.of (turn Q (turn (fun d e => Q e d) H)) =
      Matrix.of Q * ((Matrix.of Q).transpose * Matrix.of H * Matrix.of Q) * (Matrix.of Q).transpose := by
    ext d e
    simp only [Matrix.mul_apply, Matrix.transpose_apply, Matrix.of_apply, turn]
    simp only [Fin.sum_univ_three]
    ring
  have h2 : Matrix.of Q * ((Matrix.of Q).transpose * Matrix.of H * Matrix.of Q) * (Matrix.of Q).transpose = Matrix.of H := by
    calc _ = (Matrix.of Q * (Matrix.of Q).transpose) * Matrix.of H * (Matrix.of Q * (Matrix.of Q).transpose) := by
            simp only [Matrix.mul_assoc]
      _ = _ := by rw [hq, Matrix.one_mul, Matrix.mul_one]
  funext d e
  exact congrFun (congrFun (h1.trans h2) d) e

theorem turnStrain_back [CharZero K] {Q : Fin 3 → Fin 3 → K} (hQ : Rotation Q) (x : Fin 6 → K) :
    turnStrain Q (turnStrain (fun d e => Q e d) x) = x := by
  unfold turnStrain
  have h := strain_turn Q (turn (fun d e => Q e d) (sym3 x))
  rw [turn_back hQ, strain_sym] at h
  exact h.symm

/-- Work of a stress does not depend on the axes. -/
theorem turn_work [CharZero K] {Q : Fin 3 → Fin 3 → K} (hQ : Rotation Q) {D D' : Fin 6 → Fin 6 → K} (hD : TurnedMatrix Q D D') (x y : Fin 6 → K) :
    ∑ i, turnStrain Q y i * ∑ j, D' i j * turnStrain Q x j = ∑ i, y i * ∑ j, D i j * x j := by
  have h1 : ∀ (M : Fin 6 → Fin 6 → K) (z : Fin 6 → K) (H : Fin 3 → Fin 3 → K), ∑ i, Spec.strain3 H i * ∑ j, M i j * z j =
      ∑ d, ∑ e, stressOf M z d e * H d e := by
    intro M z H
    refine Eq.trans ?_ (strain_pair (fun i => ∑ j, M i j * z j) H)
    exact Finset.sum_congr rfl fun i _ => mul_comm _ _
  have h2 : ∑ i, y i * ∑ j, D i j * x j = ∑ d, ∑ e, stressOf D x d e * sym3 y d e := by
    rw [← h1, strain_sym]
  rw [h2, ← turn_pair hQ, ← hD x, ← h1]
  rfl

theorem grad_zero (F : List (Shape.Linear K 3)) (hF : Shape.p1Set 3 = some F) (x : Fin 3 → K) (k : Fin 3) :
    ∑ f ∈ Finset.range 8, refGrad F x f k = 0 := by
  obtain ⟨g0, g1, g2⟩ := grad_mono F hF x fun _ => 1
  simp only [one_mul, mono] at g0 g1 g2
  fin_cases k
  · refine g0.trans ?_; ring
  · refine g1.trans ?_; ring
  · refine g2.trans ?_; ring

/-- Derivatives of the shape functions. -/
theorem grad_bits (F : List (Shape.Linear K 3)) (hF : Shape.p1Set 3 = some F) (x : Fin 3 → K) (f : Nat) (hf : f < 8) (k : Fin 3) :
    refGrad F x f k = (if f.testBit k then 1 else -1) * ∏ j ∈ Finset.univ.erase k, (if f.testBit j then x j else 1 - x j) := by
  rw [shapes_eq] at hF
  obtain rfl := Option.some.inj hF
  have h0 : (Finset.univ : Finset (Fin 3)).erase 0 = {1, 2} := by decide
  have h1 : (Finset.univ : Finset (Fin 3)).erase 1 = {0, 2} := by decide
  have h2 : (Finset.univ : Finset (Fin 3)).erase 2 = {0, 1} := by decide
  have key : ∀ g : Fin 8, refGrad ((List.range 8).map fun i => (⟨fun j => (Shape.table0 3).getD (i * 3 + j) 0,
      fun j => (Shape.table1 3).getD (i * 3 + j) 0⟩ : Shape.Linear K 3)) x g.val k =
      (if g.val.testBit k then 1 else -1) * ∏ j ∈ Finset.univ.erase k, (if g.val.testBit j then x j else 1 - x j) := by
    intro g
    fin_cases g <;> fin_cases k
    all_goals
      simp only [refGrad, List.range_succ, List.range_zero, List.nil_append, List.map_append,
        List.map_cons, List.map_nil, List.cons_append, List.getElem?_cons_zero, List.getElem?_cons_succ, Shape.grad_eq,
        Fin.prod_univ_three]
      simp [Shape.table0, Shape.table1, h0, h1, h2, Nat.testBit]
      try first | ring1 | exact .inl (by ring1)
  exact key ⟨f, hf⟩

/-- New number of a vertex. -/
def Local.tau (φ : Local) (f : Nat) : Nat :=
  (if f.testBit (φ.axis 0) != φ.down 0 then 1 else 0) + (if f.testBit (φ.axis 1) != φ.down 1 then 2 else 0) +
    (if f.testBit (φ.axis 2) != φ.down 2 then 4 else 0)

theorem tau_lt (φ : Local) (f : Nat) : φ.tau f < 8 := by
  unfold Local.tau
  split <;> split <;> split <;> decide

theorem tau_bits (φ : Local) (f : Nat) (k : Fin 3) : (φ.tau f).testBit k = (f.testBit (φ.axis k) != φ.down k) := by
  unfold Local.tau
  generalize h : (fun k => f.testBit (φ.axis k) != φ.down k) = g
  have h0 : (f.testBit (φ.axis 0) != φ.down 0) = g 0 := congrFun h 0
  have h1 : (f.testBit (φ.axis 1) != φ.down 1) = g 1 := congrFun h 1
  have h2 : (f.testBit (φ.axis 2) != φ.down 2) = g 2 := congrFun h 2
  have hk : (f.testBit (φ.axis k) != φ.down k) = g k := congrFun h k
  rw [h0, h1, h2, hk]
  clear h h0 h1 h2 hk
  revert g k
  decide

theorem bits_eq (f g : Nat) (hf : f < 8) (hg : g < 8) (h : ∀ k : Fin 3, f.testBit k = g.testBit k) : f = g := by
  have : ∀ f g : Fin 8, (∀ k : Fin 3, f.val.testBit k = g.val.testBit k) → f = g := by decide
  exact Fin.mk.inj (this ⟨f, hf⟩ ⟨g, hg⟩ h)

theorem tau_inj (φ : Local) : Set.InjOn φ.tau (Finset.range 8 : Finset Nat) := by
  intro f hf g hg h
  refine bits_eq f g (Finset.mem_range.mp hf) (Finset.mem_range.mp hg) fun k => ?_
  have h1 := tau_bits φ f (φ.axis.symm k)
  have h2 := tau_bits φ g (φ.axis.symm k)
  rw [h, h2, Equiv.apply_symm_apply] at h1
  revert h1
  cases f.testBit k <;> cases g.testBit k <;> cases φ.down (φ.axis.symm k) <;> decide

/-- Sign of a direction. -/
def Local.sign (φ : Local) (k : Fin 3) : K := if φ.down k then -1 else 1

theorem sign_sq (φ : Local) (k : Fin 3) : φ.sign k * φ.sign k = (1 : K) := by
  unfold Local.sign
  split <;> ring

theorem grad_tau (F : List (Shape.Linear K 3)) (hF : Shape.p1Set 3 = some F) (φ : Local) (x : Fin 3 → K) (f : Nat) (hf : f < 8)
    (k : Fin 3) : refGrad F (φ.point x) (φ.tau f) k = φ.sign k * refGrad F x f (φ.axis k) := by
  rw [grad_bits F hF _ _ (tau_lt φ f), grad_bits F hF _ _ hf, ← mul_assoc]
  have h1 : (if (φ.tau f).testBit k = true then (1 : K) else -1) = φ.sign k * (if f.testBit (φ.axis k) = true then 1 else -1) := by
    rw [tau_bits]
    unfold Local.sign
    cases f.testBit (φ.axis k) <;> cases φ.down k <;> simp
  rw [h1]
  congr 1
  refine Finset.prod_equiv φ.axis (fun j => by simp) fun j _ => ?_
  rw [tau_bits]
  unfold Local.point
  cases f.testBit (φ.axis j) <;> cases φ.down j <;> simp

/-- Derivatives in the new numbering. -/
theorem sum_tau (F : List (Shape.Linear K 3)) (hF : Shape.p1Set 3 = some F) (φ : Local) (x : Fin 3 → K) (b : Nat → K) (k : Fin 3) :
    ∑ f ∈ Finset.range 8, b f * refGrad F (φ.point x) f k = φ.sign k * ∑ f ∈ Finset.range 8, b (φ.tau f) * refGrad F x f (φ.axis k) := by
  have hmaps : Set.MapsTo φ.tau (Finset.range 8 : Finset Nat) (Finset.range 8 : Finset Nat) := fun f _ => by
    simpa using tau_lt φ f
  have h := Finset.sum_nbij (s := Finset.range 8) (t := Finset.range 8) φ.tau (f := fun f => b (φ.tau f) * refGrad F (φ.point x) (φ.tau f) k)
    (g := fun f => b f * refGrad F (φ.point x) f k) (fun f hf => hmaps hf) (tau_inj φ)
    (Finset.surjOn_of_injOn_of_card_le _ hmaps (tau_inj φ) le_rfl) fun f _ => rfl
  rw [← h, Finset.mul_sum]
  refine Finset.sum_congr rfl fun f hf => ?_
  rw [grad_tau F hF φ x f (Finset.mem_range.mp hf)]
  ring

theorem turn_jacobian (F : List (Shape.Linear K 3)) (hF : Shape.p1Set 3 = some F) (X X' : Nat → Fin 3 → K) (c c' : Cell K)
    (Q : Fin 3 → Fin 3 → K) (l : K) (o : Fin 3 → K) (φ : Local)
    (h : ∀ f < 8, ∀ d, X' (c'.vertex.getD (φ.tau f) 0) d = l * ∑ e, Q d e * X (c.vertex.getD f 0) e + o d) (x : Fin 3 → K) (d k : Fin 3) :
    jacobian F X' c' (φ.point x) d k = l * ∑ e, Q d e * (φ.sign k * jacobian F X c x e (φ.axis k)) := by
  unfold jacobian
  rw [sum_tau F hF φ x (fun f => X' (c'.vertex.getD f 0) d) k]
  have h1 : ∀ f ∈ Finset.range 8, X' (c'.vertex.getD (φ.tau f) 0) d * refGrad F x f (φ.axis k) =
      l * ∑ e, Q d e * (X (c.vertex.getD f 0) e * refGrad F x f (φ.axis k)) + o d * refGrad F x f (φ.axis k) := by
    intro f hf
    rw [h f (Finset.mem_range.mp hf) d]
    simp only [Fin.sum_univ_three]
    ring
  rw [Finset.sum_congr rfl h1, Finset.sum_add_distrib, ← Finset.mul_sum, ← Finset.mul_sum, grad_zero F hF, mul_zero, add_zero,
    Finset.sum_comm]
  simp only [Finset.mul_sum]
  refine Finset.sum_congr rfl fun e _ => Finset.sum_congr rfl fun f _ => by ring

/-- The matrix of a numbering of the vertices has determinant 1 or -1, as has a rotation. -/
theorem turn_det {Q : Fin 3 → Fin 3 → K} (hQ : Rotation Q) (l : K) (φ : Local) (J J' : Fin 3 → Fin 3 → K)
    (h : ∀ d k, J' d k = l * ∑ e, Q d e * (φ.sign k * J e (φ.axis k))) :
    ∃ q : K, q * q = 1 ∧ (Matrix.of J').det = q * (l ^ 3 * (Matrix.of J).det) := by
  let P : Matrix (Fin 3) (Fin 3) K := fun j k => if j = φ.axis k then φ.sign k else 0
  have hP : P.transpose * P = 1 := by
    ext a b
    rw [Matrix.mul_apply, Matrix.one_apply]
    have : ∀ j, P.transpose a j * P j b = if j = φ.axis a then (if a = b then 1 else 0) else 0 := by
      intro j
      change (if j = φ.axis a then φ.sign a else 0) * (if j = φ.axis b then φ.sign b else 0) = _
      by_cases h1 : j = φ.axis a
      · by_cases h2 : a = b
        · subst h2
          simp only [h1, if_true]
          exact sign_sq φ a
        · have : φ.axis a ≠ φ.axis b := fun h => h2 (φ.axis.injective h)
          simp [h1, h2]
      · simp [h1]
    simp only [this]
    simp
  have h1 : Matrix.of J' = l • (Matrix.of Q * (Matrix.of J * P)) := by
    ext d k
    rw [Matrix.smul_apply, Matrix.mul_apply]
    refine (h d k).trans (congrArg (l * ·) (Finset.sum_congr rfl fun e _ => congrArg (Q d e * ·) ?_))
    rw [Matrix.mul_apply]
    have : ∀ j, Matrix.of J e j * P j k = if j = φ.axis k then φ.sign k * J e j else 0 := by
      intro j
      change J e j * (if j = φ.axis k then φ.sign k else 0) = _
      split <;> ring
    simp only [this]
    simp
  have hq : (Matrix.of Q).transpose * Matrix.of Q = 1 := by
    ext d e
    rw [Matrix.mul_apply, Matrix.one_apply]
    exact hQ.orth d e
  have d1 := congrArg Matrix.det hP
  have d2 := congrArg Matrix.det hq
  rw [Matrix.det_mul, Matrix.det_transpose, Matrix.det_one] at d1 d2
  refine ⟨(Matrix.of Q).det * P.det, ?_, ?_⟩
  · linear_combination (P.det * P.det) * d2 + d1
  · rw [h1, Matrix.det_smul, Matrix.det_mul, Matrix.det_mul]
    simp
    ring

theorem turn_inverse {Q : Fin 3 → Fin 3 → K} (hQ : Rotation Q) (l : K) (hl : l ≠ 0) (φ : Local) (J J' I I' : Fin 3 → Fin 3 → K)
    (h : ∀ d k, J' d k = l * ∑ e, Q d e * (φ.sign k * J e (φ.axis k))) (hJ : ∀ d e, ∑ k, J d k * I e k = if d = e then 1 else 0)
    (hJ' : ∀ d e, ∑ k, J' d k * I' e k = if d = e then 1 else 0) (e k : Fin 3) :
    I' e k = l⁻¹ * ∑ g, Q e g * (φ.sign k * I g (φ.axis k)) := by
  have h1 : Matrix.of J' = l • (Matrix.of Q * Matrix.of fun e k => φ.sign k * J e (φ.axis k)) := by
    ext d k
    rw [Matrix.smul_apply, Matrix.mul_apply]
    exact h d k
  have h2 : (Matrix.of fun e k => φ.sign k * J e (φ.axis k)) * (Matrix.of fun e k => φ.sign k * I e (φ.axis k)).transpose = 1 := by
    ext d e
    rw [Matrix.mul_apply, Matrix.one_apply, ← hJ d e, ← Equiv.sum_comp φ.axis (fun k => J d k * I e k)]
    refine Finset.sum_congr rfl fun k _ => ?_
    change φ.sign k * J d (φ.axis k) * (φ.sign k * I e (φ.axis k)) = _
    linear_combination (J d (φ.axis k) * I e (φ.axis k)) * sign_sq (K := K) φ k
  have h3 : Matrix.of J' * (Matrix.of I').transpose = 1 := by
    ext d e
    rw [Matrix.mul_apply, Matrix.one_apply]
    exact hJ' d e
  generalize hJP : (Matrix.of fun e k => φ.sign k * J e (φ.axis k)) = JP at h1 h2
  generalize hIP : (Matrix.of fun e k => φ.sign k * I e (φ.axis k)) = IP at h2
  have h4 : IP.transpose * JP = 1 := mul_eq_one_comm.mp h2
  have hq : (Matrix.of Q).transpose * Matrix.of Q = 1 := by
    ext d e
    rw [Matrix.mul_apply, Matrix.one_apply]
    exact hQ.orth d e
  have h5 : (l⁻¹ • (IP.transpose * (Matrix.of Q).transpose)) * Matrix.of J' = 1 := by
    rw [h1, Matrix.smul_mul, Matrix.mul_smul, smul_smul, inv_mul_cancel₀ hl, one_smul]
    calc _ = IP.transpose * ((Matrix.of Q).transpose * Matrix.of Q) * JP := by simp only [Matrix.mul_assoc]
      _ = _ := by rw [hq, Matrix.mul_one, h4]
  have h6 : (Matrix.of I').transpose = l⁻¹ • (IP.transpose * (Matrix.of Q).transpose) := by
    calc _ = (l⁻¹ • (IP.transpose * (Matrix.of Q).transpose)) * Matrix.of J' * (Matrix.of I').transpose := by
            rw [h5, Matrix.one_mul]
      _ = _ := by rw [Matrix.mul_assoc, h3, Matrix.mul_one]
  have h7 := congrFun (congrFun h6 k) e
  refine h7.trans ?_
  rw [Matrix.smul_apply, Matrix.mul_apply]
  change l⁻¹ * _ = _
  refine congrArg (l⁻¹ * ·) (Finset.sum_congr rfl fun g _ => ?_)
  rw [← hIP]
  exact mul_comm _ _

/-- Strains of a hexahedron as derivatives. -/
theorem strain_hex (F : List (Shape.Linear K 3)) (c : Cell K) (v : Nat → Nat → K) (w : K) (I : Fin 3 → Fin 3 → K) (x : Fin 3 → K) :
    strainAt v c ⟨w, B3 (physGrad F I x)⟩ =
      Spec.strain3 fun d e => ∑ k, I e k * ∑ f ∈ Finset.range 8, v (c.vertex.getD f 0) d * refGrad F x f k := by
  refine (C49_strain 8 (physGrad F I x) fun j => v (c.vertex.getD (j / 3) 0) (j % 3)).trans ?_
  congr 1
  funext d e
  have h : ∀ f, physGrad F I x f e = ∑ k, I e k * refGrad F x f k := by
    intro f
    unfold physGrad dNdX
    rw [dif_pos e.isLt]
  simp only [Finset.mul_sum]
  rw [Finset.sum_comm]
  refine Finset.sum_congr rfl fun f _ => ?_
  have e1 : (3 * f + d.val) / 3 = f := by omega
  have e2 : (3 * f + d.val) % 3 = d.val := by omega
  rw [e1, e2, h, Finset.mul_sum]
  refine Finset.sum_congr rfl fun k _ => by ring

/-- Strains of turned displacements, `l` times as large, are turned strains. -/
theorem strain_turned [CharZero K] (F : List (Shape.Linear K 3)) (hF : Shape.p1Set 3 = some F) {Q : Fin 3 → Fin 3 → K} (l : K) (hl : l ≠ 0)
    (φ : Local) (c c' : Cell K)
    (v v' : Nat → Nat → K) (w w' : K) (I I' : Fin 3 → Fin 3 → K) (x : Fin 3 → K)
    (hI : ∀ e k, I' e k = l⁻¹ * ∑ g, Q e g * (φ.sign k * I g (φ.axis k)))
    (hv : ∀ f < 8, ∀ d : Fin 3, v' (c'.vertex.getD (φ.tau f) 0) d = l * ∑ e : Fin 3, Q d e * v (c.vertex.getD f 0) e) :
    strainAt v' c' ⟨w', B3 (physGrad F I' (φ.point x))⟩ = turnStrain Q (strainAt v c ⟨w, B3 (physGrad F I x)⟩) := by
  rw [strain_hex, strain_hex, ← strain_turn]
  congr 1
  funext d e
  have h1 : ∀ k, I' e k * ∑ f ∈ Finset.range 8, v' (c'.vertex.getD f 0) d * refGrad F (φ.point x) f k =
      (∑ g, Q e g * I g (φ.axis k)) * ∑ a : Fin 3, Q d a * ∑ f ∈ Finset.range 8, v (c.vertex.getD f 0) a * refGrad F x f (φ.axis k) := by
    intro k
    rw [sum_tau F hF φ x (fun f => v' (c'.vertex.getD f 0) d) k]
    have h2 : ∑ f ∈ Finset.range 8, v' (c'.vertex.getD (φ.tau f) 0) d * refGrad F x f (φ.axis k) =
        l * ∑ a : Fin 3, Q d a * ∑ f ∈ Finset.range 8, v (c.vertex.getD f 0) a * refGrad F x f (φ.axis k) := by
      simp only [Finset.mul_sum]
      rw [Finset.sum_comm]
      refine Finset.sum_congr rfl fun f hf => ?_
      rw [hv f (Finset.mem_range.mp hf) d, Finset.mul_sum, Finset.sum_mul]
      refine Finset.sum_congr rfl fun a _ => by ring
    have h3 : ∑ g, Q e g * (φ.sign k * I g (φ.axis k)) = φ.sign k * ∑ g, Q e g * I g (φ.axis k) := by
      rw [Finset.mul_sum]
      refine Finset.sum_congr rfl fun g _ => by ring
    rw [h2, hI, h3]
    have := sign_sq (K := K) φ k
    field_simp
    linear_combination ((∑ g, Q e g * I g (φ.axis k)) * ∑ a : Fin 3, Q d a * ∑ f ∈ Finset.range 8,
      v (c.vertex.getD f 0) a * refGrad F x f (φ.axis k)) * this
  simp only [h1]
  rw [Equiv.sum_comp φ.axis (fun k => (∑ g, Q e g * I g k) * ∑ a : Fin 3, Q d a * ∑ f ∈ Finset.range 8,
    v (c.vertex.getD f 0) a * refGrad F x f k)]
  unfold turn
  simp only [Fin.sum_univ_three]
  ring

end Verif.ElasticUp
