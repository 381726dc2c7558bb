import Verif.Model.Stiffness
import Verif.Spec.Elastic
import Verif.Props.Shape
import Verif.Props.Materials
import Mathlib.Algebra.Order.BigOperators.Group.List
import Mathlib.Algebra.BigOperators.Ring.List
import Mathlib.Algebra.BigOperators.Ring.Finset
import Mathlib.Tactic.Ring
import Mathlib.Tactic.Linarith
import Mathlib.Tactic.LinearCombination
import Mathlib.Tactic.FinCases
import Mathlib.Tactic.Positivity

/-!
Property C49: strains, element matrices and load vectors of the elasticity problem.
-/

namespace Verif.Elastic

open Spec

variable {K : Type} [Field K]

/-! ### Strains -/

theorem sum_three (n : Nat) (F : Nat → K) :
    ∑ j ∈ Finset.range (3 * n), F j = ∑ f ∈ Finset.range n, (F (3 * f) + F (3 * f + 1) + F (3 * f + 2)) := by
  induction n with
  | zero => rfl
  | succ n ih =>
    rw [Finset.sum_range_succ, ← ih, show 3 * (n + 1) = 3 * n + 1 + 1 + 1 by ring, Finset.sum_range_succ,
      Finset.sum_range_succ, Finset.sum_range_succ]
    ring

theorem sum_two (n : Nat) (F : Nat → K) :
    ∑ j ∈ Finset.range (2 * n), F j = ∑ f ∈ Finset.range n, (F (2 * f) + F (2 * f + 1)) := by
  induction n with
  | zero => rfl
  | succ n ih =>
    rw [Finset.sum_range_succ, ← ih, show 2 * (n + 1) = 2 * n + 1 + 1 by ring, Finset.sum_range_succ,
      Finset.sum_range_succ]
    ring

theorem B3_at (g : Nat → Nat → K) (i : Fin 6) (f d : Nat) (hd : d < 3) :
    B3 g i (3 * f + d) = tempMat 6 writes3 g (6 * d + i) f := by
  have := i.isLt
  unfold B3 bmat
  rw [show (6 * (3 * f + d) + i.val) % 18 = 6 * d + i.val by omega,
    show (6 * (3 * f + d) + i.val) / 18 = f by omega]

theorem B2_at (g : Nat → Nat → K) (i : Fin 3) (f d : Nat) (hd : d < 2) :
    B2 g i (2 * f + d) = tempMat 3 writes2 g (3 * d + i) f := by
  have := i.isLt
  unfold B2 bmat
  rw [show (3 * (2 * f + d) + i.val) % 6 = 3 * d + i.val by omega,
    show (3 * (2 * f + d) + i.val) / 6 = f by omega]

/-- C49: in three dimensions the B matrix applied to nodal displacements gives the strain (xx, yy, zz, xy, xz, yz, shear
doubled) of the interpolated displacement, whatever the gradients of the `n` functions are. -/
theorem C49_strain (n : Nat) (g : Nat → Nat → K) (v : Nat → K) :
    mulB (B3 g) (3 * n) v = strain3 fun d e => ∑ f ∈ Finset.range n, v (3 * f + d) * g f e := by
  funext i
  unfold mulB
  rw [sum_three]
  have e : ∀ f, B3 g i (3 * f) * v (3 * f) + B3 g i (3 * f + 1) * v (3 * f + 1) + B3 g i (3 * f + 2) * v (3 * f + 2) =
      tempMat 6 writes3 g (6 * 0 + i) f * v (3 * f) + tempMat 6 writes3 g (6 * 1 + i) f * v (3 * f + 1) +
      tempMat 6 writes3 g (6 * 2 + i) f * v (3 * f + 2) := by
    intro f
    rw [← B3_at g i f 0 (by omega), ← B3_at g i f 1 (by omega), ← B3_at g i f 2 (by omega), add_zero]
  rw [Finset.sum_congr rfl fun f _ => e f]
  fin_cases i <;> simp [tempMat, writes3, strain3, Finset.sum_add_distrib, mul_comm]

/-- C49: the same in two dimensions. -/
theorem C49_strain_plane (n : Nat) (g : Nat → Nat → K) (v : Nat → K) :
    mulB (B2 g) (2 * n) v = strain2 fun d e => ∑ f ∈ Finset.range n, v (2 * f + d) * g f e := by
  funext i
  unfold mulB
  rw [sum_two]
  have e : ∀ f, B2 g i (2 * f) * v (2 * f) + B2 g i (2 * f + 1) * v (2 * f + 1) =
      tempMat 3 writes2 g (3 * 0 + i) f * v (2 * f) + tempMat 3 writes2 g (3 * 1 + i) f * v (2 * f + 1) := by
    intro f
    rw [← B2_at g i f 0 (by omega), ← B2_at g i f 1 (by omega), add_zero]
  rw [Finset.sum_congr rfl fun f _ => e f]
  fin_cases i <;> simp [tempMat, writes2, strain2, Finset.sum_add_distrib, mul_comm]

/-! ### Isoparametric elements -/

/-- The gradients of the functions of the hexahedron sum to zero. -/
theorem refGrad_sum (F : List (Shape.Linear K 3)) (hF : Shape.p1Set 3 = some F) (x : Fin 3 → K) (e : Fin 3) :
    ∑ f ∈ Finset.range 8, refGrad F x f e = 0 := by
  obtain ⟨F', hF', hl, -, -, hg⟩ := Shape.C44_cube (K := K)
  rw [hF] at hF'
  obtain rfl := Option.some.inj hF'
  rw [← hg x e]
  obtain ⟨a, b, c, d, a', b', c', d', rfl⟩ : ∃ a b c d a' b' c' d', F = [a, b, c, d, a', b', c', d'] := by
    match F, hl with
    | [a, b, c, d, a', b', c', d'], _ => exact ⟨_, _, _, _, _, _, _, _, rfl⟩
  simp [Finset.sum_range_succ, refGrad]
  ring

/-- C49: the matrix whose inverse transposed the geometry supplies is the derivative of the isoparametric map that takes
the corners of the reference cube to the nodes `X`. -/
theorem C49_jacobian (F : List (Shape.Linear ℝ 3)) (x : Fin 3 → ℝ) (X : Nat → Fin 3 → ℝ) (d e : Fin 3)
    (h : F.length = 8) :
    HasDerivAt (fun t => ∑ f ∈ Finset.range 8, X f d * (match F[f]? with
      | none => 0 | some s => s.eval (Function.update x e t))) (∑ f ∈ Finset.range 8, X f d * refGrad F x f e) (x e) := by
  apply HasDerivAt.fun_sum
  intro f hf
  apply HasDerivAt.const_mul
  have hf' : f < F.length := by
    rw [h]
    exact Finset.mem_range.mp hf
  have : F[f]? = some F[f] := List.getElem?_eq_getElem hf'
  unfold refGrad
  simp only [this]
  exact Shape.C44_gradient _ x e

/-- C49: on every hexahedron with nodes `X`, at every point where the Jacobian is invertible, an affine displacement field
`a + H x` prescribed at the nodes has exactly the strain of `H`. -/
theorem C49_linear (F : List (Shape.Linear K 3)) (hF : Shape.p1Set 3 = some F) (x : Fin 3 → K) (X : Nat → Fin 3 → K)
    (Jinv : Fin 3 → Fin 3 → K)
    (hJ : ∀ d e, ∑ k, (∑ f ∈ Finset.range 8, X f d * refGrad F x f k) * Jinv e k = if d = e then 1 else 0)
    (a : Fin 3 → K) (H : Fin 3 → Fin 3 → K) (v : Nat → K)
    (hv : ∀ (f : Nat) (d : Fin 3), f < 8 → v (3 * f + d) = a d + ∑ e, H d e * X f e) :
    mulB (B3 (physGrad F Jinv x)) 24 v = strain3 H := by
  rw [show (24 : Nat) = 3 * 8 from rfl, C49_strain]
  have hP : ∀ f (e : Fin 3), physGrad F Jinv x f e = ∑ k, Jinv e k * refGrad F x f k := by
    intro f e
    unfold physGrad dNdX
    rw [dif_pos e.isLt]
  have hH : (fun (d e : Fin 3) => ∑ f ∈ Finset.range 8, v (3 * f + d) * physGrad F Jinv x f e) = H := by
    funext d e
    have h1 : ∀ f ∈ Finset.range 8, v (3 * f + d) * physGrad F Jinv x f e =
        ∑ k, (a d * (Jinv e k * refGrad F x f k) + ∑ l, H d l * (X f l * refGrad F x f k * Jinv e k)) := by
      intro f hf
      rw [hv f d (Finset.mem_range.mp hf), hP, Finset.mul_sum]
      apply Finset.sum_congr rfl
      intro k _
      rw [add_mul, Finset.sum_mul]
      congr 1
      apply Finset.sum_congr rfl
      intro l _
      ring
    rw [Finset.sum_congr rfl h1, Finset.sum_comm]
    have h2 : ∀ k : Fin 3, ∑ f ∈ Finset.range 8, (a d * (Jinv e k * refGrad F x f k) +
        ∑ l, H d l * (X f l * refGrad F x f k * Jinv e k)) =
        ∑ l, H d l * ((∑ f ∈ Finset.range 8, X f l * refGrad F x f k) * Jinv e k) := by
      intro k
      rw [Finset.sum_add_distrib, Finset.sum_comm]
      have h3 : ∑ f ∈ Finset.range 8, a d * (Jinv e k * refGrad F x f k) = 0 := by
        rw [← Finset.mul_sum, ← Finset.mul_sum, refGrad_sum F hF, mul_zero, mul_zero]
      rw [h3, zero_add]
      apply Finset.sum_congr rfl
      intro l _
      rw [Finset.sum_mul, Finset.mul_sum]
    rw [Finset.sum_congr rfl fun k _ => h2 k, Finset.sum_comm]
    have h4 : ∀ l : Fin 3, ∑ k, H d l * ((∑ f ∈ Finset.range 8, X f l * refGrad F x f k) * Jinv e k) =
        H d l * (if l = e then 1 else 0) := by
      intro l
      rw [← Finset.mul_sum, hJ]
    rw [Finset.sum_congr rfl fun l _ => h4 l]
    simp
  rw [hH]

/-! ### Element matrices -/

variable {c : Nat}

theorem elemK_eq (C : Fin c → Fin c → K) (pts : List (QP K c)) (a b : Nat) :
    elemK C pts a b = (pts.map fun q => stiffness q.B C q.w a b).sum := by
  unfold elemK
  have : ∀ (l : List (QP K c)) (A : Nat → Nat → K),
      l.foldl (fun A q => fun a b => A a b + stiffness q.B C q.w a b) A a b =
      A a b + (l.map fun q => stiffness q.B C q.w a b).sum := by
    intro l
    induction l with
    | nil => intro A; simp
    | cons q l ih =>
      intro A
      rw [List.foldl_cons, ih, List.map_cons, List.sum_cons, add_assoc]
  rw [this, zero_add]

theorem elemLoad_eq (C : Fin c → Fin c → K) (eps0 : Fin c → K) (pts : List (QP K c)) (a : Nat) :
    elemLoad C eps0 pts a = (pts.map fun q => loadPoint C eps0 q a).sum := by
  unfold elemLoad
  have : ∀ (l : List (QP K c)) (A : Nat → K),
      l.foldl (fun E q => fun a => E a + loadPoint C eps0 q a) A a =
      A a + (l.map fun q => loadPoint C eps0 q a).sum := by
    intro l
    induction l with
    | nil => intro A; simp
    | cons q l ih =>
      intro A
      rw [List.foldl_cons, ih, List.map_cons, List.sum_cons, add_assoc]
  rw [this, zero_add]

theorem list_finset_sum {α : Type} (l : List α) (s : Finset Nat) (F : α → Nat → K) :
    ∑ b ∈ s, (l.map fun q => F q b).sum = (l.map fun q => ∑ b ∈ s, F q b).sum := by
  induction l with
  | nil => simp
  | cons q l ih => simp only [List.map_cons, List.sum_cons, Finset.sum_add_distrib, ih]

theorem list_sum_neg {α : Type} (l : List α) (F : α → K) : (l.map fun q => -F q).sum = -(l.map F).sum := by
  induction l with
  | nil => simp
  | cons q l ih => rw [List.map_cons, List.map_cons, List.sum_cons, List.sum_cons, ih, neg_add]

theorem stiffness_row (B : Fin c → Nat → K) (C : Fin c → Fin c → K) (w : K) (N : Nat) (v : Nat → K) (a : Nat) :
    ∑ b ∈ Finset.range N, stiffness B C w a b * v b = (∑ i, B i a * ∑ k, C i k * mulB B N v k) * w := by
  have : ∀ b, stiffness B C w a b * v b = ∑ i, (∑ k, B i a * (C i k * (B k b * v b)) * w) := by
    intro b
    unfold stiffness
    rw [mul_assoc, Finset.sum_mul]
    apply Finset.sum_congr rfl
    intro i _
    rw [Finset.mul_sum, Finset.sum_mul]
    apply Finset.sum_congr rfl
    intro k _
    ring
  rw [Finset.sum_congr rfl fun b _ => this b, Finset.sum_comm, Finset.sum_mul]
  apply Finset.sum_congr rfl
  intro i _
  rw [Finset.sum_comm, Finset.mul_sum, Finset.sum_mul]
  apply Finset.sum_congr rfl
  intro k _
  unfold mulB
  rw [Finset.mul_sum, Finset.mul_sum, Finset.sum_mul]

/-- C49: element forces are the sum over quadrature points of weight times `Bᵀ` times the stress of the strain. -/
theorem C49_forces (C : Fin c → Fin c → K) (pts : List (QP K c)) (N : Nat) (v : Nat → K) (a : Nat) :
    ∑ b ∈ Finset.range N, elemK C pts a b * v b =
      (pts.map fun q => (∑ i, q.B i a * ∑ k, C i k * mulB q.B N v k) * q.w).sum := by
  have : ∀ b, elemK C pts a b * v b = (pts.map fun q => stiffness q.B C q.w a b * v b).sum := by
    intro b
    rw [elemK_eq, List.sum_map_mul_right]
  rw [Finset.sum_congr rfl fun b _ => this b, list_finset_sum]
  congr 1
  apply List.map_congr_left
  intro q _
  rw [stiffness_row]

/-- C49: the energy product of two displacements is the sum over quadrature points of weight times strain times stress. -/
theorem C49_energy (C : Fin c → Fin c → K) (pts : List (QP K c)) (N : Nat) (u v : Nat → K) :
    ∑ a ∈ Finset.range N, u a * ∑ b ∈ Finset.range N, elemK C pts a b * v b =
      (pts.map fun q => q.w * ∑ i, mulB q.B N u i * ∑ k, C i k * mulB q.B N v k).sum := by
  have : ∀ a, u a * ∑ b ∈ Finset.range N, elemK C pts a b * v b =
      (pts.map fun q => u a * ((∑ i, q.B i a * ∑ k, C i k * mulB q.B N v k) * q.w)).sum := by
    intro a
    rw [C49_forces, List.sum_map_mul_left]
  rw [Finset.sum_congr rfl fun a _ => this a, list_finset_sum]
  congr 1
  apply List.map_congr_left
  intro q _
  have h2 : ∀ a, u a * ((∑ i, q.B i a * ∑ k, C i k * mulB q.B N v k) * q.w) =
      ∑ i, q.w * (q.B i a * u a * ∑ k, C i k * mulB q.B N v k) := by
    intro a
    rw [Finset.sum_mul, Finset.mul_sum]
    apply Finset.sum_congr rfl
    intro i _
    ring
  rw [Finset.sum_congr rfl fun a _ => h2 a, Finset.sum_comm, Finset.mul_sum]
  apply Finset.sum_congr rfl
  intro i _
  rw [← Finset.mul_sum, ← Finset.sum_mul]
  rfl

/-- C49: symmetric constitutive matrices give symmetric element matrices. -/
theorem C49_symmetric (C : Fin c → Fin c → K) (hC : ∀ i k, C i k = C k i) (pts : List (QP K c)) (a b : Nat) :
    elemK C pts a b = elemK C pts b a := by
  rw [elemK_eq, elemK_eq]
  congr 1
  apply List.map_congr_left
  intro q _
  unfold stiffness
  congr 1
  simp only [Finset.mul_sum]
  rw [Finset.sum_comm]
  apply Finset.sum_congr rfl
  intro i _
  apply Finset.sum_congr rfl
  intro k _
  rw [hC k i]
  ring

/-- C49: the load vector of an initial strain is minus the element matrix times any displacement that has this strain at all
quadrature points. -/
theorem C49_load (C : Fin c → Fin c → K) (eps0 : Fin c → K) (pts : List (QP K c)) (N : Nat) (v : Nat → K)
    (hv : ∀ q ∈ pts, mulB q.B N v = eps0) (a : Nat) :
    elemLoad C eps0 pts a = -∑ b ∈ Finset.range N, elemK C pts a b * v b := by
  rw [C49_forces, elemLoad_eq, ← list_sum_neg]
  congr 1
  apply List.map_congr_left
  intro q hq
  unfold loadPoint
  rw [hv q hq]
  ring

/-- C49: the resultant of the load vector against a displacement is minus the work of the initial stress. -/
theorem C49_load_work (C : Fin c → Fin c → K) (eps0 : Fin c → K) (pts : List (QP K c)) (N : Nat) (u : Nat → K) :
    ∑ a ∈ Finset.range N, u a * elemLoad C eps0 pts a =
      -(pts.map fun q => q.w * ∑ i, mulB q.B N u i * ∑ k, C i k * eps0 k).sum := by
  have : ∀ a, u a * elemLoad C eps0 pts a = (pts.map fun q => u a * loadPoint C eps0 q a).sum := by
    intro a
    rw [elemLoad_eq, List.sum_map_mul_left]
  rw [Finset.sum_congr rfl fun a _ => this a, list_finset_sum, ← list_sum_neg]
  congr 1
  apply List.map_congr_left
  intro q _
  have h2 : ∀ a, u a * loadPoint C eps0 q a = ∑ i, -(q.w * (q.B i a * u a * ∑ k, C i k * eps0 k)) := by
    intro a
    unfold loadPoint
    rw [Finset.sum_mul, Finset.mul_sum]
    apply Finset.sum_congr rfl
    intro i _
    ring
  rw [Finset.sum_congr rfl fun a _ => h2 a, Finset.sum_comm, Finset.mul_sum, ← Finset.sum_neg_distrib]
  apply Finset.sum_congr rfl
  intro i _
  rw [Finset.sum_neg_distrib, ← Finset.mul_sum, ← Finset.sum_mul]
  rfl

section Ordered
variable [LinearOrder K] [IsStrictOrderedRing K]

/-- C49: positive semidefinite constitutive matrices and non-negative weights give positive semidefinite element matrices. -/
theorem C49_psd (C : Fin c → Fin c → K) (hC : ∀ e : Fin c → K, 0 ≤ ∑ i, e i * ∑ k, C i k * e k) (pts : List (QP K c))
    (hw : ∀ q ∈ pts, 0 ≤ q.w) (N : Nat) (v : Nat → K) :
    0 ≤ ∑ a ∈ Finset.range N, v a * ∑ b ∈ Finset.range N, elemK C pts a b * v b := by
  rw [C49_energy]
  apply List.sum_nonneg
  intro x hx
  obtain ⟨q, hq, rfl⟩ := List.mem_map.mp hx
  exact mul_nonneg (hw q hq) (hC _)

/-- C49: for a positive definite constitutive matrix and positive weights the energy vanishes only for displacements without
strain at the quadrature points. -/
theorem C49_definite (C : Fin c → Fin c → K) (hC : ∀ e : Fin c → K, e ≠ 0 → 0 < ∑ i, e i * ∑ k, C i k * e k)
    (pts : List (QP K c)) (hw : ∀ q ∈ pts, 0 < q.w) (N : Nat) (v : Nat → K)
    (h0 : ∑ a ∈ Finset.range N, v a * ∑ b ∈ Finset.range N, elemK C pts a b * v b = 0) :
    ∀ q ∈ pts, mulB q.B N v = 0 := by
  rw [C49_energy] at h0
  intro q hq
  by_contra hne
  have hpos := mul_pos (hw q hq) (hC _ hne)
  have hnn : ∀ q ∈ pts, 0 ≤ q.w * ∑ i, mulB q.B N v i * ∑ k, C i k * mulB q.B N v k := by
    intro p hp
    apply mul_nonneg (hw p hp).le
    by_cases hz : mulB p.B N v = 0
    · rw [hz]
      simp
    · exact (hC _ hz).le
  have := List.single_le_sum (l := pts.map fun q => q.w * ∑ i, mulB q.B N v i * ∑ k, C i k * mulB q.B N v k)
    (by
      intro x hx
      obtain ⟨p, hp, rfl⟩ := List.mem_map.mp hx
      exact hnn p hp) _ (List.mem_map_of_mem hq)
  linarith

end Ordered

/-- The quadrature points of a hexahedron: reference points, weights and inverse transposed Jacobians. -/
def hexPoints (F : List (Shape.Linear K 3)) (l : List (K × (Fin 3 → K) × (Fin 3 → Fin 3 → K))) : List (QP K 6) :=
  l.map fun p => ⟨p.1, B3 (physGrad F p.2.2 p.2.1)⟩

/-- C49: an infinitesimal rigid motion (translation plus antisymmetric gradient) of any hexahedron causes no forces, whatever
the constitutive matrix and the quadrature rule. -/
theorem C49_rigid (F : List (Shape.Linear K 3)) (hF : Shape.p1Set 3 = some F) (X : Nat → Fin 3 → K)
    (l : List (K × (Fin 3 → K) × (Fin 3 → Fin 3 → K)))
    (hJ : ∀ p ∈ l, ∀ d e,
      ∑ k, (∑ f ∈ Finset.range 8, X f d * refGrad F p.2.1 f k) * p.2.2 e k = if d = e then 1 else 0)
    (C : Fin 6 → Fin 6 → K) (a : Fin 3 → K) (W : Fin 3 → Fin 3 → K) (hW : ∀ d e, W d e = -W e d) (hdiag : ∀ d, W d d = 0)
    (v : Nat → K) (hv : ∀ (f : Nat) (d : Fin 3), f < 8 → v (3 * f + d) = a d + ∑ e, W d e * X f e) (r : Nat) :
    ∑ b ∈ Finset.range 24, elemK C (hexPoints F l) r b * v b = 0 := by
  rw [C49_forces]
  apply List.sum_eq_zero
  intro x hx
  obtain ⟨q, hq, rfl⟩ := List.mem_map.mp hx
  obtain ⟨p, hp, rfl⟩ := List.mem_map.mp hq
  have : mulB (B3 (physGrad F p.2.2 p.2.1)) 24 v = fun _ => 0 := by
    rw [C49_linear F hF p.2.1 X p.2.2 (hJ p hp) a W v hv]
    funext i
    fin_cases i <;> simp [strain3, hdiag, hW 1 0, hW 2 0, hW 2 1]
  simp only [this]
  simp

/-- C49: the load vector of load case `m` on any hexahedron is minus the forces of the affine displacement with that strain,
so this displacement with the opposite sign solves the element equations. -/
theorem C49_load_hex (F : List (Shape.Linear K 3)) (hF : Shape.p1Set 3 = some F) (X : Nat → Fin 3 → K)
    (l : List (K × (Fin 3 → K) × (Fin 3 → Fin 3 → K)))
    (hJ : ∀ p ∈ l, ∀ d e,
      ∑ k, (∑ f ∈ Finset.range 8, X f d * refGrad F p.2.1 f k) * p.2.2 e k = if d = e then 1 else 0)
    (C : Fin 6 → Fin 6 → K) (m : Fin 6) (H : Fin 3 → Fin 3 → K)
    (hH : ∀ i, strain3 H i = if i = m then 1 else 0)
    (v : Nat → K) (hv : ∀ (f : Nat) (d : Fin 3), f < 8 → v (3 * f + d) = ∑ e, H d e * X f e) (r : Nat) :
    elemLoad C (unitStrain m) (hexPoints F l) r = -∑ b ∈ Finset.range 24, elemK C (hexPoints F l) r b * v b := by
  apply C49_load
  intro q hq
  obtain ⟨p, hp, rfl⟩ := List.mem_map.mp hq
  rw [C49_linear F hF p.2.1 X p.2.2 (hJ p hp) 0 H v (by intro f d hf; rw [hv f d hf]; simp)]
  funext i
  rw [hH]
  unfold unitStrain
  simp only [Fin.ext_iff]

/-- The hypothesis on the Jacobian is met, for instance by a sheared and stretched cube at an interior point. -/
example : (Shape.p1Set 3 : Option (List (Shape.Linear ℚ 3))).map (fun F =>
    decide (∀ d e : Fin 3, (∑ k, (∑ f ∈ Finset.range 8,
      (![Shape.corner 3 f 0 * 2 + Shape.corner 3 f 2, Shape.corner 3 f 1, Shape.corner 3 f 2 * 4] : Fin 3 → ℚ) d *
        refGrad F ![1/4, 1/2, 1/3] f k) * (![![1/2, 0, 0], ![0, 1, 0], ![-1/8, 0, 1/4]] : Fin 3 → Fin 3 → ℚ) e k) =
      if d = e then 1 else 0)) = some true := by
  decide +kernel

end Verif.Elastic
