import Verif.Lemmas.HexMean
import Verif.Lemmas.ElasticRun
import Mathlib.LinearAlgebra.Matrix.Adjugate

/-! Displacements that satisfy periodic constraints have no mean strain. -/

namespace Verif.ElasticUp

open Verif.Elastic Verif.Asm

variable {K : Type} [Field K]

/-- Coefficients of a trilinear function with the values `a` at the vertices. -/
def mono (a : Nat → K) : Nat → K
  | 0 => a 0
  | 1 => a 1 - a 0
  | 2 => a 2 - a 0
  | 3 => a 3 - a 2 - a 1 + a 0
  | 4 => a 4 - a 0
  | 5 => a 5 - a 4 - a 1 + a 0
  | 6 => a 6 - a 4 - a 2 + a 0
  | _ => a 7 - a 6 - a 5 - a 3 + a 4 + a 2 + a 1 - a 0

theorem shapes_eq : (Shape.p1Set 3 : Option (List (Shape.Linear K 3))) = some ((List.range 8).map fun i =>
    ⟨fun j => (Shape.table0 3).getD (i * 3 + j) 0, fun j => (Shape.table1 3).getD (i * 3 + j) 0⟩) := rfl

theorem grad_mono (F : List (Shape.Linear K 3)) (hF : Shape.p1Set 3 = some F) (x : Fin 3 → K) (a : Nat → K) :
    (∑ f ∈ Finset.range 8, a f * refGrad F x f 0 =
      mono a 1 + mono a 3 * x 1 + mono a 5 * x 2 + mono a 7 * x 1 * x 2) ∧
    (∑ f ∈ Finset.range 8, a f * refGrad F x f 1 =
      mono a 2 + mono a 3 * x 0 + mono a 6 * x 2 + mono a 7 * x 0 * x 2) ∧
    (∑ f ∈ Finset.range 8, a f * refGrad F x f 2 =
      mono a 4 + mono a 5 * x 0 + mono a 6 * x 1 + mono a 7 * x 0 * x 1) := by
  rw [shapes_eq] at hF
  obtain rfl := Option.some.inj hF
  refine ⟨?_, ?_, ?_⟩
  all_goals
    simp only [Finset.sum_range_succ, Finset.sum_range_zero, refGrad, List.range_succ, List.range_zero, List.nil_append, List.map_append,
      List.map_cons, List.map_nil, List.cons_append, List.getElem?_cons_zero, List.getElem?_cons_succ, Shape.grad_eq,
      Fin.prod_univ_three]
    simp [Shape.table0, Shape.table1, mono]
    ring

/-- Determinant with the gradient of `v` in a row. -/
theorem weight_grad (F : List (Shape.Linear K 3)) (X : Nat → Fin 3 → K) (c : Cell K) (x : Fin 3 → K) (Jinv : Fin 3 → Fin 3 → K)
    (hJ : ∀ d e, ∑ k, jacobian F X c x d k * Jinv e k = if d = e then 1 else 0) (k e : Fin 3) :
    (Matrix.of (jacobian F X c x)).det * Jinv e k = (Matrix.of (jacobian F X c x)).adjugate k e := by
  have h1 : Matrix.of (jacobian F X c x) * Matrix.of (fun k e => Jinv e k) = 1 := by
    ext d e
    rw [Matrix.mul_apply, Matrix.one_apply]
    exact hJ d e
  have h2 := congrArg (fun M => (Matrix.of (jacobian F X c x)).adjugate * M) h1
  simp only [← Matrix.mul_assoc, Matrix.adjugate_mul, Matrix.mul_one] at h2
  have h3 := congrFun (congrFun h2 k) e
  simpa using h3

/-- Sum over the six faces. -/
def fluxes (v y z : Nat → K) : K :=
  (faceFlux (v 1) (v 3 - v 1) (v 5 - v 1) (v 7 - v 5 - v 3 + v 1) (y 3 - y 1) (y 5 - y 1) (y 7 - y 5 - y 3 + y 1)
      (z 3 - z 1) (z 5 - z 1) (z 7 - z 5 - z 3 + z 1) -
    faceFlux (v 0) (v 2 - v 0) (v 4 - v 0) (v 6 - v 4 - v 2 + v 0) (y 2 - y 0) (y 4 - y 0) (y 6 - y 4 - y 2 + y 0)
      (z 2 - z 0) (z 4 - z 0) (z 6 - z 4 - z 2 + z 0)) +
  (faceFlux (v 2) (v 6 - v 2) (v 3 - v 2) (v 7 - v 6 - v 3 + v 2) (y 6 - y 2) (y 3 - y 2) (y 7 - y 6 - y 3 + y 2)
      (z 6 - z 2) (z 3 - z 2) (z 7 - z 6 - z 3 + z 2) -
    faceFlux (v 0) (v 4 - v 0) (v 1 - v 0) (v 5 - v 4 - v 1 + v 0) (y 4 - y 0) (y 1 - y 0) (y 5 - y 4 - y 1 + y 0)
      (z 4 - z 0) (z 1 - z 0) (z 5 - z 4 - z 1 + z 0)) +
  (faceFlux (v 4) (v 5 - v 4) (v 6 - v 4) (v 7 - v 5 - v 6 + v 4) (y 5 - y 4) (y 6 - y 4) (y 7 - y 5 - y 6 + y 4)
      (z 5 - z 4) (z 6 - z 4) (z 7 - z 5 - z 6 + z 4) -
    faceFlux (v 0) (v 1 - v 0) (v 2 - v 0) (v 3 - v 1 - v 2 + v 0) (y 1 - y 0) (y 2 - y 0) (y 3 - y 1 - y 2 + y 0)
      (z 1 - z 0) (z 2 - z 0) (z 3 - z 1 - z 2 + z 0))

/-- Determinant of the gradients of three functions given by their values at the vertices. -/
def det3 (F : List (Shape.Linear K 3)) (x : Fin 3 → K) (a b c : Nat → K) : K :=
  let g : (Nat → K) → Fin 3 → K := fun a k => ∑ f ∈ Finset.range 8, a f * refGrad F x f k
  g a 0 * (g b 1 * g c 2 - g b 2 * g c 1) + g a 1 * (g b 2 * g c 0 - g b 0 * g c 2) + g a 2 * (g b 0 * g c 1 - g b 1 * g c 0)

theorem det3_integral [CharZero K] (F : List (Shape.Linear K 3)) (hF : Shape.p1Set 3 = some F) (rule : List (K × (Fin 3 → K)))
    (hr : ExactRule rule) (a b c : Nat → K) : (rule.map fun p => p.1 * det3 F p.2 a b c).sum = fluxes a b c := by
  have h1 : ∀ p : K × (Fin 3 → K), p.1 * det3 F p.2 a b c = p.1 *
      ((detCoeffs (mono a 0) (mono a 1) (mono a 2) (mono a 3) (mono a 4) (mono a 5) (mono a 6) (mono a 7)
        (mono b 0) (mono b 1) (mono b 2) (mono b 3) (mono b 4) (mono b 5) (mono b 6) (mono b 7)
        (mono c 0) (mono c 1) (mono c 2) (mono c 3) (mono c 4) (mono c 5) (mono c 6) (mono c 7)).map fun t =>
        t.2.2.2 * (p.2 0 ^ t.1 * p.2 1 ^ t.2.1 * p.2 2 ^ t.2.2.1)).sum := by
    intro p
    rw [← det_poly]
    obtain ⟨a0, a1, a2⟩ := grad_mono F hF p.2 a
    obtain ⟨b0, b1, b2⟩ := grad_mono F hF p.2 b
    obtain ⟨c0, c1, c2⟩ := grad_mono F hF p.2 c
    unfold det3
    simp only [a0, a1, a2, b0, b1, b2, c0, c1, c2]
  rw [List.map_congr_left (fun p _ => h1 p), rule_poly rule hr, det_faces]
  · unfold fluxes
    have e : ∀ (x0 x1 x2 x3 y1 y2 y3 z1 z2 z3 x0' x1' x2' x3' y1' y2' y3' z1' z2' z3' : K), x0 = x0' → x1 = x1' → x2 = x2' → x3 = x3' →
        y1 = y1' → y2 = y2' → y3 = y3' → z1 = z1' → z2 = z2' → z3 = z3' →
        faceFlux x0 x1 x2 x3 y1 y2 y3 z1 z2 z3 = faceFlux x0' x1' x2' x3' y1' y2' y3' z1' z2' z3' := by
      intros; subst_vars; rfl
    congr 1
    congr 1
    all_goals congr 1
    all_goals apply e <;> (simp only [mono]; try ring)
  · unfold detCoeffs
    simp

/-- Flux through the upper and the lower face in each direction. -/
def side (a : Fin 3) (u : Nat) (v y z : Nat → K) : K :=
  if a = 0 then
    faceFlux (v u) (v (2 + u) - v u) (v (4 + u) - v u) (v (6 + u) - v (4 + u) - v (2 + u) + v u)
      (y (2 + u) - y u) (y (4 + u) - y u) (y (6 + u) - y (4 + u) - y (2 + u) + y u)
      (z (2 + u) - z u) (z (4 + u) - z u) (z (6 + u) - z (4 + u) - z (2 + u) + z u)
  else if a = 1 then
    faceFlux (v u) (v (4 + u) - v u) (v (1 + u) - v u) (v (5 + u) - v (4 + u) - v (1 + u) + v u)
      (y (4 + u) - y u) (y (1 + u) - y u) (y (5 + u) - y (4 + u) - y (1 + u) + y u)
      (z (4 + u) - z u) (z (1 + u) - z u) (z (5 + u) - z (4 + u) - z (1 + u) + z u)
  else
    faceFlux (v u) (v (1 + u) - v u) (v (2 + u) - v u) (v (3 + u) - v (1 + u) - v (2 + u) + v u)
      (y (1 + u) - y u) (y (2 + u) - y u) (y (3 + u) - y (1 + u) - y (2 + u) + y u)
      (z (1 + u) - z u) (z (2 + u) - z u) (z (3 + u) - z (1 + u) - z (2 + u) + z u)

theorem fluxes_side (v y z : Nat → K) : fluxes v y z = ∑ a : Fin 3, (side a (2 ^ a.val) v y z - side a 0 v y z) := by
  rw [Fin.sum_univ_three]
  rfl

/-- The flux does not change when the face is moved. -/
theorem side_moved (a : Fin 3) (v y z v' y' z' : Nat → K) (l m : K)
    (hv : ∀ f < 8, f.testBit a → v f = v' (f - 2 ^ a.val)) (hy : ∀ f < 8, f.testBit a → y f = y' (f - 2 ^ a.val) + l)
    (hz : ∀ f < 8, f.testBit a → z f = z' (f - 2 ^ a.val) + m) : side a (2 ^ a.val) v y z = side a 0 v' y' z' := by
  have key : ∀ f g : Nat, f < 8 → f.testBit a = true → f - 2 ^ a.val = g → v f = v' g ∧ y f = y' g + l ∧ z f = z' g + m := by
    rintro f g h1 h2 rfl
    exact ⟨hv f h1 h2, hy f h1 h2, hz f h1 h2⟩
  fin_cases a
  · obtain ⟨a1, b1, c1⟩ := key 1 0 (by decide) (by decide) (by decide)
    obtain ⟨a2, b2, c2⟩ := key 3 2 (by decide) (by decide) (by decide)
    obtain ⟨a3, b3, c3⟩ := key 5 4 (by decide) (by decide) (by decide)
    obtain ⟨a4, b4, c4⟩ := key 7 6 (by decide) (by decide) (by decide)
    simp [side, a1, b1, c1, a2, b2, c2, a3, b3, c3, a4, b4, c4]
    congr 1 <;> ring
  · obtain ⟨a1, b1, c1⟩ := key 2 0 (by decide) (by decide) (by decide)
    obtain ⟨a2, b2, c2⟩ := key 3 1 (by decide) (by decide) (by decide)
    obtain ⟨a3, b3, c3⟩ := key 6 4 (by decide) (by decide) (by decide)
    obtain ⟨a4, b4, c4⟩ := key 7 5 (by decide) (by decide) (by decide)
    simp [side, a1, b1, c1, a2, b2, c2, a3, b3, c3, a4, b4, c4]
    congr 1 <;> ring
  · obtain ⟨a1, b1, c1⟩ := key 4 0 (by decide) (by decide) (by decide)
    obtain ⟨a2, b2, c2⟩ := key 5 1 (by decide) (by decide) (by decide)
    obtain ⟨a3, b3, c3⟩ := key 6 2 (by decide) (by decide) (by decide)
    obtain ⟨a4, b4, c4⟩ := key 7 3 (by decide) (by decide) (by decide)
    simp [side, a1, b1, c1, a2, b2, c2, a3, b3, c3, a4, b4, c4]
    congr 1 <;> ring

theorem weight_det3 (F : List (Shape.Linear K 3)) (X : Nat → Fin 3 → K) (c : Cell K) (x : Fin 3 → K) (Jinv : Fin 3 → Fin 3 → K)
    (hJ : ∀ d e, ∑ k, jacobian F X c x d k * Jinv e k = if d = e then 1 else 0) (a : Nat → K) (e : Fin 3) :
    (Matrix.of (jacobian F X c x)).det * ∑ f ∈ Finset.range 8, a f * physGrad F Jinv x f e =
      det3 F x a (fun f => X (c.vertex.getD f 0) (e + 1)) (fun f => X (c.vertex.getD f 0) (e + 2)) := by
  have h1 : (Matrix.of (jacobian F X c x)).det * ∑ f ∈ Finset.range 8, a f * physGrad F Jinv x f e =
      ∑ k, (Matrix.of (jacobian F X c x)).adjugate k e * ∑ f ∈ Finset.range 8, a f * refGrad F x f k := by
    have h2 : ∀ f, physGrad F Jinv x f e = ∑ k, Jinv e k * refGrad F x f k := by
      intro f
      unfold physGrad dNdX
      rw [dif_pos e.isLt]
    simp only [h2, Finset.mul_sum]
    rw [Finset.sum_comm]
    refine Finset.sum_congr rfl fun k _ => Finset.sum_congr rfl fun f _ => ?_
    rw [← weight_grad F X c x Jinv hJ]; ring
  rw [h1, Matrix.adjugate_fin_three, Fin.sum_univ_three]
  have hj : ∀ d k, ∑ f ∈ Finset.range 8, X (c.vertex.getD f 0) d * refGrad F x f k = jacobian F X c x d k := fun _ _ => rfl
  unfold det3
  simp only [hj]
  fin_cases e <;> simp <;> ring

theorem cell_mean [CharZero K] (F : List (Shape.Linear K 3)) (hF : Shape.p1Set 3 = some F) (rule : List (K × (Fin 3 → K)))
    (hr : ExactRule rule) (X : Nat → Fin 3 → K) (c : Cell K) (hc : Hexahedron F X rule c) (v : Nat → Nat → K) (i : Fin 6) :
    (c.pts.map fun q => q.w * strainAt v c q i).sum = Spec.strain3 (fun d e => fluxes (fun f => v (c.vertex.getD f 0) d)
      (fun f => X (c.vertex.getD f 0) (e + 1)) (fun f => X (c.vertex.getD f 0) (e + 2))) i := by
  obtain ⟨Jinv, hJ, hp⟩ := hc
  have h1 : ∀ p ∈ rule, (⟨p.1 * (Matrix.of (jacobian F X c p.2)).det, B3 (physGrad F (Jinv p.2) p.2)⟩ : QP K 6).w *
      strainAt v c ⟨p.1 * (Matrix.of (jacobian F X c p.2)).det, B3 (physGrad F (Jinv p.2) p.2)⟩ i =
      Spec.strain3 (fun d e => p.1 * det3 F p.2 (fun f => v (c.vertex.getD f 0) d)
        (fun f => X (c.vertex.getD f 0) (e + 1)) (fun f => X (c.vertex.getD f 0) (e + 2))) i := by
    intro p hpr
    have h2 : strainAt v c ⟨p.1 * (Matrix.of (jacobian F X c p.2)).det, B3 (physGrad F (Jinv p.2) p.2)⟩ i =
        Spec.strain3 (fun d e => ∑ f ∈ Finset.range 8, v (c.vertex.getD f 0) d * physGrad F (Jinv p.2) p.2 f e) i := by
      have h3 := congrFun (C49_strain 8 (physGrad F (Jinv p.2) p.2) fun j => v (c.vertex.getD (j / 3) 0) (j % 3)) i
      refine h3.trans ?_
      congr 1
      funext d e
      refine Finset.sum_congr rfl fun f _ => ?_
      have e1 : (3 * f + d.val) / 3 = f := by omega
      have e2 : (3 * f + d.val) % 3 = d.val := by omega
      rw [e1, e2]
    rw [h2]
    have h4 : ∀ d e : Fin 3, p.1 * det3 F p.2 (fun f => v (c.vertex.getD f 0) d) (fun f => X (c.vertex.getD f 0) (e + 1))
        (fun f => X (c.vertex.getD f 0) (e + 2)) = p.1 * (Matrix.of (jacobian F X c p.2)).det *
          ∑ f ∈ Finset.range 8, v (c.vertex.getD f 0) d * physGrad F (Jinv p.2) p.2 f e := by
      intro d e
      rw [mul_assoc, weight_det3 F X c p.2 (Jinv p.2) (hJ p hpr)]
    simp only [h4]
    fin_cases i <;> simp [Spec.strain3] <;> ring
  have h6 := List.map_congr_left h1
  rw [hp, List.map_map]
  refine (congrArg List.sum h6).trans ?_
  have h5 : ∀ d e : Fin 3, (rule.map fun p => p.1 * det3 F p.2 (fun f => v (c.vertex.getD f 0) d) (fun f => X (c.vertex.getD f 0) (e + 1))
      (fun f => X (c.vertex.getD f 0) (e + 2))).sum = fluxes (fun f => v (c.vertex.getD f 0) d)
      (fun f => X (c.vertex.getD f 0) (e + 1)) (fun f => X (c.vertex.getD f 0) (e + 2)) := fun d e => det3_integral F hF rule hr _ _ _
  simp only [← h5]
  fin_cases i <;> simp [Spec.strain3, List.sum_map_add]

variable [LinearOrder K] [IsStrictOrderedRing K]

/-- In a periodic sample admissible displacements have no mean strain. -/
theorem torus_mean {S : Sample K} {F : List (Shape.Linear K 3)} {X : Nat → Fin 3 → K} {rule : List (K × (Fin 3 → K))}
    {next : Fin 3 → Equiv.Perm (Fin S.cells.length)} (hT : Torus S F X rule next) (v : Nat → Nat → K) (hv : Admissible S.handler v)
    (i : Fin 6) : (S.cells.map fun c => (c.pts.map fun q => q.w * strainAt v c q i).sum).sum = 0 := by
  have h0 : ∀ d e : Fin 3, (S.cells.map fun c => fluxes (fun f => v (c.vertex.getD f 0) d)
      (fun f => X (c.vertex.getD f 0) (e + 1)) (fun f => X (c.vertex.getD f 0) (e + 2))).sum = 0 := by
    intro d e
    rw [← Fin.sum_univ_fun_getElem]
    simp only [fluxes_side, Finset.sum_sub_distrib]
    rw [sub_eq_zero, Finset.sum_comm]
    refine Eq.trans ?_ Finset.sum_comm
    refine Finset.sum_congr rfl fun a _ => ?_
    refine Eq.trans ?_ (Equiv.sum_comp (next a) _)
    refine Finset.sum_congr rfl fun c _ => ?_
    obtain ⟨L, hL⟩ := hT.meet a c
    exact side_moved a _ _ _ _ _ _ (L (e + 1)) (L (e + 2)) (fun f h1 h2 => (hL f h1 h2).2 v hv d d.isLt)
      (fun f h1 h2 => (hL f h1 h2).1 _) (fun f h1 h2 => (hL f h1 h2).1 _)
  rw [List.map_congr_left (fun c hc => cell_mean F hT.shapes rule hT.exact X c (hT.hexahedra c hc) v i)]
  have h1 : ∀ H : Cell K → Fin 3 → Fin 3 → K, (∀ d e, (S.cells.map fun c => H c d e).sum = 0) →
      (S.cells.map fun c => Spec.strain3 (H c) i).sum = 0 := by
    intro H hH
    fin_cases i <;> simp [Spec.strain3, List.sum_map_add, hH]
  exact h1 _ h0

end Verif.ElasticUp
