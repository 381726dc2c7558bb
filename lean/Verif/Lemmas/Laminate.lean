import Verif.Spec.Laminate
import Verif.Lemmas.ElasticMean
import Mathlib.Tactic.Linarith
import Mathlib.Tactic.Positivity

/-! Layered elastic samples: the mean of a balanced stress times the strain of admissible displacements is zero. -/

namespace Verif.ElasticUp

open Verif.Elastic Verif.Asm

variable {K : Type} [Field K]

theorem minor_plane (n p q : Fin 3 → K) (hp : ∑ d, n d * p d = 0) (hq : ∑ d, n d * q d = 0) (e f : Fin 3) :
    n f * (p (e + 1) * q (e + 2) - q (e + 1) * p (e + 2)) = n e * (p (f + 1) * q (f + 2) - q (f + 1) * p (f + 2)) := by
  rw [Fin.sum_univ_three] at hp hq
  fin_cases e <;> fin_cases f <;> simp only [Fin.zero_eta, Fin.mk_one, Fin.reduceFinMk, Fin.reduceAdd, zero_add, Fin.isValue] <;>
    first
    | rfl
    | linear_combination p 0 * hq - q 0 * hp
    | linear_combination q 0 * hp - p 0 * hq
    | linear_combination p 1 * hq - q 1 * hp
    | linear_combination q 1 * hp - p 1 * hq
    | linear_combination p 2 * hq - q 2 * hp
    | linear_combination q 2 * hp - p 2 * hq

/-- The flux through a plane face is proportional to its normal. -/
theorem face_plane (n p1 p2 p3 : Fin 3 → K) (v0 v1 v2 v3 : K) (h1 : ∑ d, n d * p1 d = 0) (h2 : ∑ d, n d * p2 d = 0)
    (h3 : ∑ d, n d * p3 d = 0) (e f : Fin 3) :
    n f * faceFlux v0 v1 v2 v3 (p1 (e + 1)) (p2 (e + 1)) (p3 (e + 1)) (p1 (e + 2)) (p2 (e + 2)) (p3 (e + 2)) =
      n e * faceFlux v0 v1 v2 v3 (p1 (f + 1)) (p2 (f + 1)) (p3 (f + 1)) (p1 (f + 2)) (p2 (f + 2)) (p3 (f + 2)) := by
  have a := minor_plane n p1 p2 h1 h2 e f
  have b := minor_plane n p1 p3 h1 h3 e f
  have c := minor_plane n p3 p2 h3 h2 e f
  unfold faceFlux
  linear_combination (v0 + v1 / 2 + v2 / 2 + v3 / 4) * a + (v0 / 2 + v1 / 3 + v2 / 4 + v3 / 6) * b +
    (v0 / 2 + v1 / 4 + v2 / 3 + v3 / 6) * c

theorem side_plane (n : Fin 3 → K) (Y : Nat → Fin 3 → K) (v : Nat → K) (k : Fin 3)
    (h : ∀ f < 8, ∀ g < 8, f.testBit k = g.testBit k → ∑ d, n d * Y f d = ∑ d, n d * Y g d) (e f : Fin 3) :
    n f * side k 0 v (fun m => Y m (e + 1)) (fun m => Y m (e + 2)) = n e * side k 0 v (fun m => Y m (f + 1)) (fun m => Y m (f + 2)) := by
  have h2 : ∀ a b : Nat, a < 8 → b < 8 → a.testBit k = b.testBit k → ∑ d, n d * (Y a d - Y b d) = 0 := by
    intro a b ha hb hab
    simp only [mul_sub, Finset.sum_sub_distrib, h a ha b hb hab, sub_self]
  have h4 : ∀ a b c d : Nat, a < 8 → b < 8 → c < 8 → d < 8 → a.testBit k = b.testBit k → c.testBit k = d.testBit k →
      ∑ m, n m * (Y a m - Y b m - Y c m + Y d m) = 0 := by
    intro a b c d ha hb hc hd hab hcd
    have := h2 a b ha hb hab
    have := h2 c d hc hd hcd
    have e : ∀ m, n m * (Y a m - Y b m - Y c m + Y d m) = n m * (Y a m - Y b m) - n m * (Y c m - Y d m) := fun m => by ring
    simp only [e, Finset.sum_sub_distrib, *, sub_self]
  fin_cases k
  · exact face_plane n (fun d => Y 2 d - Y 0 d) (fun d => Y 4 d - Y 0 d) (fun d => Y 6 d - Y 4 d - Y 2 d + Y 0 d) _ _ _ _
      (h2 2 0 (by decide) (by decide) (by decide)) (h2 4 0 (by decide) (by decide) (by decide))
      (h4 6 4 2 0 (by decide) (by decide) (by decide) (by decide) (by decide) (by decide)) e f
  · exact face_plane n (fun d => Y 4 d - Y 0 d) (fun d => Y 1 d - Y 0 d) (fun d => Y 5 d - Y 4 d - Y 1 d + Y 0 d) _ _ _ _
      (h2 4 0 (by decide) (by decide) (by decide)) (h2 1 0 (by decide) (by decide) (by decide))
      (h4 5 4 1 0 (by decide) (by decide) (by decide) (by decide) (by decide) (by decide)) e f
  · exact face_plane n (fun d => Y 1 d - Y 0 d) (fun d => Y 2 d - Y 0 d) (fun d => Y 3 d - Y 1 d - Y 2 d + Y 0 d) _ _ _ _
      (h2 1 0 (by decide) (by decide) (by decide)) (h2 2 0 (by decide) (by decide) (by decide))
      (h4 3 1 2 0 (by decide) (by decide) (by decide) (by decide) (by decide) (by decide)) e f

theorem strain_pair (s : Fin 6 → K) (H : Fin 3 → Fin 3 → K) : ∑ i, s i * Spec.strain3 H i = ∑ d, ∑ e, stress3 s d e * H d e := by
  simp only [Fin.sum_univ_six, Fin.sum_univ_three, Spec.strain3, stress3]
  simp
  ring

/-- Shape functions reproduce functions that are linear in the coordinates. -/
theorem strain_linear (F : List (Shape.Linear K 3)) (hF : Shape.p1Set 3 = some F) (rule : List (K × (Fin 3 → K)))
    (X : Nat → Fin 3 → K) (c : Cell K) (hc : Hexahedron F X rule c) (v : Nat → Nat → K) (b a n : Fin 3 → K)
    (hv : ∀ f < 8, ∀ d : Fin 3, v (c.vertex.getD f 0) d = b d + a d * height X n (c.vertex.getD f 0)) (q : QP K 6) (hq : q ∈ c.pts)
    (i : Fin 6) : strainAt v c q i = Spec.strain3 (fun d e => a d * n e) i := by
  obtain ⟨Jinv, hJ, hp⟩ := hc
  rw [hp] at hq
  obtain ⟨p, hpr, rfl⟩ := List.mem_map.mp hq
  have h3 := congrFun (C49_strain 8 (physGrad F (Jinv p.2) p.2) fun j => v (c.vertex.getD (j / 3) 0) (j % 3)) i
  refine h3.trans ?_
  congr 1
  funext d e
  have h2 : ∀ f, physGrad F (Jinv p.2) p.2 f e = ∑ k, Jinv p.2 e k * refGrad F p.2 f k := by
    intro f
    unfold physGrad dNdX
    rw [dif_pos e.isLt]
  have hone : ∑ f ∈ Finset.range 8, physGrad F (Jinv p.2) p.2 f e = 0 := by
    obtain ⟨g0, g1, g2⟩ := grad_mono F hF p.2 fun _ => 1
    simp only [one_mul, mono] at g0 g1 g2
    simp only [h2]
    rw [Finset.sum_comm]
    simp only [← Finset.mul_sum, Fin.sum_univ_three, g0, g1, g2]
    ring
  have hX : ∀ m, ∑ f ∈ Finset.range 8, X (c.vertex.getD f 0) m * physGrad F (Jinv p.2) p.2 f e = if m = e then 1 else 0 := by
    intro m
    rw [← hJ p hpr m e]
    simp only [h2, jacobian, Finset.mul_sum, Finset.sum_mul]
    rw [Finset.sum_comm]
    refine Finset.sum_congr rfl fun k _ => Finset.sum_congr rfl fun f _ => by ring
  have h5 : ∀ f ∈ Finset.range 8, v (c.vertex.getD ((3 * f + d.val) / 3) 0) ((3 * f + d.val) % 3) * physGrad F (Jinv p.2) p.2 f e =
      b d * physGrad F (Jinv p.2) p.2 f e + a d * ∑ m, n m * (X (c.vertex.getD f 0) m * physGrad F (Jinv p.2) p.2 f e) := by
    intro f hf
    have e1 : (3 * f + d.val) / 3 = f := by omega
    have e2 : (3 * f + d.val) % 3 = d.val := by omega
    rw [e1, e2, hv f (Finset.mem_range.mp hf) d]
    unfold height
    rw [add_mul, mul_assoc, Finset.sum_mul]
    simp only [mul_assoc]
  rw [Finset.sum_congr rfl h5, Finset.sum_add_distrib, ← Finset.mul_sum, hone, mul_zero, zero_add, ← Finset.mul_sum, Finset.sum_comm]
  simp only [← Finset.mul_sum, hX]
  simp

variable [LinearOrder K] [IsStrictOrderedRing K]

/-- A stress that is the same within a layer and in balance between layers does no work on admissible displacements. -/
theorem layers_mean {S : Sample K} {D : Cell K → Fin 6 → Fin 6 → K} {F : List (Shape.Linear K 3)} {X : Nat → Fin 3 → K}
    {rule : List (K × (Fin 3 → K))}
    {next : Fin 3 → Equiv.Perm (Fin S.cells.length)} (hT : Torus S F X rule next) {k : Fin 3} {n : Fin 3 → K}
    (hL : Layers S D X next k n) (s : Fin S.cells.length → Fin 6 → K) (hs : ∀ b ≠ k, ∀ c, s (next b c) = s c)
    (hb : ∀ c, traction (s (next k c)) n = traction (s c) n) (v : Nat → Nat → K) (hv : Admissible S.handler v) :
    ∑ c : Fin S.cells.length, ∑ i, s c i * ((S.cells[c]).pts.map fun q => q.w * strainAt v S.cells[c] q i).sum = 0 := by
  have h1 : ∀ c : Fin S.cells.length, ∑ i, s c i * ((S.cells[c]).pts.map fun q => q.w * strainAt v S.cells[c] q i).sum =
      ∑ b : Fin 3, ((∑ d : Fin 3, ∑ e, stress3 (s c) d e * side b (2 ^ b.val) (fun f => v ((S.cells[c]).vertex.getD f 0) d)
        (fun f => X ((S.cells[c]).vertex.getD f 0) (e + 1)) (fun f => X ((S.cells[c]).vertex.getD f 0) (e + 2))) -
      ∑ d : Fin 3, ∑ e, stress3 (s c) d e * side b 0 (fun f => v ((S.cells[c]).vertex.getD f 0) d)
        (fun f => X ((S.cells[c]).vertex.getD f 0) (e + 1)) (fun f => X ((S.cells[c]).vertex.getD f 0) (e + 2))) := by
    intro c
    have h2 := fun i => cell_mean F hT.shapes rule hT.exact X S.cells[c] (hT.hexahedra _ (List.getElem_mem _)) v i
    simp only [h2, strain_pair, fluxes_side]
    simp only [← Finset.sum_sub_distrib, ← mul_sub, Finset.mul_sum]
    rw [Finset.sum_comm' (t' := Finset.univ) (s' := fun _ => Finset.univ) (by simp)]
    simp only [Fin.sum_univ_three]
    ring
  simp only [h1, Finset.sum_sub_distrib]
  rw [sub_eq_zero, Finset.sum_comm]
  refine Eq.trans ?_ Finset.sum_comm
  refine Finset.sum_congr rfl fun b _ => ?_
  refine Eq.trans ?_ (Equiv.sum_comp (next b) _)
  refine Finset.sum_congr rfl fun c _ => Finset.sum_congr rfl fun d _ => ?_
  obtain ⟨L, hLm⟩ := hT.meet b c
  have h3 : ∀ e : Fin 3, side b (2 ^ b.val) (fun f => v ((S.cells[c]).vertex.getD f 0) d)
        (fun f => X ((S.cells[c]).vertex.getD f 0) (e + 1)) (fun f => X ((S.cells[c]).vertex.getD f 0) (e + 2)) =
      side b 0 (fun f => v ((S.cells[next b c]).vertex.getD f 0) d)
        (fun f => X ((S.cells[next b c]).vertex.getD f 0) (e + 1)) (fun f => X ((S.cells[next b c]).vertex.getD f 0) (e + 2)) :=
    fun e => side_moved b _ _ _ _ _ _ (L (e + 1)) (L (e + 2)) (fun f h1 h2 => (hLm f h1 h2).2 v hv d d.isLt)
      (fun f h1 h2 => (hLm f h1 h2).1 _) (fun f h1 h2 => (hLm f h1 h2).1 _)
  simp only [h3]
  by_cases hbk : b = k
  · subst hbk
    obtain ⟨f, hf⟩ := Function.ne_iff.mp hL.normal
    have hf' : n f ≠ 0 := hf
    have h4 := fun e => side_plane n (fun m => X ((S.cells[next b c]).vertex.getD m 0)) (fun f => v ((S.cells[next b c]).vertex.getD f 0) d) b
      (hL.plane (next b c)) e f
    have h5 := congrFun (hb c) d
    unfold traction at h5
    apply mul_left_cancel₀ hf'
    simp only [Finset.mul_sum]
    have h6 : ∀ (t : Fin 3 → K) (u : Fin 3 → K) (w : K), (∀ e, n f * u e = n e * w) →
        ∑ e, n f * (t e * u e) = (∑ e, t e * n e) * w := by
      intro t u w h
      rw [Finset.sum_mul]
      refine Finset.sum_congr rfl fun e _ => ?_
      linear_combination t e * h e
    rw [h6 _ _ _ h4, h6 _ _ _ h4, h5]
  · rw [hs b hbk c]

theorem linear_zero {A B : K} (h : ∀ t : K, t * A + t ^ 2 * B ≤ 0) : A = 0 := by
  by_contra hA
  have hB : 0 < |B| + 1 := by positivity
  have h1 := h (A / (|B| + 1))
  have h2 : A / (|B| + 1) * A + (A / (|B| + 1)) ^ 2 * B = (A / (|B| + 1)) ^ 2 * (|B| + 1 + B) := by
    field_simp
  rw [h2] at h1
  have h3 : 0 < (A / (|B| + 1)) ^ 2 := by positivity
  have h4 : 0 < |B| + 1 + B := by linarith [neg_abs_le B]
  exact absurd h1 (not_le.mpr (mul_pos h3 h4))

end Verif.ElasticUp
