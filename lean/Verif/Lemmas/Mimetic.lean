import Verif.Spec.Mimetic
import Mathlib.Algebra.BigOperators.Ring.Finset
import Mathlib.Algebra.Order.BigOperators.Group.Finset
import Mathlib.LinearAlgebra.Matrix.NonsingularInverse
import Mathlib.Tactic.Ring
import Mathlib.Tactic.FieldSimp
import Mathlib.Tactic.Linarith
import Mathlib.Tactic.LinearCombination
import Mathlib.Tactic.Positivity

namespace Verif.Mimetic

variable {K : Type} [Field K] {dim nf : Nat}

/-- Applying `I - Q Q'` weighted with the areas. -/
theorem second_apply (c : Cell K dim nf) (Q : Fin nf → Fin dim → K) (x : Fin nf → K) (i : Fin nf) :
    ∑ j, second c Q i j * x j =
      (c.face i).area * ((c.face i).area * x i - ∑ k, Q i k * ∑ j, Q j k * ((c.face j).area * x j)) := by
  have h1 : ∀ j, second c Q i j * x j = (c.face i).area * ((if i = j then (c.face j).area * x j else 0) -
      ∑ k, Q i k * (Q j k * ((c.face j).area * x j))) := by
    intro j
    unfold second
    have : ∑ k, Q i k * (Q j k * ((c.face j).area * x j)) = (∑ k, Q i k * Q j k) * ((c.face j).area * x j) := by
      rw [Finset.sum_mul]; exact Finset.sum_congr rfl fun k _ => by ring
    rw [this]
    split <;> ring
  rw [Finset.sum_congr rfl fun j _ => h1 j, ← Finset.mul_sum, Finset.sum_sub_distrib, Finset.sum_comm]
  congr 2
  · simp
  · exact Finset.sum_congr rfl fun k _ => (Finset.mul_sum _ _ _).symm

/-- Applying the first term. -/
theorem first_apply (c : Cell K dim nf) (P : Fin dim → Fin dim → K) (x : Fin nf → K) (i : Fin nf) :
    ∑ j, (∑ k, (∑ l, nmat c i l * P l k) * nmat c j k) * x j =
      ∑ l, nmat c i l * ∑ k, P l k * ∑ j, nmat c j k * x j := by
  simp only [Finset.sum_mul, Finset.mul_sum]
  rw [Finset.sum_comm]
  rw [Finset.sum_congr rfl fun k _ => Finset.sum_comm]
  rw [Finset.sum_comm]
  refine Finset.sum_congr rfl fun l _ => Finset.sum_congr rfl fun k _ => Finset.sum_congr rfl fun j _ => by ring

theorem inner_apply (c : Cell K dim nf) (Q : Fin nf → Fin dim → K) (P : Fin dim → Fin dim → K) (x : Fin nf → K)
    (i : Fin nf) : ∑ j, inner c Q P i j * x j =
      1 / c.volume * (∑ l, nmat c i l * ∑ k, P l k * ∑ j, nmat c j k * x j) +
        6 * trace P / dim / c.volume *
          ((c.face i).area * ((c.face i).area * x i - ∑ k, Q i k * ∑ j, Q j k * ((c.face j).area * x j))) := by
  rw [← first_apply, ← second_apply, Finset.mul_sum, Finset.mul_sum, ← Finset.sum_add_distrib]
  exact Finset.sum_congr rfl fun j _ => by unfold inner; ring

/-- Projecting on the orthogonal complement: the form is a sum of squares. -/
theorem proj_sq (Q : Fin nf → Fin dim → K) (hQ : ∀ k l, ∑ i, Q i k * Q i l = if k = l then 1 else 0) (y : Fin nf → K) :
    ∑ i, y i * (y i - ∑ k, Q i k * ∑ j, Q j k * y j) = ∑ i, (y i - ∑ k, Q i k * ∑ j, Q j k * y j) ^ 2 := by
  set q : Fin dim → K := fun k => ∑ j, Q j k * y j with hq
  have h2 : ∑ i, (∑ k, Q i k * q k) * (∑ k, Q i k * q k) = ∑ k, q k * q k := by
    have : ∀ i, (∑ k, Q i k * q k) * (∑ k, Q i k * q k) = ∑ k, ∑ l, q k * q l * (Q i k * Q i l) := by
      intro i
      rw [Finset.sum_mul_sum]
      exact Finset.sum_congr rfl fun k _ => Finset.sum_congr rfl fun l _ => by ring
    rw [Finset.sum_congr rfl fun i _ => this i, Finset.sum_comm]
    refine Finset.sum_congr rfl fun k _ => ?_
    rw [Finset.sum_comm]
    rw [Finset.sum_congr rfl fun l _ => (Finset.mul_sum _ _ _).symm]
    simp [hQ]
  have h1 : ∑ i, y i * (∑ k, Q i k * q k) = ∑ k, q k * q k := by
    simp only [Finset.mul_sum]
    rw [Finset.sum_comm]
    refine Finset.sum_congr rfl fun k _ => ?_
    conv_rhs => rw [hq]
    simp only
    rw [Finset.sum_mul]
    exact Finset.sum_congr rfl fun i _ => by ring
  have e1 : ∑ i, y i * (y i - ∑ k, Q i k * q k) = ∑ i, y i * y i - ∑ i, y i * (∑ k, Q i k * q k) := by
    rw [← Finset.sum_sub_distrib]; exact Finset.sum_congr rfl fun i _ => by ring
  have e2 : ∑ i, (y i - ∑ k, Q i k * q k) ^ 2 =
      ∑ i, y i * y i - 2 * ∑ i, y i * (∑ k, Q i k * q k) + ∑ i, (∑ k, Q i k * q k) * (∑ k, Q i k * q k) := by
    rw [Finset.mul_sum, ← Finset.sum_sub_distrib, ← Finset.sum_add_distrib]
    exact Finset.sum_congr rfl fun i _ => by ring
  show ∑ i, y i * (y i - ∑ k, Q i k * q k) = ∑ i, (y i - ∑ k, Q i k * q k) ^ 2
  rw [e1, e2, h1, h2]; ring

theorem inner_form (c : Cell K dim nf) (Q : Fin nf → Fin dim → K)
    (hQ : ∀ k l, ∑ i, Q i k * Q i l = if k = l then 1 else 0) (P : Fin dim → Fin dim → K) (x : Fin nf → K) :
    quadForm (inner c Q P) x = 1 / c.volume * quadForm P (fun k => ∑ j, nmat c j k * x j) +
      6 * trace P / dim / c.volume *
        ∑ i, ((c.face i).area * x i - ∑ k, Q i k * ∑ j, Q j k * ((c.face j).area * x j)) ^ 2 := by
  have h := proj_sq Q hQ fun i => (c.face i).area * x i
  rw [← h]
  have e : quadForm (inner c Q P) x = ∑ i, x i * ∑ j, inner c Q P i j * x j := by
    unfold quadForm
    exact Finset.sum_congr rfl fun i _ => by rw [Finset.mul_sum]; exact Finset.sum_congr rfl fun j _ => by ring
  rw [e, Finset.mul_sum]
  simp only [inner_apply, mul_add]
  rw [Finset.sum_add_distrib]
  congr 1
  · unfold quadForm
    set w : Fin dim → K := fun k => ∑ j, nmat c j k * x j
    have : ∀ i, x i * (1 / c.volume * ∑ l, nmat c i l * ∑ k, P l k * w k) =
        1 / c.volume * ∑ l, (nmat c i l * x i) * ∑ k, P l k * w k := by
      intro i
      rw [Finset.mul_sum, Finset.mul_sum, Finset.mul_sum]
      exact Finset.sum_congr rfl fun l _ => by ring
    rw [Finset.sum_congr rfl fun i _ => this i, ← Finset.mul_sum, Finset.sum_comm]
    congr 1
    refine Finset.sum_congr rfl fun l _ => ?_
    rw [← Finset.sum_mul]
    show w l * _ = _
    rw [Finset.mul_sum]
    exact Finset.sum_congr rfl fun k _ => by ring
  · exact Finset.sum_congr rfl fun i _ => by ring

variable [LinearOrder K] [IsStrictOrderedRing K]

theorem unit_form (P : Fin dim → Fin dim → K) (k : Fin dim) : quadForm P (fun l => if l = k then 1 else 0) = P k k := by
  unfold quadForm
  simp

theorem trace_nonneg {P : Fin dim → Fin dim → K} (h : PosSemi P) : 0 ≤ trace P :=
  Finset.sum_nonneg fun k _ => by rw [← unit_form P k]; exact h _

theorem trace_pos {P : Fin dim → Fin dim → K} (h : PosDef P) (hd : 0 < dim) : 0 < trace P := by
  have hk : ∀ k, 0 < P k k := fun k => by rw [← unit_form P k]; exact h _ ⟨k, by simp⟩
  exact Finset.sum_pos (fun k _ => hk k) ⟨⟨0, hd⟩, Finset.mem_univ _⟩

end Verif.Mimetic
