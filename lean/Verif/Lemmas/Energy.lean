import Verif.Lemmas.Mimetic
import Mathlib.Algebra.BigOperators.Group.Finset.Sigma
import Mathlib.Algebra.BigOperators.Ring.Finset
import Mathlib.Algebra.Order.BigOperators.Group.Finset
import Mathlib.Data.Fintype.Sigma
import Mathlib.Tactic.Ring
import Mathlib.Tactic.FieldSimp
import Mathlib.Tactic.Linarith
import Mathlib.Tactic.LinearCombination
import Mathlib.Tactic.Positivity

/-! Energy of pressure fields with one value per cell and one per half face (a face seen from a cell). -/

namespace Verif.Energy

variable {K : Type} [Field K] {nc : Nat} {nf : Fin nc → Nat}

/-- Half faces. -/
abbrev Half (nf : Fin nc → Nat) : Type := (i : Fin nc) × Fin (nf i)

/-- Pressure in the cell minus pressure on the half face. -/
def drop (c : Fin nc → K) (z : Half nf → K) (p : Half nf) : K := c p.1 - z p

/-- Flux for given pressure drops. -/
def fluxOf (B : (i : Fin nc) → Fin (nf i) → Fin (nf i) → K) (b : Half nf → K) (p : Half nf) : K :=
  ∑ j, B p.1 p.2 j * b ⟨p.1, j⟩

/-- Bilinear form. -/
def form (B : (i : Fin nc) → Fin (nf i) → Fin (nf i) → K) (a b : Half nf → K) : K := ∑ p, a p * fluxOf B b p

def Balanced (w : Half nf → K) : Prop := ∀ i, ∑ r, w ⟨i, r⟩ = 0

def Skew (mate : Half nf → Half nf) (w : Half nf → K) : Prop := ∀ p, mate p ≠ p → w (mate p) = -w p

theorem drop_pair (c : Fin nc → K) (z w : Half nf → K) (h : Balanced w) :
    ∑ p, drop c z p * w p = -∑ p, z p * w p := by
  have e : ∀ p, drop c z p * w p = c p.1 * w p - z p * w p := fun p => by unfold drop; ring
  simp only [e]
  rw [Finset.sum_sub_distrib, Fintype.sum_sigma]
  have : ∀ i, ∑ r, c i * w ⟨i, r⟩ = 0 := fun i => by rw [← Finset.mul_sum, h i, mul_zero]
  simp only [this]
  simp

theorem skew_pair (mate : Half nf → Half nf) (hm : ∀ p, mate (mate p) = p) (z w : Half nf → K) (h : Skew mate w) :
    2 * ∑ p, z p * w p = ∑ p, (if mate p = p then 2 * z p else z p - z (mate p)) * w p := by
  have e : ∑ p, z p * w p = ∑ p, z (mate p) * w (mate p) :=
    (Equiv.sum_comp (⟨mate, mate, hm, hm⟩ : Half nf ≃ Half nf) fun p => z p * w p).symm
  rw [two_mul]
  nth_rewrite 2 [e]
  rw [← Finset.sum_add_distrib]
  refine Finset.sum_congr rfl fun p _ => ?_
  by_cases hp : mate p = p
  · rw [if_pos hp, hp]; ring
  · rw [if_neg hp, h p hp]; ring

theorem form_symm (B : (i : Fin nc) → Fin (nf i) → Fin (nf i) → K) (hs : ∀ i, Mimetic.Symm (B i)) (a b : Half nf → K) :
    form B a b = form B b a := by
  unfold form fluxOf
  rw [Fintype.sum_sigma, Fintype.sum_sigma]
  refine Finset.sum_congr rfl fun i _ => ?_
  simp only [Finset.mul_sum]
  change (∑ x : Fin (nf i), ∑ j : Fin (nf i), a ⟨i, x⟩ * (B i x j * b ⟨i, j⟩)) = _
  rw [Finset.sum_comm]
  exact Finset.sum_congr rfl fun j _ => Finset.sum_congr rfl fun k _ => by rw [hs i k j]; ring

theorem form_quad (B : (i : Fin nc) → Fin (nf i) → Fin (nf i) → K) (a : Half nf → K) :
    form B a a = ∑ i, Mimetic.quadForm (B i) fun r => a ⟨i, r⟩ := by
  unfold form fluxOf Mimetic.quadForm
  rw [Fintype.sum_sigma]
  refine Finset.sum_congr rfl fun i _ => Finset.sum_congr rfl fun j _ => ?_
  rw [Finset.mul_sum]
  exact Finset.sum_congr rfl fun k _ => by ring

theorem fluxOf_lin (B : (i : Fin nc) → Fin (nf i) → Fin (nf i) → K) (a b : Half nf → K) (s t : K) (p : Half nf) :
    fluxOf B (fun p => s * a p + t * b p) p = s * fluxOf B a p + t * fluxOf B b p := by
  unfold fluxOf
  rw [Finset.mul_sum, Finset.mul_sum, ← Finset.sum_add_distrib]
  exact Finset.sum_congr rfl fun k _ => by ring

theorem form_lin (B : (i : Fin nc) → Fin (nf i) → Fin (nf i) → K) (a b e : Half nf → K) (s t : K) :
    form B (fun p => s * a p + t * b p) e = s * form B a e + t * form B b e := by
  unfold form
  rw [Finset.mul_sum, Finset.mul_sum, ← Finset.sum_add_distrib]
  exact Finset.sum_congr rfl fun k _ => by ring

theorem form_sq (B : (i : Fin nc) → Fin (nf i) → Fin (nf i) → K) (hs : ∀ i, Mimetic.Symm (B i)) (a b : Half nf → K)
    (s t : K) : form B (fun p => s * a p + t * b p) (fun p => s * a p + t * b p) =
      s ^ 2 * form B a a + 2 * (s * t) * form B a b + t ^ 2 * form B b b := by
  rw [form_lin, form_symm B hs a, form_symm B hs b, form_lin, form_lin, form_symm B hs b a]; ring

variable [LinearOrder K] [IsStrictOrderedRing K]

theorem form_nonneg (B : (i : Fin nc) → Fin (nf i) → Fin (nf i) → K) (hp : ∀ i, Mimetic.PosSemi (B i)) (a : Half nf → K) :
    0 ≤ form B a a := by
  rw [form_quad]
  exact Finset.sum_nonneg fun i _ => hp i _

/-- Minimality. -/
theorem energy_min (B : (i : Fin nc) → Fin (nf i) → Fin (nf i) → K) (hs : ∀ i, Mimetic.Symm (B i))
    (hp : ∀ i, Mimetic.PosSemi (B i)) (a b : Half nf → K) (h : form B b a = form B a a) : form B a a ≤ form B b b := by
  have := form_nonneg B hp fun p => 1 * b p + -1 * a p
  rw [form_sq B hs] at this
  rw [h] at this
  linarith

theorem cauchy (B : (i : Fin nc) → Fin (nf i) → Fin (nf i) → K) (hs : ∀ i, Mimetic.Symm (B i))
    (hp : ∀ i, Mimetic.PosSemi (B i)) (a b : Half nf → K) : form B a b ^ 2 ≤ form B a a * form B b b := by
  have h0 := form_nonneg B hp a
  have h1 := form_nonneg B hp b
  rcases h1.eq_or_lt with hb | hb
  · -- zero energy
    have h2 : ∀ t : K, 0 ≤ form B a a + 2 * t * form B a b := by
      intro t
      have := form_nonneg B hp fun p => 1 * a p + t * b p
      rw [form_sq B hs, ← hb] at this
      linarith
    have h3 : form B a b = 0 := by
      by_contra hne
      have := h2 (-(form B a a + 1) / (2 * form B a b))
      have e : 2 * (-(form B a a + 1) / (2 * form B a b)) * form B a b = -(form B a a + 1) := by
        field_simp
      rw [e] at this
      linarith
    rw [h3, ← hb]; simp
  · have := form_nonneg B hp fun p => form B b b * a p + -form B a b * b p
    rw [form_sq B hs] at this
    have e : form B b b ^ 2 * form B a a + 2 * (form B b b * -form B a b) * form B a b +
        (-form B a b) ^ 2 * form B b b = form B b b * (form B a a * form B b b - form B a b ^ 2) := by ring
    rw [e] at this
    have := nonneg_of_mul_nonneg_right this hb
    linarith

/-- Fields of zero energy vanish. -/
theorem form_zero (B : (i : Fin nc) → Fin (nf i) → Fin (nf i) → K) (hp : ∀ i, Mimetic.PosDef (B i)) (a : Half nf → K)
    (h : form B a a = 0) (p : Half nf) : a p = 0 := by
  have hq : ∀ i (v : Fin (nf i) → K), 0 ≤ Mimetic.quadForm (B i) v := by
    intro i v
    by_cases hv : ∃ r, v r ≠ 0
    · exact (hp i v hv).le
    · push Not at hv
      unfold Mimetic.quadForm
      simp [hv]
  rw [form_quad] at h
  have := (Finset.sum_eq_zero_iff_of_nonneg fun i _ => hq i _).mp h p.1 (Finset.mem_univ _)
  by_contra hne
  exact absurd this (hp p.1 (fun r => a ⟨p.1, r⟩) ⟨p.2, hne⟩).ne'

theorem posSemi_of_posDef {n : Nat} {P : Fin n → Fin n → K} (h : Mimetic.PosDef P) : Mimetic.PosSemi P := by
  intro v
  by_cases hv : ∃ r, v r ≠ 0
  · exact (h v hv).le
  · push Not at hv
    unfold Mimetic.quadForm
    simp [hv]

/-! ### Solutions -/

/-- Two solutions of the same flow problem: pressures `c`, `z` and `c'`, `z'` with balanced, skew fluxes; on every face without
mate pressures or fluxes agree, over every face with mate the jumps agree. The fluxes are the same. -/
theorem flux_unique (B : (i : Fin nc) → Fin (nf i) → Fin (nf i) → K) (hp : ∀ i, Mimetic.PosDef (B i))
    (mate : Half nf → Half nf) (hm : ∀ p, mate (mate p) = p) (c c' : Fin nc → K) (z z' : Half nf → K)
    (hb : Balanced (fluxOf B (drop c z))) (hb' : Balanced (fluxOf B (drop c' z')))
    (hk : Skew mate (fluxOf B (drop c z))) (hk' : Skew mate (fluxOf B (drop c' z')))
    (hself : ∀ p, mate p = p → z p = z' p ∨ fluxOf B (drop c z) p = fluxOf B (drop c' z') p)
    (hjump : ∀ p, mate p ≠ p → z p - z (mate p) = z' p - z' (mate p)) (p : Half nf) :
    fluxOf B (drop c z) p = fluxOf B (drop c' z') p := by
  set d : Half nf → K := fun p => 1 * drop c z p + -1 * drop c' z' p with hd
  have hw : ∀ p, fluxOf B d p = fluxOf B (drop c z) p - fluxOf B (drop c' z') p := fun p => by
    rw [hd, fluxOf_lin]; ring
  have hdd : d = drop (fun i => c i - c' i) (fun p => z p - z' p) := by
    funext p; rw [hd]; unfold drop; ring
  have hbal : Balanced (fluxOf B d) := fun i => by
    simp only [hw]; rw [Finset.sum_sub_distrib, hb i, hb' i, sub_zero]
  have hskew : Skew mate (fluxOf B d) := fun q hq => by rw [hw, hw, hk q hq, hk' q hq]; ring
  have hz : form B d d = 0 := by
    unfold form
    nth_rewrite 1 [hdd]
    rw [drop_pair _ _ _ hbal]
    have := skew_pair mate hm (fun p => z p - z' p) _ hskew
    have h0 : ∑ q, (if mate q = q then 2 * (z q - z' q) else (z q - z' q) - (z (mate q) - z' (mate q))) * fluxOf B d q = 0 := by
      refine Finset.sum_eq_zero fun q _ => ?_
      by_cases hq : mate q = q
      · rw [if_pos hq]
        rcases hself q hq with h | h
        · rw [h]; ring
        · rw [hw, h]; ring
      · rw [if_neg hq]
        have := hjump q hq
        have e : z q - z' q - (z (mate q) - z' (mate q)) = 0 := by linear_combination this
        rw [e, zero_mul]
    rw [h0] at this
    linarith
  have h0 := form_zero B hp d hz
  have : fluxOf B d p = 0 := by
    unfold fluxOf; exact Finset.sum_eq_zero fun j _ => by rw [h0, mul_zero]
  rw [hw] at this
  linarith

end Verif.Energy
