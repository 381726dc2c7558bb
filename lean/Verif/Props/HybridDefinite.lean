import Verif.Props.Hybrid
import Mathlib.LinearAlgebra.Matrix.NonsingularInverse
import Mathlib.LinearAlgebra.Matrix.ToLin
import Mathlib.LinearAlgebra.FiniteDimensional.Basic

/-! C75: the system for the face pressures that is handed to the linear solver is symmetric positive definite and has exactly
one solution. -/

namespace Verif.Hybrid

variable {K : Type} [Field K] {nc : Nat}

/-- The combination of unknowns that a column of a cell matrix is multiplied by. -/
def lin (c : Cell K) (x : Nat → K) (k : Fin c.nf) : K :=
  match c.ext k with
  | .dirichlet _ => 0
  | .periodic _ q => x (min (c.dof k) q)
  | _ => x (c.dof k)

theorem lin_eff (c : Cell K) (x : Nat → K) (k : Fin c.nf) : eff c x k - eff c (fun _ => 0) k = lin c x k := by
  unfold eff lin
  cases h : c.ext k with
  | interior => simp
  | neumann _ => simp
  | dirichlet _ => simp
  | periodic v q =>
    simp only
    by_cases hq : q < c.dof k
    · rw [if_pos hq, if_pos hq, min_eq_right hq.le]; ring
    · rw [if_neg hq, if_neg hq, min_eq_left (not_lt.mp hq)]; ring

/-- Contribution of a face to row `d` of the product of the matrix with `x`. -/
def rowPart (c : Cell K) (x : Nat → K) (d : Nat) (r : Fin c.nf) : K :=
  match c.ext r with
  | .dirichlet _ => if d = c.dof r then c.S r r * x (c.dof r) else 0
  | .periodic _ q =>
    (if d = c.dof r then c.S r r * (x (c.dof r) - x q) else 0) - (if d = q then c.S r r * (x (c.dof r) - x q) else 0) +
      if d = min (c.dof r) q then ∑ k, c.S r k * lin c x k else 0
  | _ => if d = c.dof r then ∑ k, c.S r k * lin c x k else 0

theorem balance_lin (c : Cell K) (x : Nat → K) (r : Fin c.nf) :
    balance c (fun _ => 0) r - balance c x r = ∑ k, c.S r k * lin c x k := by
  unfold balance
  rw [sub_sub_sub_cancel_left, ← Finset.sum_sub_distrib]
  exact Finset.sum_congr rfl fun k _ => by rw [← mul_sub, lin_eff]

theorem delta_lin (c : Cell K) (x : Nat → K) (d : Nat) (r : Fin c.nf) (hd : ∀ v, c.ext r = .dirichlet v → d ≠ c.dof r) :
    delta c (fun _ => 0) d r - delta c x d r = rowPart c x d r := by
  unfold delta rowPart
  have hb := balance_lin c x r
  cases h : c.ext r with
  | interior => simp only; rw [← hb]; split <;> ring
  | neumann _ => simp only; rw [← hb]; split <;> ring
  | dirichlet v => simp only; rw [if_neg (hd v h)]; ring
  | periodic v q =>
    simp only
    rw [← hb]
    split <;> split <;> split <;> ring

theorem form_res (s : Sys K) (N : Nat) (y x : Nat → K) :
    s.form N y x = ∑ d ∈ Finset.range N, y d * (res N (fun _ => 0) s d - res N x s d) := by
  unfold Sys.form res
  refine Finset.sum_congr rfl fun d _ => ?_
  simp only [mul_zero, Finset.sum_const_zero, sub_zero, sub_sub_cancel]
  rw [Finset.mul_sum]
  exact Finset.sum_congr rfl fun e _ => by ring

/-- Faces other than the one with the prescribed pressure do not touch its row. -/
theorem other_row {cells : Fin nc → Cell K} {N : Nat} (h : Consistent cells N) (p : Pos cells) (v : K)
    (hp : kind cells p = .dirichlet v) (q : Pos cells) (hq : q ≠ p) :
    num cells p ≠ num cells q ∧ ∀ w t, kind cells q = .periodic w t → num cells p ≠ t := by
  have h1 := h.dirichlet p v hp
  refine ⟨fun e => hq (h1 q e.symm), fun w t hk e => ?_⟩
  obtain ⟨_, _, q', h2, h3⟩ := h.periodic q w t hk
  rw [h1 q' (by rw [h2, e]), hp] at h3
  cases h3

theorem row_sum {cells : Fin nc → Cell K} {N : Nat} (h : Consistent cells N) (x : Nat → K) (d : Nat) :
    res N (fun _ => 0) (assemble cells) d - res N x (assemble cells) d = ∑ p : Pos cells, rowPart (cells p.1) x d p.2 := by
  classical
  by_cases hd : ∃ p v, kind cells p = .dirichlet v ∧ d = num cells p
  · obtain ⟨p, v, hp, rfl⟩ := hd
    obtain ⟨h1, h2⟩ := dirichlet_row h p v hp
    rw [Finset.sum_eq_single_of_mem p (Finset.mem_univ _)]
    · unfold res rowPart
      rw [show (cells p.1).ext p.2 = _ from hp]
      simp only [mul_zero, Finset.sum_const_zero, sub_zero, sub_sub_cancel, h1, ite_mul, zero_mul]
      rw [Finset.sum_ite_eq', if_pos (Finset.mem_range.mpr (h.num_lt p))]
      exact (if_pos rfl).symm
    · intro q _ hq
      obtain ⟨h3, h4⟩ := other_row h p v hp q hq
      unfold rowPart
      cases hk : (cells q.1).ext q.2 with
      | interior => exact if_neg h3
      | neumann _ => exact if_neg h3
      | dirichlet _ => exact if_neg h3
      | periodic w t =>
        have h5 := h4 w t hk
        have h6 : num cells p ≠ min ((cells q.1).dof q.2) t := by
          rcases min_choice ((cells q.1).dof q.2) t with e | e <;> rw [e]
          · exact h3
          · exact h5
        simp only
        rw [if_neg (show ¬ num cells p = (cells q.1).dof q.2 from h3), if_neg h5, if_neg h6]; ring
  · have hnd : ∀ p v, kind cells p = .dirichlet v → d ≠ num cells p := fun p v hp e => hd ⟨p, v, hp, e⟩
    rw [res_assemble h _ d hnd, res_assemble h _ d hnd, ← Finset.sum_sub_distrib]
    exact Finset.sum_congr rfl fun p _ => delta_lin _ x d p.2 fun v hv => hnd p v hv

/-- Penalty of a face: prescribed pressures and periodic pairs. -/
def penalty (c : Cell K) (y x : Nat → K) (r : Fin c.nf) : K :=
  match c.ext r with
  | .dirichlet _ => c.S r r * (y (c.dof r) * x (c.dof r))
  | .periodic _ q => c.S r r * ((y (c.dof r) - y q) * (x (c.dof r) - x q))
  | _ => 0

/-- The bilinear form of the assembled matrix. -/
theorem form_assemble {cells : Fin nc → Cell K} {N : Nat} (h : Consistent cells N) (y x : Nat → K) :
    (assemble cells).form N y x = ∑ i, ∑ r, ∑ k, lin (cells i) y r * (cells i).S r k * lin (cells i) x k +
      ∑ p : Pos cells, penalty (cells p.1) y x p.2 := by
  rw [form_res, Finset.sum_congr rfl fun d _ => by rw [row_sum h x d, Finset.mul_sum], Finset.sum_comm]
  have hs : ∑ i, ∑ r, ∑ k, lin (cells i) y r * (cells i).S r k * lin (cells i) x k =
      ∑ p : Pos cells, lin (cells p.1) y p.2 * ∑ k, (cells p.1).S p.2 k * lin (cells p.1) x k := by
    rw [Fintype.sum_sigma]
    refine Finset.sum_congr rfl fun i _ => Finset.sum_congr rfl fun r _ => ?_
    rw [Finset.mul_sum]
    exact Finset.sum_congr rfl fun k _ => by ring
  rw [hs, ← Finset.sum_add_distrib]
  refine Finset.sum_congr rfl fun p _ => ?_
  have hN : (cells p.1).dof p.2 ∈ Finset.range N := Finset.mem_range.mpr (h.num_lt p)
  have hsum : ∀ (j : Nat) (a : K), j ∈ Finset.range N → ∑ d ∈ Finset.range N, y d * (if d = j then a else 0) = y j * a := by
    intro j a hj
    simp only [mul_ite, mul_zero]
    rw [Finset.sum_ite_eq', if_pos hj]
  unfold rowPart lin penalty
  cases hk : (cells p.1).ext p.2 with
  | interior => simp only; rw [hsum _ _ hN]; ring
  | neumann _ => simp only; rw [hsum _ _ hN]; ring
  | dirichlet _ => simp only; rw [hsum _ _ hN]; ring
  | periodic v q =>
    have hq : q ∈ Finset.range N := Finset.mem_range.mpr (partner_lt h p v q hk)
    have hm : min ((cells p.1).dof p.2) q ∈ Finset.range N := by
      rcases min_choice ((cells p.1).dof p.2) q with e | e <;> rw [e]
      · exact hN
      · exact hq
    simp only [mul_add, mul_sub, Finset.sum_add_distrib, Finset.sum_sub_distrib]
    rw [hsum _ _ hN, hsum _ _ hq, hsum _ _ hm]
    ring

section Ordered

variable [LinearOrder K] [IsStrictOrderedRing K]

/-- The form of a cell matrix is the form of the inverse inner product at the difference to the cell pressure. -/
theorem cell_form (c : Cell K) (hs : Mimetic.Symm c.Binv) (hL : c.L ≠ 0) (z : Fin c.nf → K) :
    ∑ r, ∑ k, z r * c.S r k * z k = Mimetic.quadForm c.Binv fun k => z k - (∑ j, c.F j * z j) / c.L := by
  set t := (∑ j, c.F j * z j) / c.L with ht
  have hS : ∀ r k, c.S r k = c.Binv r k - c.F r * c.F k / c.L := by
    intro r k
    unfold Cell.S
    split
    · ring
    · rw [hs k r]; ring
  have hF : ∀ j, ∑ i, c.Binv i j = c.F j := fun j => by unfold Cell.F; simp
  have hF' : ∀ i, ∑ j, c.Binv i j = c.F i := fun i => by
    rw [← hF i]; exact Finset.sum_congr rfl fun j _ => hs i j
  have hz : ∑ j, c.F j * z j = t * c.L := by rw [ht]; field_simp
  have e1 : ∑ r, ∑ k, z r * c.S r k * z k = ∑ r, ∑ k, z r * c.Binv r k * z k - t * t * c.L := by
    have : ∀ r, ∑ k, z r * c.S r k * z k = ∑ k, z r * c.Binv r k * z k - c.F r * z r * t := by
      intro r
      have : c.F r * z r * t = ∑ k, c.F r * z r / c.L * (c.F k * z k) := by
        rw [← Finset.mul_sum, hz]; field_simp
      rw [this, ← Finset.sum_sub_distrib]
      exact Finset.sum_congr rfl fun k _ => by rw [hS]; ring
    rw [Finset.sum_congr rfl fun r _ => this r, Finset.sum_sub_distrib, ← Finset.sum_mul, hz]; ring
  have e2 : Mimetic.quadForm c.Binv (fun k => z k - t) = ∑ r, ∑ k, z r * c.Binv r k * z k - t * t * c.L := by
    unfold Mimetic.quadForm
    have : ∀ r, ∑ k, (z r - t) * c.Binv r k * (z k - t) =
        ∑ k, z r * c.Binv r k * z k - t * (∑ k, c.Binv r k * z k) - z r * t * c.F r + t * t * c.F r := by
      intro r
      rw [← hF' r, Finset.mul_sum, Finset.mul_sum, Finset.mul_sum, ← Finset.sum_sub_distrib, ← Finset.sum_sub_distrib,
        ← Finset.sum_add_distrib]
      exact Finset.sum_congr rfl fun k _ => by ring
    rw [Finset.sum_congr rfl fun r _ => this r, Finset.sum_add_distrib, Finset.sum_sub_distrib, Finset.sum_sub_distrib,
      ← Finset.mul_sum, ← Finset.mul_sum, Finset.sum_comm (f := fun r k => c.Binv r k * z k)]
    have h3 : ∑ k, ∑ r, c.Binv r k * z k = t * c.L := by
      rw [← hz]; exact Finset.sum_congr rfl fun k _ => by rw [← Finset.sum_mul, hF]
    have h4 : ∑ r, z r * t * c.F r = t * (t * c.L) := by
      rw [← hz, Finset.mul_sum]; exact Finset.sum_congr rfl fun r _ => by ring
    rw [h3, h4, show ∑ r, c.F r = c.L from rfl]
    ring
  rw [e1, e2]

theorem quad_nonneg {n : Nat} {P : Fin n → Fin n → K} (h : Mimetic.PosDef P) (v : Fin n → K) : 0 ≤ Mimetic.quadForm P v := by
  by_cases hv : ∃ i, v i ≠ 0
  · exact (h v hv).le
  · push Not at hv
    unfold Mimetic.quadForm
    simp [hv]

theorem cell_form_nonneg {cells : Fin nc → Cell K} (he : Elliptic cells) (i : Fin nc) (z : Fin (cells i).nf → K) :
    0 ≤ ∑ r, ∑ k, z r * (cells i).S r k * z k := by
  rw [cell_form _ (he i).2.1 (elliptic_L he i).ne']
  exact quad_nonneg (he i).2.2 _

theorem penalty_nonneg {cells : Fin nc → Cell K} (he : Elliptic cells) (p : Pos cells) (x : Nat → K) :
    0 ≤ penalty (cells p.1) x x p.2 := by
  have := elliptic_diag he p.1 p.2
  unfold penalty
  split
  · exact mul_nonneg this.le (mul_self_nonneg _)
  · exact mul_nonneg this.le (mul_self_nonneg _)
  · exact le_rfl

theorem form_nonneg {cells : Fin nc → Cell K} {N : Nat} (h : Consistent cells N) (he : Elliptic cells) (x : Nat → K) :
    0 ≤ (assemble cells).form N x x := by
  rw [form_assemble h]
  exact add_nonneg (Finset.sum_nonneg fun i _ => cell_form_nonneg he i _) (Finset.sum_nonneg fun p _ => penalty_nonneg he p x)

/-- Where the form vanishes, linked faces have the same pressure and prescribed pressures are zero. -/
theorem form_zero {cells : Fin nc → Cell K} {N : Nat} (h : Consistent cells N) (he : Elliptic cells) (x : Nat → K)
    (hx : (assemble cells).form N x x = 0) :
    (∀ p v, kind cells p = .dirichlet v → x (num cells p) = 0) ∧ ∀ p q, Linked cells p q → x (num cells p) = x (num cells q) := by
  rw [form_assemble h] at hx
  have h1 := Finset.sum_nonneg fun i (_ : i ∈ Finset.univ) => cell_form_nonneg he i (lin (cells i) x)
  have h2 := Finset.sum_nonneg fun p (_ : p ∈ Finset.univ) => penalty_nonneg he p x
  have h3 : ∑ i, ∑ r, ∑ k, lin (cells i) x r * (cells i).S r k * lin (cells i) x k = 0 := by linarith
  have h4 : ∑ p : Pos cells, penalty (cells p.1) x x p.2 = 0 := by linarith
  have h5 := (Finset.sum_eq_zero_iff_of_nonneg fun i _ => cell_form_nonneg he i (lin (cells i) x)).mp h3
  have h6 := (Finset.sum_eq_zero_iff_of_nonneg fun p _ => penalty_nonneg he p x).mp h4
  have hdir : ∀ p v, kind cells p = .dirichlet v → x (num cells p) = 0 := by
    intro p v hp
    have := h6 p (Finset.mem_univ _)
    unfold penalty at this
    rw [show (cells p.1).ext p.2 = _ from hp] at this
    have h7 : x ((cells p.1).dof p.2) = 0 := by simpa [(elliptic_diag he p.1 p.2).ne'] using this
    exact h7
  have hper : ∀ p v t, kind cells p = .periodic v t → x (num cells p) = x t := by
    intro p v t hp
    have := h6 p (Finset.mem_univ _)
    unfold penalty at this
    rw [show (cells p.1).ext p.2 = _ from hp] at this
    have h7 : x ((cells p.1).dof p.2) - x t = 0 := by simpa [(elliptic_diag he p.1 p.2).ne'] using this
    exact sub_eq_zero.mp h7
  have hlin : ∀ p : Pos cells, lin (cells p.1) x p.2 = x (num cells p) := by
    intro p
    unfold lin
    cases hk : (cells p.1).ext p.2 with
    | interior => rfl
    | neumann _ => rfl
    | dirichlet v => exact (hdir p v hk).symm
    | periodic v t =>
      simp only
      rcases min_choice ((cells p.1).dof p.2) t with e | e <;> rw [e]
      · rfl
      · exact (hper p v t hk).symm
  have hcell : ∀ i (r k : Fin (cells i).nf), x ((cells i).dof r) = x ((cells i).dof k) := by
    intro i r k
    have h7 := h5 i (Finset.mem_univ _)
    rw [cell_form _ (he i).2.1 (elliptic_L he i).ne'] at h7
    have h8 : ∀ j, lin (cells i) x j - (∑ j, (cells i).F j * lin (cells i) x j) / (cells i).L = 0 := by
      by_contra hne
      push Not at hne
      exact absurd h7 ((he i).2.2 _ hne).ne'
    have h9 := h8 r
    have h10 := h8 k
    have e1 := hlin ⟨i, r⟩
    have e2 := hlin ⟨i, k⟩
    unfold num at e1 e2
    rw [← e1, ← e2]
    simp only at h9 h10 ⊢
    linear_combination h9 - h10
  refine ⟨hdir, fun p q hl => ?_⟩
  induction hl with
  | refl => rfl
  | cell k _ ih => rw [ih]; exact hcell _ _ _
  | face _ e ih => rw [ih, e]
  | periodic _ e ih => rw [ih]; exact hper _ _ _ e

/-- The regularised form. -/
theorem form_regular (cells : Fin nc → Cell K) (N : Nat) (hN : 0 < N) (hreg : doRegularization cells = true) (y x : Nat → K) :
    (linearSystem cells).form N y x = (assemble cells).form N y x + y 0 * (assemble cells).S 0 0 * x 0 := by
  unfold linearSystem Sys.form
  simp only [hreg, if_true]
  have h0 : (0 : Nat) ∈ Finset.range N := Finset.mem_range.mpr hN
  have : ∀ d ∈ Finset.range N, ∑ e ∈ Finset.range N,
      y d * (if d = 0 ∧ e = 0 then (assemble cells).S 0 0 * 2 else (assemble cells).S d e) * x e =
        ∑ e ∈ Finset.range N, y d * (assemble cells).S d e * x e + if d = 0 then y 0 * (assemble cells).S 0 0 * x 0 else 0 := by
    intro d _
    by_cases hd : d = 0
    · subst hd
      simp only [true_and, if_true]
      rw [← Finset.add_sum_erase _ _ h0, ← Finset.add_sum_erase _ (fun e => y 0 * (assemble cells).S 0 e * x e) h0]
      simp only [if_true]
      rw [Finset.sum_congr rfl fun e he => by rw [if_neg (Finset.ne_of_mem_erase he)]]
      ring
    · simp [hd]
  rw [Finset.sum_congr rfl this, Finset.sum_add_distrib, Finset.sum_ite_eq', if_pos h0]

theorem form_plain (cells : Fin nc → Cell K) (hreg : doRegularization cells = false) : linearSystem cells = assemble cells := by
  unfold linearSystem
  simp [hreg]

theorem entry_form (s : Sys K) (N : Nat) (i j : Nat) (hi : i < N) (hj : j < N) :
    s.form N (fun d => if d = i then 1 else 0) (fun e => if e = j then 1 else 0) = s.S i j := by
  unfold Sys.form
  have : ∀ d ∈ Finset.range N, ∑ e ∈ Finset.range N, (if d = i then 1 else 0) * s.S d e * (if e = j then 1 else 0) =
      if d = i then s.S d j else 0 := by
    intro d _
    by_cases hd : d = i
    · simp only [if_pos hd, mul_ite, mul_one, mul_zero, one_mul]
      rw [Finset.sum_ite_eq', if_pos (Finset.mem_range.mpr hj)]
    · simp [hd]
  rw [Finset.sum_congr rfl this, Finset.sum_ite_eq', if_pos (Finset.mem_range.mpr hi)]

/-- C75: the matrix that the linear solver gets is symmetric. -/
theorem C75_symmetric {cells : Fin nc → Cell K} {N : Nat} (h : Consistent cells N) (he : Elliptic cells) (d e : Nat)
    (hd : d < N) (hee : e < N) : (linearSystem cells).S d e = (linearSystem cells).S e d := by
  have hsym : ∀ y x : Nat → K, (assemble cells).form N y x = (assemble cells).form N x y := by
    intro y x
    rw [form_assemble h, form_assemble h]
    congr 1
    · refine Finset.sum_congr rfl fun i _ => ?_
      rw [Finset.sum_comm]
      refine Finset.sum_congr rfl fun k _ => Finset.sum_congr rfl fun r _ => ?_
      have : (cells i).S r k = (cells i).S k r := by
        unfold Cell.S
        rcases lt_trichotomy r k with hlt | rfl | hlt
        · rw [if_pos hlt.le, if_neg (not_le.mpr hlt)]
        · rfl
        · rw [if_pos hlt.le, if_neg (not_le.mpr hlt)]
      rw [this]; ring
    · refine Finset.sum_congr rfl fun p _ => ?_
      unfold penalty
      split <;> ring
  rw [← entry_form _ N d e hd hee, ← entry_form _ N e d hee hd]
  by_cases hreg : doRegularization cells = true
  · rw [form_regular cells N (by omega) hreg, form_regular cells N (by omega) hreg, hsym]; ring
  · rw [form_plain cells (by simpa using hreg), hsym]

/-- C75: the matrix is positive definite: with or without prescribed pressures. -/
theorem C75_definite {cells : Fin nc → Cell K} {N : Nat} (h : Consistent cells N) (he : Elliptic cells)
    (ha : Anchored cells N) (hN : 2 ≤ N) (x : Nat → K) (hx : ∃ d, d < N ∧ x d ≠ 0) : 0 < (linearSystem cells).form N x x := by
  obtain ⟨d, hd, hxd⟩ := hx
  obtain ⟨p, rfl⟩ := ha.face d hd
  by_cases hreg : doRegularization cells = true
  · have hnd := (reg_iff cells).mp hreg
    rw [form_regular cells N (by omega) hreg]
    have hconst : ∀ y : Nat → K, (assemble cells).form N y y = 0 → ∀ e, e < N → y e = y 0 := by
      intro y hy e hee
      obtain ⟨q, rfl⟩ := ha.face e hee
      rcases ha.link q with ⟨t, v, ht, _⟩ | ⟨_, t, ht, hl⟩
      · exact absurd ht (hnd t v)
      · have := (form_zero h he y hy).2 t q hl
        rw [ht] at this
        exact this.symm
    have h00 : 0 < (assemble cells).S 0 0 := by
      rw [← entry_form _ N 0 0 (by omega) (by omega)]
      refine lt_of_le_of_ne (form_nonneg h he _) fun e => ?_
      have := hconst _ e.symm 1 (by omega)
      simp at this
    have h1 := form_nonneg h he x
    have h2 : 0 ≤ x 0 * (assemble cells).S 0 0 * x 0 := by nlinarith [mul_self_nonneg (x 0)]
    refine lt_of_le_of_ne (add_nonneg h1 h2) fun e => hxd ?_
    have h3 : (assemble cells).form N x x = 0 := by linarith
    have h4 : x 0 * (assemble cells).S 0 0 * x 0 = 0 := by linarith
    rw [hconst x h3 _ hd]
    rcases mul_eq_zero.mp h4 with h5 | h5
    · exact (mul_eq_zero.mp h5).resolve_right h00.ne'
    · exact h5
  · rw [form_plain cells (by simpa using hreg)]
    refine lt_of_le_of_ne (form_nonneg h he x) fun e => hxd ?_
    obtain ⟨h1, h2⟩ := form_zero h he x e.symm
    rcases ha.link p with ⟨t, v, ht, hl⟩ | ⟨hn, _⟩
    · rw [← h2 t p hl]; exact h1 t v ht
    · exact absurd ((reg_iff cells).mpr hn) hreg

/-- C75: there is exactly one vector of face pressures that solves the system, for any sources and boundary values, balanced or
not. -/
theorem C75_solvable {cells : Fin nc → Cell K} {N : Nat} (h : Consistent cells N) (he : Elliptic cells)
    (ha : Anchored cells N) (hN : 2 ≤ N) :
    ∃ x, Solves (linearSystem cells) N x ∧ ∀ x', Solves (linearSystem cells) N x' → ∀ d, d < N → x' d = x d := by
  classical
  set A : Matrix (Fin N) (Fin N) K := fun d e => (linearSystem cells).S d e with hA
  have hinj : ∀ z : Nat → K, (∀ d, d < N → ∑ e ∈ Finset.range N, (linearSystem cells).S d e * z e = 0) → ∀ d, d < N → z d = 0 := by
    intro z hz d hd
    by_contra hne
    have := C75_definite h he ha hN z ⟨d, hd, hne⟩
    have h0 : (linearSystem cells).form N z z = 0 := by
      unfold Sys.form
      refine Finset.sum_eq_zero fun d hd => ?_
      have := hz d (Finset.mem_range.mp hd)
      rw [Finset.sum_congr rfl fun e _ => mul_assoc (z d) _ _, ← Finset.mul_sum, this, mul_zero]
    rw [h0] at this
    exact lt_irrefl _ this
  have hrange : ∀ (d : Nat) (z : Nat → K), ∑ e ∈ Finset.range N, (linearSystem cells).S d e * z e =
      ∑ e : Fin N, (linearSystem cells).S d e * z e := fun d z => Finset.sum_range _
  have hker : Function.Injective A.mulVecLin := by
    rw [injective_iff_map_eq_zero]
    intro z hz
    funext d
    have := hinj (fun n => if hn : n < N then z ⟨n, hn⟩ else 0) (fun d hd => by
      rw [hrange]
      have h1 := congrFun hz ⟨d, hd⟩
      simp only [Matrix.mulVecLin_apply, Matrix.mulVec, dotProduct, Pi.zero_apply] at h1
      rw [← h1]
      refine Finset.sum_congr rfl fun e _ => ?_
      simp [hA]) d d.2
    simpa using this
  obtain ⟨z, hz⟩ := (LinearMap.injective_iff_surjective (f := A.mulVecLin)).mp hker fun d => (linearSystem cells).rhs d
  have hsol : Solves (linearSystem cells) N fun n => if hn : n < N then z ⟨n, hn⟩ else 0 := by
    intro d hd
    rw [hrange]
    have h1 := congrFun hz ⟨d, hd⟩
    simp only [Matrix.mulVecLin_apply, Matrix.mulVec, dotProduct] at h1
    rw [← h1]
    refine Finset.sum_congr rfl fun e _ => ?_
    simp [hA]
  refine ⟨_, hsol, fun x' hx' d hd => ?_⟩
  have := hinj (fun n => x' n - if hn : n < N then z ⟨n, hn⟩ else 0) (fun d hd => by
    have h1 := hx' d hd
    have h2 := hsol d hd
    simp only [mul_sub, Finset.sum_sub_distrib]
    rw [h1, h2, sub_self]) d hd
  exact sub_eq_zero.mp this

end Ordered

/-- The hypotheses hold for the two cells with one prescribed pressure and for the periodic pair. -/
theorem twoCells_anchored : Anchored twoCells 3 where
  face := by decide +kernel
  link := fun p => by
    have h0 : Linked twoCells ⟨0, (0 : Fin 2)⟩ ⟨0, (1 : Fin 2)⟩ := .cell (cells := twoCells) (i := 0) (1 : Fin 2) (.refl _)
    have h1 : Linked twoCells ⟨0, (0 : Fin 2)⟩ ⟨1, (0 : Fin 2)⟩ := .face h0 rfl
    have h2 : Linked twoCells ⟨0, (0 : Fin 2)⟩ ⟨1, (1 : Fin 2)⟩ := .cell (cells := twoCells) (i := 1) (1 : Fin 2) h1
    refine .inl ⟨⟨0, (0 : Fin 2)⟩, 5, rfl, ?_⟩
    obtain ⟨i, r⟩ := p
    fin_cases i
    · change Fin 2 at r
      fin_cases r
      · exact .refl _
      · exact h0
    · change Fin 2 at r
      fin_cases r
      · exact h1
      · exact h2

theorem periodicCells_anchored : Anchored periodicCells 3 where
  face := by decide +kernel
  link := fun p => by
    have h0 : Linked periodicCells ⟨0, (1 : Fin 2)⟩ ⟨0, (0 : Fin 2)⟩ := .cell (cells := periodicCells) (i := 0) (0 : Fin 2) (.refl _)
    have h1 : Linked periodicCells ⟨0, (1 : Fin 2)⟩ ⟨1, (1 : Fin 2)⟩ := .periodic h0 (r := ⟨1, (1 : Fin 2)⟩) (v := 4) rfl
    have h2 : Linked periodicCells ⟨0, (1 : Fin 2)⟩ ⟨1, (0 : Fin 2)⟩ := .cell (cells := periodicCells) (i := 1) (0 : Fin 2) h1
    refine .inr ⟨(reg_iff periodicCells).mp (by decide +kernel), ⟨0, (1 : Fin 2)⟩, rfl, ?_⟩
    obtain ⟨i, r⟩ := p
    fin_cases i
    · change Fin 2 at r
      fin_cases r
      · exact h0
      · exact .refl _
    · change Fin 2 at r
      fin_cases r
      · exact h2
      · exact h1

example : ∃ x, Solves (linearSystem twoCells) 3 x ∧ ∀ x', Solves (linearSystem twoCells) 3 x' → ∀ d, d < 3 → x' d = x d :=
  C75_solvable twoCells_consistent twoCells_elliptic twoCells_anchored (by norm_num)

end Verif.Hybrid
