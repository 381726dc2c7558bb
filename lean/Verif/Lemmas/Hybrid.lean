import Verif.Spec.Hybrid
import Mathlib.Algebra.BigOperators.Ring.Finset
import Mathlib.Algebra.BigOperators.Group.Finset.Sigma
import Mathlib.Algebra.BigOperators.Group.List.Basic
import Mathlib.Data.List.Nodup
import Mathlib.Data.List.FinRange
import Mathlib.Tactic.Ring
import Mathlib.Tactic.FieldSimp
import Mathlib.Tactic.Linarith
import Mathlib.Tactic.LinearCombination

namespace Verif.Hybrid

variable {K : Type} [Field K] {nc : Nat}

/-- Residual of row `d`. -/
def res (N : Nat) (x : Nat → K) (s : Sys K) (d : Nat) : K := s.rhs d - ∑ e ∈ Finset.range N, s.S d e * x e

theorem res_add (N : Nat) (x : Nat → K) (s : Sys K) (i j d : Nat) (a : K) (hj : j < N) :
    res N x (s.add i j a) d = res N x s d - if d = i then a * x j else 0 := by
  unfold res Sys.add
  by_cases hd : d = i
  · subst hd
    simp only [true_and, if_true]
    have : ∀ e ∈ Finset.range N, (if e = j then s.S d e + a else s.S d e) * x e =
        s.S d e * x e + if e = j then a * x e else 0 := by
      intro e _; split <;> ring
    rw [Finset.sum_congr rfl this, Finset.sum_add_distrib, Finset.sum_ite_eq', if_pos (Finset.mem_range.mpr hj)]
    ring
  · simp [hd]

theorem res_addRhs (N : Nat) (x : Nat → K) (s : Sys K) (i d : Nat) (a : K) :
    res N x (s.addRhs i a) d = res N x s d + if d = i then a else 0 := by
  unfold res Sys.addRhs
  by_cases hd : d = i
  · simp [hd]; ring
  · simp [hd]

theorem res_assign (N : Nat) (x : Nat → K) (s : Sys K) (i d : Nat) (a b : K) (h : d ≠ i) :
    res N x (s.assign i a b) d = res N x s d := by
  unfold res Sys.assign
  simp [h]

/-- The face pressure that the assembly uses for a column. -/
def eff (c : Cell K) (x : Nat → K) (k : Fin c.nf) : K :=
  match c.ext k with
  | .dirichlet p => p
  | .periodic d q => if q < c.dof k then x q + d else x (c.dof k)
  | _ => x (c.dof k)

theorem res_addColumn (N : Nat) (x : Nat → K) (c : Cell K) (r k : Fin c.nf) (ii d : Nat) (s : Sys K)
    (hk : c.dof k < N) (hq : ∀ v q, c.ext k = .periodic v q → q < N) :
    res N x (addColumn c r ii s k) d = res N x s d - if d = ii then c.S r k * eff c x k else 0 := by
  unfold addColumn eff
  cases h : c.ext k with
  | interior => exact res_add _ _ _ _ _ _ _ hk
  | neumann q => exact res_add _ _ _ _ _ _ _ hk
  | dirichlet p =>
    simp only
    rw [res_addRhs]
    split <;> ring
  | periodic v q =>
    simp only
    by_cases hlt : q < c.dof k
    · rw [if_pos hlt, if_pos hlt, res_add _ _ _ _ _ _ _ (hq v q h), res_addRhs]
      split <;> ring
    · rw [if_neg hlt, if_neg hlt]
      exact res_add _ _ _ _ _ _ _ hk

theorem res_columns (N : Nat) (x : Nat → K) (c : Cell K) (r : Fin c.nf) (ii d : Nat)
    (hk : ∀ k, c.dof k < N) (hq : ∀ k v q, c.ext k = .periodic v q → q < N) (l : List (Fin c.nf)) (s : Sys K) :
    res N x (l.foldl (addColumn c r ii) s) d =
      res N x s d - if d = ii then (l.map fun k => c.S r k * eff c x k).sum else 0 := by
  induction l generalizing s with
  | nil => simp
  | cons k l ih =>
    rw [List.foldl_cons, ih, res_addColumn N x c r k ii d s (hk k) (hq k), List.map_cons, List.sum_cons]
    split <;> ring

/-- Flux balance of the row of a face, as assembled. -/
def balance (c : Cell K) (x : Nat → K) (r : Fin c.nf) : K := c.rhs r - ∑ k, c.S r k * eff c x k

theorem finRange_sum {n : Nat} (f : Fin n → K) : ((List.finRange n).map f).sum = ∑ k, f k := by
  rw [← List.ofFn_eq_map, List.sum_ofFn]

theorem res_addRow (N : Nat) (x : Nat → K) (c : Cell K) (r : Fin c.nf) (ii d : Nat)
    (hk : ∀ k, c.dof k < N) (hq : ∀ k v q, c.ext k = .periodic v q → q < N) (s : Sys K) :
    res N x (addRow c r ii s) d = res N x s d + if d = ii then balance c x r else 0 := by
  unfold addRow balance
  rw [res_addRhs, res_columns N x c r ii d hk hq, finRange_sum]
  split <;> ring

theorem res_addPeriodic (N : Nat) (x : Nat → K) (s : Sys K) (i q d : Nat) (a b : K) (hi : i < N) (hq : q < N) :
    res N x (addPeriodic s i q a b) d = res N x s d + (if d = i then b - a * (x i - x q) else 0) -
      if d = q then b - a * (x i - x q) else 0 := by
  unfold addPeriodic
  rw [res_addRhs, res_add _ _ _ _ _ _ _ hq, res_add _ _ _ _ _ _ _ hi, res_addRhs, res_add _ _ _ _ _ _ _ hq,
    res_add _ _ _ _ _ _ _ hi]
  by_cases h1 : d = i
  · by_cases h2 : d = q
    · simp only [if_pos h1, if_pos h2]; ring
    · simp only [if_pos h1, if_neg h2]; ring
  · by_cases h2 : d = q
    · simp only [if_neg h1, if_pos h2]; ring
    · simp only [if_neg h1, if_neg h2]; ring

/-- Contribution of a face to the residual of row `d`. -/
def delta (c : Cell K) (x : Nat → K) (d : Nat) (r : Fin c.nf) : K :=
  match c.ext r with
  | .dirichlet _ => 0
  | .periodic v q =>
    (if d = c.dof r then c.S r r * v - c.S r r * (x (c.dof r) - x q) else 0) -
      (if d = q then c.S r r * v - c.S r r * (x (c.dof r) - x q) else 0) +
      if d = min (c.dof r) q then balance c x r else 0
  | _ => if d = c.dof r then balance c x r else 0

theorem res_faceStep (N : Nat) (x : Nat → K) (c : Cell K) (r : Fin c.nf) (d : Nat) (s : Sys K)
    (hk : ∀ k, c.dof k < N) (hq : ∀ k v q, c.ext k = .periodic v q → q < N)
    (hd : ∀ v, c.ext r = .dirichlet v → d ≠ c.dof r) :
    res N x (faceStep c s r) d = res N x s d + delta c x d r := by
  unfold faceStep delta
  cases h : c.ext r with
  | interior => exact res_addRow _ _ _ _ _ _ hk hq _
  | neumann q => exact res_addRow _ _ _ _ _ _ hk hq _
  | dirichlet p =>
    simp only
    rw [res_assign _ _ _ _ _ _ _ (hd p h), add_zero]
  | periodic v q =>
    simp only
    rw [res_addRow _ _ _ _ _ _ hk hq, res_addPeriodic _ _ _ _ _ _ _ _ (hk r) (hq r v q h)]
    ring

/-- All faces in iteration order. -/
def posList (cells : Fin nc → Cell K) : List (Pos cells) :=
  (List.finRange nc).flatMap fun i => (List.finRange (cells i).nf).map fun r => ⟨i, r⟩

theorem mem_posList (cells : Fin nc → Cell K) (p : Pos cells) : p ∈ posList cells := by
  obtain ⟨i, r⟩ := p
  unfold posList
  simp

theorem nodup_posList (cells : Fin nc → Cell K) : (posList cells).Nodup := by
  unfold posList
  rw [List.nodup_flatMap]
  constructor
  · intro i _
    exact (List.nodup_finRange _).map fun a b h => by simpa using h
  · refine (List.nodup_finRange nc).imp fun {a b} hab => ?_
    intro p h1 h2
    simp only [List.mem_map] at h1 h2
    obtain ⟨r, _, rfl⟩ := h1
    obtain ⟨t, _, h⟩ := h2
    exact hab (congrArg Sigma.fst h).symm

theorem posList_sum (cells : Fin nc → Cell K) (f : Pos cells → K) : ((posList cells).map f).sum = ∑ p, f p := by
  classical
  rw [← List.sum_toFinset f (nodup_posList cells)]
  congr 1
  ext p
  simp [mem_posList]

/-- The step of a face. -/
def stepAt (cells : Fin nc → Cell K) (s : Sys K) (p : Pos cells) : Sys K := faceStep (cells p.1) s p.2

theorem assemble_eq (cells : Fin nc → Cell K) : assemble cells = (posList cells).foldl (stepAt cells) Sys.zero := by
  unfold assemble posList
  rw [List.foldl_flatMap]
  congr 1
  funext s i
  rw [List.foldl_map]
  rfl

theorem partner_lt {cells : Fin nc → Cell K} {N : Nat} (h : Consistent cells N) (p : Pos cells) (v : K) (q : Nat)
    (hp : kind cells p = .periodic v q) : q < N := by
  obtain ⟨_, _, p', h1, _⟩ := h.periodic p v q hp
  rw [← h1]; exact h.num_lt p'

theorem res_fold {cells : Fin nc → Cell K} {N : Nat} (h : Consistent cells N) (x : Nat → K) (d : Nat)
    (l : List (Pos cells)) (hd : ∀ p ∈ l, ∀ v, kind cells p = .dirichlet v → d ≠ num cells p) (s : Sys K) :
    res N x (l.foldl (stepAt cells) s) d = res N x s d + (l.map fun p => delta (cells p.1) x d p.2).sum := by
  induction l generalizing s with
  | nil => simp
  | cons p l ih =>
    rw [List.foldl_cons, ih (fun q hq => hd q (List.mem_cons_of_mem _ hq)), List.map_cons, List.sum_cons]
    have := res_faceStep N x (cells p.1) p.2 d s (fun k => h.num_lt ⟨p.1, k⟩)
      (fun k v q hk => partner_lt h ⟨p.1, k⟩ v q hk) (hd p (List.mem_cons_self ..))
    unfold stepAt
    rw [this]; ring

theorem res_zero (N : Nat) (x : Nat → K) (d : Nat) : res N x Sys.zero d = 0 := by
  unfold res Sys.zero; simp

theorem res_assemble {cells : Fin nc → Cell K} {N : Nat} (h : Consistent cells N) (x : Nat → K) (d : Nat)
    (hd : ∀ p v, kind cells p = .dirichlet v → d ≠ num cells p) :
    res N x (assemble cells) d = ∑ p : Pos cells, delta (cells p.1) x d p.2 := by
  rw [assemble_eq, res_fold h x d _ (fun p _ => hd p), res_zero, zero_add, posList_sum]

/-! ### Rows with prescribed pressure -/

/-- Two systems agree in row `d`. -/
def SameRow (s t : Sys K) (d : Nat) : Prop := (∀ e, s.S d e = t.S d e) ∧ s.rhs d = t.rhs d

theorem SameRow.trans {s t u : Sys K} {d : Nat} (h : SameRow s t d) (h' : SameRow t u d) : SameRow s u d :=
  ⟨fun e => (h.1 e).trans (h'.1 e), h.2.trans h'.2⟩

theorem sameRow_add (s : Sys K) (i j d : Nat) (a : K) (h : d ≠ i) : SameRow (s.add i j a) s d :=
  ⟨fun e => by unfold Sys.add; simp [h], rfl⟩

theorem sameRow_addRhs (s : Sys K) (i d : Nat) (a : K) (h : d ≠ i) : SameRow (s.addRhs i a) s d :=
  ⟨fun _ => rfl, by unfold Sys.addRhs; simp [h]⟩

theorem sameRow_addColumn (c : Cell K) (r k : Fin c.nf) (ii d : Nat) (s : Sys K) (h : d ≠ ii) :
    SameRow (addColumn c r ii s k) s d := by
  unfold addColumn
  split
  · exact sameRow_addRhs _ _ _ _ h
  · split
    · exact (sameRow_add _ _ _ _ _ h).trans (sameRow_addRhs _ _ _ _ h)
    · exact sameRow_add _ _ _ _ _ h
  · exact sameRow_add _ _ _ _ _ h

theorem sameRow_addRow (c : Cell K) (r : Fin c.nf) (ii d : Nat) (s : Sys K) (h : d ≠ ii) :
    SameRow (addRow c r ii s) s d := by
  unfold addRow
  refine (sameRow_addRhs _ _ _ _ h).trans ?_
  generalize List.finRange c.nf = l
  induction l generalizing s with
  | nil => exact ⟨fun _ => rfl, rfl⟩
  | cons k l ih => exact (ih _).trans (sameRow_addColumn c r k ii d s h)

theorem sameRow_faceStep (c : Cell K) (r : Fin c.nf) (d : Nat) (s : Sys K) (h : d ≠ c.dof r)
    (hq : ∀ v q, c.ext r = .periodic v q → d ≠ q) : SameRow (faceStep c s r) s d := by
  unfold faceStep
  split
  · refine ⟨fun e => ?_, ?_⟩ <;> unfold Sys.assign <;> simp [h]
  · rename_i v q he
    have h2 := hq v q he
    refine (sameRow_addRow _ _ _ _ _ (by rcases min_choice (c.dof r) q with e | e <;> rw [e] <;> assumption)).trans ?_
    unfold addPeriodic
    exact (sameRow_addRhs _ _ _ _ h2).trans ((sameRow_add _ _ _ _ _ h2).trans ((sameRow_add _ _ _ _ _ h2).trans
      ((sameRow_addRhs _ _ _ _ h).trans ((sameRow_add _ _ _ _ _ h).trans (sameRow_add _ _ _ _ _ h)))))
  · exact sameRow_addRow _ _ _ _ _ h

theorem sameRow_fold (cells : Fin nc → Cell K) (d : Nat) (l : List (Pos cells)) (s : Sys K)
    (h : ∀ p ∈ l, d ≠ num cells p ∧ ∀ v q, kind cells p = .periodic v q → d ≠ q) :
    SameRow (l.foldl (stepAt cells) s) s d := by
  induction l generalizing s with
  | nil => exact ⟨fun _ => rfl, rfl⟩
  | cons p l ih =>
    have hp := h p (List.mem_cons_self ..)
    exact (ih _ fun q hq => h q (List.mem_cons_of_mem _ hq)).trans (sameRow_faceStep _ _ _ _ hp.1 hp.2)

/-- Row of a face with prescribed pressure. -/
theorem dirichlet_row {cells : Fin nc → Cell K} {N : Nat} (h : Consistent cells N) (p : Pos cells) (v : K)
    (hp : kind cells p = .dirichlet v) :
    (∀ e, (assemble cells).S (num cells p) e = if e = num cells p then (cells p.1).S p.2 p.2 else 0) ∧
      (assemble cells).rhs (num cells p) = (cells p.1).S p.2 p.2 * v := by
  obtain ⟨l1, l2, hl⟩ := List.append_of_mem (mem_posList cells p)
  have hnd := nodup_posList cells
  rw [hl] at hnd
  have hother : ∀ q, q ≠ p → num cells p ≠ num cells q ∧ ∀ w t, kind cells q = .periodic w t → num cells p ≠ t := by
    intro q hq
    refine ⟨fun e => hq (h.dirichlet p v hp q e.symm), fun w t ht e => ?_⟩
    obtain ⟨_, _, q', h1, h2⟩ := h.periodic q w t ht
    have := h.dirichlet p v hp q' (by rw [h1, e])
    rw [this, hp] at h2
    cases h2
  have h1 : ∀ q ∈ l1, q ≠ p := by
    intro q hq e
    rw [List.nodup_append] at hnd
    exact hnd.2.2 q hq p (List.mem_cons_self ..) e
  have h2 : ∀ q ∈ l2, q ≠ p := by
    intro q hq e
    rw [List.nodup_append, List.nodup_cons] at hnd
    exact hnd.2.1.1 (e ▸ hq)
  rw [assemble_eq, hl, List.foldl_append, List.foldl_cons]
  have s2 := sameRow_fold cells (num cells p) l2 (stepAt cells (l1.foldl (stepAt cells) Sys.zero) p)
    fun q hq => hother q (h2 q hq)
  have s1 := sameRow_fold cells (num cells p) l1 Sys.zero fun q hq => hother q (h1 q hq)
  set t := l1.foldl (stepAt cells) Sys.zero
  have e : stepAt cells t p = t.assign (num cells p) ((cells p.1).S p.2 p.2) ((cells p.1).S p.2 p.2 * v) := by
    unfold stepAt faceStep
    rw [show (cells p.1).ext p.2 = .dirichlet v from hp]
    rfl
  rw [e] at s2
  rw [e]
  constructor
  · intro e
    rw [s2.1 e]
    unfold Sys.assign
    by_cases he : e = num cells p
    · simp [he]
    · simp only [he, and_false, if_false]
      rw [s1.1 e]; rfl
  · rw [s2.2]
    unfold Sys.assign
    simp

theorem dirichlet_sat {cells : Fin nc → Cell K} {N : Nat} (h : Consistent cells N) (x : Nat → K) (p : Pos cells) (v : K)
    (hp : kind cells p = .dirichlet v) (hs : (cells p.1).S p.2 p.2 ≠ 0) (hr : res N x (assemble cells) (num cells p) = 0) :
    x (num cells p) = v := by
  obtain ⟨h1, h2⟩ := dirichlet_row h p v hp
  unfold res at hr
  rw [h2] at hr
  simp only [h1, ite_mul, zero_mul] at hr
  rw [Finset.sum_ite_eq', if_pos (Finset.mem_range.mpr (h.num_lt p)), ← mul_sub] at hr
  rcases mul_eq_zero.mp hr with e | e
  · exact absurd e hs
  · exact (sub_eq_zero.mp e).symm

/-! ### Periodic rows -/

theorem periodic_pair {cells : Fin nc → Cell K} {N : Nat} (h : Consistent cells N) (p q : Pos cells) (v : K)
    (hp : kind cells p = .periodic v (num cells q)) : kind cells q = .periodic (-v) (num cells p) ∧ p ≠ q := by
  obtain ⟨h0, h1, q', h2, h3⟩ := h.periodic p v _ hp
  have := (h.periodic q' _ _ h3).2.1 q h2.symm
  rw [this]
  refine ⟨h3, fun e => h0 ?_⟩
  rw [this, e]

/-- The row with the larger number of a periodic pair is the pressure difference. -/
theorem periodic_sat {cells : Fin nc → Cell K} {N : Nat} (h : Consistent cells N) (x : Nat → K) (p q : Pos cells) (v : K)
    (hp : kind cells p = .periodic v (num cells q)) (hlt : num cells q < num cells p)
    (hs : (cells p.1).S p.2 p.2 + (cells q.1).S q.2 q.2 ≠ 0) (hr : res N x (assemble cells) (num cells p) = 0) :
    x (num cells p) = x (num cells q) + v := by
  classical
  obtain ⟨hq, hne⟩ := periodic_pair h p q v hp
  have hpu := (h.periodic p _ _ hp).2.1
  have hqu := (h.periodic q _ _ hq).2.1
  have hnd : ∀ p' w, kind cells p' = .dirichlet w → num cells p ≠ num cells p' := by
    intro p' w hw e
    rw [hpu p' e.symm, hp] at hw
    cases hw
  rw [res_assemble h x _ hnd] at hr
  have key : ∀ t : Pos cells, delta (cells t.1) x (num cells p) t.2 =
      (if t = p then (cells p.1).S p.2 p.2 * (v - (x (num cells p) - x (num cells q))) else 0) +
        if t = q then (cells q.1).S q.2 q.2 * (v - (x (num cells p) - x (num cells q))) else 0 := by
    intro t
    by_cases htp : t = p
    · subst htp
      unfold delta
      rw [show (cells t.1).ext t.2 = .periodic v (num cells q) from hp]
      simp only [if_true, if_neg hne]
      rw [if_pos (show num cells t = (cells t.1).dof t.2 from rfl), if_neg (show ¬ num cells t = num cells q by omega),
        if_neg (show ¬ num cells t = min ((cells t.1).dof t.2) (num cells q) by
          change ¬ num cells t = min (num cells t) (num cells q); omega)]
      change _ * _ - _ * (x (num cells t) - _) - _ + _ = _
      ring
    · by_cases htq : t = q
      · subst htq
        unfold delta
        rw [show (cells t.1).ext t.2 = .periodic (-v) (num cells p) from hq]
        simp only [if_true, if_neg htp]
        rw [if_neg (show ¬ num cells p = (cells t.1).dof t.2 from fun e => htp (hpu t e.symm)),
          if_neg (show ¬ num cells p = min ((cells t.1).dof t.2) (num cells p) by
            change ¬ num cells p = min (num cells t) (num cells p); omega)]
        change _ - (_ * _ - _ * (x (num cells t) - _)) + _ = _
        ring
      · rw [if_neg htp, if_neg htq, add_zero]
        have h1 : num cells p ≠ num cells t := fun e => htp (hpu t e.symm)
        unfold delta
        cases ht : (cells t.1).ext t.2 with
        | interior => exact if_neg h1
        | neumann _ => exact if_neg h1
        | dirichlet _ => rfl
        | periodic w s =>
          have h2 : num cells p ≠ s := by
            intro e
            obtain ⟨_, _, t', h4, h5⟩ := h.periodic t w s ht
            have h6 := hpu t' (by rw [h4, e])
            rw [h6, hp] at h5
            simp only [Ext.periodic.injEq] at h5
            exact htq (hqu t h5.2.symm)
          simp only
          rw [if_neg (show ¬ num cells p = (cells t.1).dof t.2 from h1), if_neg h2, if_neg (show ¬ num cells p =
            min ((cells t.1).dof t.2) s by
              rcases min_choice ((cells t.1).dof t.2) s with e | e <;> rw [e] <;> assumption)]
          ring
  rw [Finset.sum_congr rfl fun t _ => key t, Finset.sum_add_distrib, Finset.sum_ite_eq', Finset.sum_ite_eq',
    if_pos (Finset.mem_univ _), if_pos (Finset.mem_univ _), ← add_mul] at hr
  rcases mul_eq_zero.mp hr with e | e
  · exact absurd e hs
  · linear_combination -e

/-! ### Flux balance of rows -/

/-- The assembled row of a face is flux minus prescribed flux. -/
theorem balance_eq (c : Cell K) (x : Nat → K) (hs : ∀ i j, c.Binv i j = c.Binv j i) (hL : c.L ≠ 0)
    (he : ∀ k, eff c x k = x (c.dof k)) (r : Fin c.nf) : balance c x r = c.flux x r - extRhs (c.ext r) := by
  have hS : ∀ k, c.S r k = c.Binv r k - c.F r * c.F k / c.L := by
    intro k
    unfold Cell.S
    split
    · ring
    · rw [hs k r]; ring
  have hF : ∑ j, c.Binv r j = c.F r := by
    unfold Cell.F
    exact Finset.sum_congr rfl fun j _ => by rw [hs r j, mul_one]
  unfold balance Cell.flux Cell.rhs
  have e1 : ∑ k, c.S r k * eff c x k = ∑ k, c.Binv r k * x (c.dof k) - c.F r / c.L * ∑ k, c.F k * x (c.dof k) := by
    rw [Finset.mul_sum, ← Finset.sum_sub_distrib]
    exact Finset.sum_congr rfl fun k _ => by rw [hS, he]; ring
  have e2 : ∑ j, c.Binv r j * (c.pressure x - x (c.dof j)) =
      c.F r * c.pressure x - ∑ j, c.Binv r j * x (c.dof j) := by
    rw [← hF, Finset.sum_mul, ← Finset.sum_sub_distrib]
    exact Finset.sum_congr rfl fun j _ => by ring
  rw [e1, e2]
  unfold Cell.pressure
  field_simp
  ring

end Verif.Hybrid
