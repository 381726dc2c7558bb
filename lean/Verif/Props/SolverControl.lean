import Verif.Spec.SolverControl
import Verif.Props.HybridDefinite
import Mathlib.Tactic.Tauto

/-! C108: which linear system is solved, whatever was solved before. -/

namespace Verif.SolverControl

open Verif.Hybrid Verif.SolverControl.Spec

variable {K : Type} [Field K] [LinearOrder K] [IsStrictOrderedRing K]

/-! ### History -/

theorem solve_state (st : State K) (c : Call K) :
    (solve st c).2 = if Keeps c then
      some ⟨if c.type = 1 then .amg else if c.type = 2 then .kamg else .fastAmg, c.n,
        (regularise (doRegularization c.cells) (assemble c.cells)).S⟩ else st := by
  have hs : ∀ k, (solveStored k st c).2 = if c.same = false then
      some ⟨k, c.n, (regularise (doRegularization c.cells) (assemble c.cells)).S⟩ else st := by
    intro k
    unfold solveStored
    cases hc : c.same
    · simp
    · cases st with
      | none => simp
      | some p =>
        simp only [if_true]
        split <;> simp
  unfold solve Keeps
  by_cases h0 : c.type = 0
  · simp [h0]
  · by_cases h1 : c.type = 1
    · simp [h1, hs]
    · by_cases h2 : c.type = 2
      · simp [h2, hs]
      · by_cases h3 : c.type = 3
        · simp [h3, hs]
        · simp [h0, h1, h2, h3]

theorem after_kept (h : List (Call K)) :
    after h = (lastKept h).map fun c =>
      ⟨if c.type = 1 then .amg else if c.type = 2 then .kamg else .fastAmg, c.n,
        (regularise (doRegularization c.cells) (assemble c.cells)).S⟩ := by
  induction h using List.reverseRecOn with
  | nil => rfl
  | append_singleton h c ih =>
    unfold after lastKept at ih ⊢
    rw [List.foldl_append, List.reverse_append]
    simp only [List.foldl_cons, List.foldl_nil, List.reverse_cons, List.reverse_nil, List.nil_append, List.cons_append]
    rw [solve_state, List.find?_cons]
    by_cases hk : Keeps c
    · simp [hk]
    · simp only [hk, if_false, decide_false]
      exact ih

theorem lastKept_keeps {h : List (Call K)} {c : Call K} (hc : lastKept h = some c) : Keeps c := by
  have := List.find?_some hc
  exact of_decide_eq_true this

theorem regularise_eq (c : Call K) (i j : Nat) :
    (regularise (doRegularization c.cells) (assemble c.cells)).S i j = matrixOf c (PureNeumann c) i j := by
  unfold regularise matrixOf PureNeumann
  rw [← reg_iff]
  by_cases hr : doRegularization c.cells = true
  · simp only [hr, if_true, and_true]
    by_cases h : i = 0 ∧ j = 0
    · rw [if_pos h, if_pos h, h.1, h.2, mul_comm]
    · rw [if_neg h, if_neg h]
  · simp [hr]

theorem regularise_rhs (b : Bool) (s : Sys K) : (regularise b s).rhs = s.rhs := by
  unfold regularise
  split <;> rfl

/-- C108: which outcome a call has after any series of calls. A type other than 0, 1, 2, 3 is refused. With the flag and one
of the types 1, 2, 3, the call goes wrong if no preconditioner has been kept, and throws if the one kept last is of another
type. Otherwise the solver runs. -/
theorem C108_outcome (h : List (Call K)) (c : Call K) :
    ((solve (after h) c).1 = .unknownType ↔ c.type ≠ 0 ∧ c.type ≠ 1 ∧ c.type ≠ 2 ∧ c.type ≠ 3) ∧
    ((solve (after h) c).1 = .ub ↔ (c.type = 1 ∨ c.type = 2 ∨ c.type = 3) ∧ c.same = true ∧ lastKept h = none) ∧
    ((solve (after h) c).1 = .badCast ↔
      (c.type = 1 ∨ c.type = 2 ∨ c.type = 3) ∧ c.same = true ∧ ∃ c0, lastKept h = some c0 ∧ c0.type ≠ c.type) := by
  rw [after_kept]
  unfold solve
  by_cases h0 : c.type = 0
  · simp [h0, solveILU]
  by_cases h1 : c.type = 1
  · simp only [h1]
    unfold solveStored
    cases hc : c.same
    · simp
    · cases hl : lastKept h with
      | none => simp
      | some c0 =>
        obtain ⟨hk, _⟩ := lastKept_keeps hl
        rcases hk with e | e | e <;> simp [e]
  by_cases h2 : c.type = 2
  · simp only [h2]
    unfold solveStored
    cases hc : c.same
    · simp
    · cases hl : lastKept h with
      | none => simp
      | some c0 =>
        obtain ⟨hk, _⟩ := lastKept_keeps hl
        rcases hk with e | e | e <;> simp [e]
  by_cases h3 : c.type = 3
  · simp only [h3]
    unfold solveStored
    cases hc : c.same
    · simp
    · cases hl : lastKept h with
      | none => simp
      | some c0 =>
        obtain ⟨hk, _⟩ := lastKept_keeps hl
        rcases hk with e | e | e <;> simp [e]
  simp [h0, h1, h2, h3]

/-- What a run is, given the outcome. -/
theorem run_cases (h : List (Call K)) (c : Call K) (r : Run K) (hr : (solve (after h) c).1 = .run r) :
    let s := regularise (doRegularization c.cells) (assemble c.cells)
    (c.type = 0 ∧ r = ⟨s, c.n, c.n, s.S, fun _ => some 0, limit c.maxit c.n⟩) ∨
    ((c.type = 1 ∨ c.type = 2 ∨ c.type = 3) ∧ c.same = false ∧ r = ⟨s, c.n, c.n, s.S, guess s c.n, limit c.maxit c.n⟩) ∨
    ((c.type = 1 ∨ c.type = 2 ∨ c.type = 3) ∧ c.same = true ∧ ∃ c0, lastKept h = some c0 ∧ c0.type = c.type ∧
      r = ⟨assemble c.cells, c.n, c0.n, (regularise (doRegularization c0.cells) (assemble c0.cells)).S,
        guess (assemble c.cells) c.n, limit c.maxit c.n⟩) := by
  intro s
  rw [after_kept] at hr
  unfold solve at hr
  have key : ∀ k : Kind, (∀ c0 : Call K, Keeps c0 → ((if c0.type = 1 then Kind.amg else if c0.type = 2 then .kamg else .fastAmg) = k ↔
        c0.type = c.type)) → (solveStored k ((lastKept h).map fun c => (⟨if c.type = 1 then .amg else if c.type = 2 then .kamg else .fastAmg, c.n,
        (regularise (doRegularization c.cells) (assemble c.cells)).S⟩ : Stored K)) c).1 = .run r →
      (c.same = false ∧ r = ⟨s, c.n, c.n, s.S, guess s c.n, limit c.maxit c.n⟩) ∨
      (c.same = true ∧ ∃ c0, lastKept h = some c0 ∧ c0.type = c.type ∧
      r = ⟨assemble c.cells, c.n, c0.n, (regularise (doRegularization c0.cells) (assemble c0.cells)).S,
        guess (assemble c.cells) c.n, limit c.maxit c.n⟩) := by
    intro k hk hr
    unfold solveStored at hr
    cases hc : c.same
    · left
      simp only [hc, Bool.false_eq_true, if_false, Res.run.injEq] at hr
      exact ⟨rfl, hr.symm⟩
    · right
      cases hl : lastKept h with
      | none => simp [hc, hl] at hr
      | some c0 =>
        simp only [hc, hl, if_true, Option.map_some] at hr
        have hkk := hk c0 (lastKept_keeps hl)
        by_cases e : c0.type = c.type
        · rw [if_pos (hkk.mpr e)] at hr
          simp only [Res.run.injEq] at hr
          exact ⟨rfl, c0, rfl, e, hr.symm⟩
        · rw [if_neg fun x => e (hkk.mp x)] at hr
          simp at hr
  by_cases h0 : c.type = 0
  · left
    simp only [h0, if_true, solveILU, Res.run.injEq] at hr
    exact ⟨h0, hr.symm⟩
  · right
    by_cases h1 : c.type = 1
    · simp only [h1] at hr
      rcases key .amg (by rintro c0 ⟨e | e | e, _⟩ <;> simp [e, h1]) (by simpa using hr) with ⟨a, b⟩ | ⟨a, b⟩
      · exact .inl ⟨.inl h1, a, b⟩
      · exact .inr ⟨.inl h1, a, b⟩
    · by_cases h2 : c.type = 2
      · simp only [h2] at hr
        rcases key .kamg (by rintro c0 ⟨e | e | e, _⟩ <;> simp [e, h2]) (by simpa using hr) with ⟨a, b⟩ | ⟨a, b⟩
        · exact .inl ⟨.inr (.inl h2), a, b⟩
        · exact .inr ⟨.inr (.inl h2), a, b⟩
      · by_cases h3 : c.type = 3
        · simp only [h3] at hr
          rcases key .fastAmg (by rintro c0 ⟨e | e | e, _⟩ <;> simp [e, h3]) (by simpa using hr) with ⟨a, b⟩ | ⟨a, b⟩
          · exact .inl ⟨.inr (.inr h3), a, b⟩
          · exact .inr ⟨.inr (.inr h3), a, b⟩
        · simp [h0, h1, h2, h3] at hr

/-- C108: whatever was solved before and whatever the flag, the system handed to the solver is the one of the present call, never
an old one: its right-hand side, and its matrix, with the first entry doubled exactly if no pressure is prescribed and the
call is not a reuse. The limit on the iterations is the one asked for, or else the number of unknowns. -/
theorem C108_current (h : List (Call K)) (c : Call K) (r : Run K) (hr : (solve (after h) c).1 = .run r) :
    r.n = c.n ∧ r.sys.rhs = (assemble c.cells).rhs ∧
      (∀ i j, r.sys.S i j = matrixOf c (PureNeumann c ∧ (c.type = 0 ∨ c.same = false)) i j) ∧
      (0 < c.maxit → r.maxit = c.maxit) ∧ (c.maxit ≤ 0 → r.maxit = c.n) := by
  have hm : (0 < c.maxit → limit c.maxit c.n = c.maxit) ∧ (c.maxit ≤ 0 → limit c.maxit c.n = c.n) :=
    ⟨fun h => if_pos h, fun h => if_neg (not_lt.mpr h)⟩
  rcases run_cases h c r hr with ⟨h0, rfl⟩ | ⟨ht, hs, rfl⟩ | ⟨ht, hs, c0, _, _, rfl⟩
  · refine ⟨rfl, regularise_rhs _ _, fun i j => ?_, hm⟩
    simp only [h0, true_or, and_true]
    exact regularise_eq c i j
  · refine ⟨rfl, regularise_rhs _ _, fun i j => ?_, hm⟩
    simp only [hs, or_true, and_true]
    exact regularise_eq c i j
  · refine ⟨rfl, rfl, fun i j => ?_, hm⟩
    have h0 : c.type ≠ 0 := by omega
    unfold matrixOf
    simp [h0, hs]

/-- C108: the preconditioner belongs to the present call, or in a reuse to the last call that kept one; it is built from the
matrix with the first entry doubled if no pressure is prescribed there. -/
theorem C108_preconditioner (h : List (Call K)) (c : Call K) (r : Run K) (hr : (solve (after h) c).1 = .run r) :
    ∃ c0, (c.type = 0 ∨ c.same = false → c0 = c) ∧ (c.type ≠ 0 ∧ c.same = true → lastKept h = some c0 ∧ c0.type = c.type) ∧
      r.precN = c0.n ∧ ∀ i j, r.prec i j = matrixOf c0 (PureNeumann c0) i j := by
  rcases run_cases h c r hr with ⟨h0, rfl⟩ | ⟨ht, hs, rfl⟩ | ⟨ht, hs, c0, h1, h2, rfl⟩
  · exact ⟨c, fun _ => rfl, fun h => absurd h0 h.1, rfl, regularise_eq c⟩
  · exact ⟨c, fun _ => rfl, fun h => by simp [hs] at h, rfl, regularise_eq c⟩
  · exact ⟨c0, fun h => by rcases h with h | h; exacts [by omega, by simp [hs] at h], fun _ => ⟨h1, h2⟩, rfl, regularise_eq c0⟩

/-! ### Solutions -/

theorem linear_regularise (c : Call K) : linearSystem c.cells = regularise (doRegularization c.cells) (assemble c.cells) := rfl

/-- Any solution of the system of a run solves the assembled one. -/
theorem run_solves (h : List (Call K)) (c : Call K) (r : Run K) (hr : (solve (after h) c).1 = .run r) (hw : WellPosed c)
    (hc : Compatible c.cells) (x : Nat → K) (hx : Solves r.sys r.n x) : Solves (assemble c.cells) c.n x := by
  rcases run_cases h c r hr with ⟨h0, rfl⟩ | ⟨ht, hs, rfl⟩ | ⟨ht, hs, c0, h1, h2, rfl⟩
  · exact solves_assembled hw.consistent hw.elliptic hc x hx
  · exact solves_assembled hw.consistent hw.elliptic hc x hx
  · exact hx

/-- The kernel of the assembled matrix. -/
theorem kernel (c : Call K) (hw : WellPosed c) (z : Nat → K)
    (hz : ∀ d, d < c.n → ∑ e ∈ Finset.range c.n, (assemble c.cells).S d e * z e = 0) :
    (∃ t, ∀ d, d < c.n → z d = t) ∧ ((∃ p v, kind c.cells p = .dirichlet v) → ∀ d, d < c.n → z d = 0) := by
  have h0 : (assemble c.cells).form c.n z z = 0 := by
    unfold Sys.form
    refine Finset.sum_eq_zero fun d hd => ?_
    rw [Finset.sum_congr rfl fun e _ => mul_assoc (z d) _ _, ← Finset.mul_sum, hz d (Finset.mem_range.mp hd), mul_zero]
  obtain ⟨h1, h2⟩ := form_zero hw.consistent hw.elliptic z h0
  by_cases hd : ∃ p v, kind c.cells p = .dirichlet v
  · have : ∀ d, d < c.n → z d = 0 := by
      intro d hdn
      obtain ⟨p, rfl⟩ := hw.anchored.face d hdn
      rcases hw.anchored.link p with ⟨t, v, ht, hl⟩ | ⟨hn, _⟩
      · rw [← h2 t p hl]; exact h1 t v ht
      · obtain ⟨p, v, e⟩ := hd; exact absurd e (hn p v)
    exact ⟨⟨0, this⟩, fun _ => this⟩
  · refine ⟨⟨z 0, fun d hdn => ?_⟩, fun h => absurd h hd⟩
    obtain ⟨p, rfl⟩ := hw.anchored.face d hdn
    rcases hw.anchored.link p with ⟨t, v, ht, hl⟩ | ⟨_, t, ht, hl⟩
    · exact absurd ⟨t, v, ht⟩ hd
    · rw [← h2 t p hl, ht]

/-- Fluxes do not feel a constant; cell pressures take it over. -/
theorem flux_shift (c : Call K) (hw : WellPosed c) (x y : Nat → K) (t : K) (ht : ∀ d, d < c.n → x d = y d + t) :
    (∀ p, outflux c.cells x p = outflux c.cells y p) ∧ ∀ i, (c.cells i).pressure x = (c.cells i).pressure y + t := by
  have hp : ∀ i, (c.cells i).pressure x = (c.cells i).pressure y + t := by
    intro i
    have hL := (elliptic_L hw.elliptic i).ne'
    unfold Cell.pressure
    have hx : ∀ j, x ((c.cells i).dof j) = y ((c.cells i).dof j) + t := fun j => ht _ (hw.consistent.num_lt ⟨i, j⟩)
    simp only [hx, mul_add]
    rw [Finset.sum_add_distrib, ← Finset.sum_mul]
    have : ∑ j, (c.cells i).F j = (c.cells i).L := rfl
    rw [this, ← add_assoc, add_div, mul_div_cancel_left₀ _ hL]
  refine ⟨fun p => ?_, hp⟩
  unfold outflux Cell.flux
  rw [hp]
  congr 1
  refine Finset.sum_congr rfl fun j _ => ?_
  have hx : x ((c.cells p.1).dof j) = y ((c.cells p.1).dof j) + t := ht _ (hw.consistent.num_lt ⟨p.1, j⟩)
  rw [hx]; ring

/-- C108, partial: whatever was solved before, whatever the solver type and with or without reuse, a solution of the system that
is handed to the solver gives the fluxes of the problem as a fresh solve finds them (C38, C75), and its face and cell pressures up
to one constant; without a constant if a pressure is prescribed. (Missing: without prescribed pressures, a reuse need not
find the same pressures as a fresh solve, see `C108_violated_singular`.) -/
theorem C108_solution_partial (h : List (Call K)) (c : Call K) (r : Run K) (hr : (solve (after h) c).1 = .run r)
    (hw : WellPosed c) (hc : Compatible c.cells) (x y : Nat → K) (hx : Solves r.sys r.n x)
    (hy : Solves (linearSystem c.cells) c.n y) :
    (∀ p, outflux c.cells x p = outflux c.cells y p) ∧
      ∃ t, (∀ p, x (num c.cells p) = y (num c.cells p) + t) ∧ (∀ i, (c.cells i).pressure x = (c.cells i).pressure y + t) ∧
        (¬ PureNeumann c ∨ c.type = 0 ∨ c.same = false → t = 0) := by
  have hx' := run_solves h c r hr hw hc x hx
  have hy' := solves_assembled hw.consistent hw.elliptic hc y hy
  obtain ⟨⟨t, ht⟩, h0⟩ := kernel c hw (fun d => x d - y d) fun d hd => by
    simp only [mul_sub, Finset.sum_sub_distrib]
    rw [hx' d hd, hy' d hd, sub_self]
  have ht' : ∀ d, d < c.n → x d = y d + t := fun d hd => by rw [← ht d hd]; ring
  obtain ⟨h1, h2⟩ := flux_shift c hw x y t ht'
  refine ⟨h1, t, fun p => ht' _ (hw.consistent.num_lt p), h2, fun hcase => ?_⟩
  have hn : 0 < c.n := by have := hw.two; omega
  rcases hcase with hd | hf
  · unfold PureNeumann at hd
    push Not at hd
    rw [← ht 0 hn]
    exact h0 hd 0 hn
  · have hx2 : Solves (linearSystem c.cells) c.n x := by
      rcases run_cases h c r hr with ⟨_, rfl⟩ | ⟨_, _, rfl⟩ | ⟨ht', hs, _⟩
      · exact hx
      · exact hx
      · rcases hf with e | e
        · omega
        · rw [hs] at e; cases e
    obtain ⟨w, _, hu⟩ := C75_solvable hw.consistent hw.elliptic hw.anchored hw.two
    rw [← ht 0 hn, hu x hx2 0 hn, hu y hy 0 hn, sub_self]

/-- C108: such a solution exists. -/
theorem C108_solvable (h : List (Call K)) (c : Call K) (r : Run K) (hr : (solve (after h) c).1 = .run r)
    (hw : WellPosed c) (hc : Compatible c.cells) : ∃ x, Solves r.sys r.n x := by
  obtain ⟨x, hx, _⟩ := C75_solvable hw.consistent hw.elliptic hw.anchored hw.two
  rcases run_cases h c r hr with ⟨_, rfl⟩ | ⟨_, _, rfl⟩ | ⟨_, _, _, _, _, rfl⟩
  · exact ⟨x, hx⟩
  · exact ⟨x, hx⟩
  · exact ⟨x, solves_assembled hw.consistent hw.elliptic hc x hx⟩

/-! ### First guess -/

theorem assemble_diag (c : Call K) (hw : WellPosed c) (d : Nat) (hd : d < c.n) : 0 < (assemble c.cells).S d d := by
  rw [← entry_form _ c.n d d hd hd]
  refine lt_of_le_of_ne (form_nonneg hw.consistent hw.elliptic _) fun e => ?_
  obtain ⟨h1, h2⟩ := form_zero hw.consistent hw.elliptic _ e.symm
  have h2n := hw.two
  obtain ⟨p, rfl⟩ := hw.anchored.face d hd
  rcases hw.anchored.link p with ⟨t, v, ht, hl⟩ | ⟨hn, t, ht, hl⟩
  · have a := h2 t p hl
    have b := h1 t v ht
    rw [b] at a
    simp at a
  · obtain ⟨q, hq⟩ := hw.anchored.face (if num c.cells p = 0 then 1 else 0) (by split <;> omega)
    have a := h2 t p hl
    rcases hw.anchored.link q with ⟨t', v', ht', _⟩ | ⟨_, t', ht', hl'⟩
    · exact absurd ht' (hn t' v')
    · have b := h2 t' q hl'
      rw [ht] at a
      rw [ht', hq] at b
      by_cases h0 : num c.cells p = 0
      · simp [h0] at b
      · simp [h0] at a
        exact h0 a.symm

theorem isolated_iff (s : Sys K) (n i : Nat) : isolated s n i = true ↔ ∀ j, j < n → j ≠ i → s.S i j = 0 := by
  unfold isolated
  simp only [List.all_eq_true, List.mem_range, Bool.or_eq_true, beq_iff_eq, decide_eq_true_eq]
  constructor
  · intro h j hj hne
    exact (h j hj).resolve_left hne
  · intro h j hj
    by_cases e : j = i
    · exact .inl e
    · exact .inr (h j hj e)

/-- C108: the first guess of the solver types 1, 2 and 3 is defined in every unknown. An equation without other unknowns
is satisfied by it exactly; on a face with a prescribed pressure it is that pressure; it is zero elsewhere. -/
theorem C108_guess (h : List (Call K)) (c : Call K) (r : Run K) (hr : (solve (after h) c).1 = .run r) (h0 : c.type ≠ 0)
    (hw : WellPosed c) :
    ∃ g : Nat → K, (∀ d, d < c.n → r.guess d = some (g d)) ∧
      (∀ d, d < c.n → (∀ e, e < c.n → e ≠ d → r.sys.S d e = 0) → ∑ e ∈ Finset.range c.n, r.sys.S d e * g e = r.sys.rhs d) ∧
      (∀ d, d < c.n → (∃ e, e < c.n ∧ e ≠ d ∧ r.sys.S d e ≠ 0) → g d = 0) ∧
      ∀ p v, kind c.cells p = .dirichlet v → g (num c.cells p) = v := by
  have hg : r.guess = guess r.sys c.n := by
    rcases run_cases h c r hr with ⟨e, _⟩ | ⟨_, _, rfl⟩ | ⟨_, _, _, _, _, rfl⟩
    · exact absurd e h0
    · rfl
    · rfl
  obtain ⟨_, hrhs, hS, _⟩ := C108_current h c r hr
  have hdiag : ∀ d, d < c.n → r.sys.S d d ≠ 0 := by
    intro d hd
    rw [hS]
    have := assemble_diag c hw d hd
    unfold matrixOf
    split
    · positivity
    · exact this.ne'
  have hrow : ∀ d, d < c.n → (∀ e, e < c.n → e ≠ d → r.sys.S d e = 0) → ∀ g : Nat → K,
      ∑ e ∈ Finset.range c.n, r.sys.S d e * g e = r.sys.S d d * g d := by
    intro d hd hz g
    refine Finset.sum_eq_single_of_mem d (Finset.mem_range.mpr hd) fun e he hne => ?_
    rw [hz e (Finset.mem_range.mp he) hne, zero_mul]
  refine ⟨fun d => if isolated r.sys c.n d then r.sys.rhs d / r.sys.S d d else 0, ?_, ?_, ?_, ?_⟩
  · intro d hd
    rw [hg]
    unfold guess Upscale.quot
    split
    · rw [if_neg (hdiag d hd)]
      simp_all
    · simp_all
  · intro d hd hz
    rw [hrow d hd hz]
    simp only [(isolated_iff _ _ _).mpr hz, if_true]
    exact mul_div_cancel₀ _ (hdiag d hd)
  · rintro d hd ⟨e, he, hne, hz⟩
    simp only
    rw [if_neg]
    intro hi
    exact hz ((isolated_iff _ _ _).mp hi e he hne)
  · intro p v hp
    obtain ⟨h1, h2⟩ := dirichlet_row hw.consistent p v hp
    have hnn : ¬ PureNeumann c := fun hn => hn p v hp
    have hSA : ∀ i j, r.sys.S i j = (assemble c.cells).S i j := by
      intro i j
      rw [hS]
      unfold matrixOf
      rw [if_neg fun hh => hnn hh.2.2.1]
    have hlt := hw.consistent.num_lt p
    have hiso : isolated r.sys c.n (num c.cells p) = true := by
      rw [isolated_iff]
      intro j _ hj
      rw [hSA, h1, if_neg hj]
    simp only [hiso, if_true]
    have hd := hdiag _ hlt
    rw [hSA, h1, if_pos rfl] at hd ⊢
    rw [hrhs, h2]
    field_simp

/-! ### The upscaler -/

/-- C108: the three solves of a permeability upscaling run for every boundary type and every solver type 0 to 3, whatever was
solved before; each direction gets the fluxes of a fresh solve of its own problem. With linear or periodic conditions and
solver types 1 to 3, directions 1 and 2 use the preconditioner of direction 0. -/
theorem C108_upscaler (h : List (Call K)) (bct : BCType) (type maxit : Int) (n : Nat) {nc : Nat}
    (cells : Fin 3 → Fin nc → Cell K) (ht : 0 ≤ type ∧ type ≤ 3) (k : Fin 3) :
    ∃ r, (outcomes (after h) (upscaleCalls bct type maxit n cells))[k.val]? = some (.run r) ∧ r.n = n ∧
      (∀ i j, r.prec i j = matrixOf ⟨nc, cells (if bct = .fixed ∨ type = 0 then k else 0), n, type, false, maxit⟩
        (∀ p v, kind (cells (if bct = .fixed ∨ type = 0 then k else 0)) p ≠ .dirichlet v) i j) ∧
      (Consistent (cells k) n → Elliptic (cells k) → Anchored (cells k) n → 2 ≤ n → Compatible (cells k) →
        ∀ x y, Solves r.sys n x → Solves (linearSystem (cells k)) n y → ∀ p, outflux (cells k) x p = outflux (cells k) y p) := by
  have e : upscaleCalls bct type maxit n cells =
      [⟨nc, cells 0, n, type, false, maxit⟩, ⟨nc, cells 1, n, type, bct != .fixed, maxit⟩,
        ⟨nc, cells 2, n, type, bct != .fixed, maxit⟩] := by
    unfold upscaleCalls
    rw [show List.finRange 3 = [0, 1, 2] from rfl]
    simp
  rw [e]
  set c0 : Call K := ⟨nc, cells 0, n, type, false, maxit⟩ with hc0
  set c1 : Call K := ⟨nc, cells 1, n, type, bct != .fixed, maxit⟩ with hc1
  set c2 : Call K := ⟨nc, cells 2, n, type, bct != .fixed, maxit⟩ with hc2
  have hafter : ∀ (l : List (Call K)) (c : Call K), (solve (after l) c).2 = after (l ++ [c]) := by
    intro l c
    unfold after
    rw [List.foldl_append]
    rfl
  have hout : outcomes (after h) [c0, c1, c2] =
      [(solve (after h) c0).1, (solve (after (h ++ [c0])) c1).1, (solve (after (h ++ [c0] ++ [c1])) c2).1] := by
    simp only [outcomes, hafter]
  have hkept : ∀ c : Call K, type ≠ 0 → Keeps c0 := fun _ h0 => ⟨by simp only [hc0]; omega, rfl⟩
  have hl1 : type ≠ 0 → lastKept (h ++ [c0]) = some c0 := by
    intro h0
    unfold lastKept
    simp [hkept c0 h0]
  have hl2 : type ≠ 0 → bct ≠ .fixed → lastKept (h ++ [c0] ++ [c1]) = some c0 := by
    intro h0 hb
    have : ¬ Keeps c1 := by rintro ⟨_, h⟩; simp [hc1, hb] at h
    unfold lastKept
    simp [hkept c0 h0, this]
  have hl2' : type ≠ 0 → bct = .fixed → lastKept (h ++ [c0] ++ [c1]) = some c1 := by
    intro h0 hb
    have : Keeps c1 := ⟨by simp only [hc1]; omega, by simp [hc1, hb]⟩
    unfold lastKept
    simp [this]
  have main : ∀ (l : List (Call K)) (k : Fin 3) (c : Call K), c.nc = nc → c.n = n → c.type = type →
      HEq c.cells (cells k) → (type ≠ 0 → c.same = true → lastKept l = some c0) →
      (c.same = false ↔ k = 0 ∨ bct = .fixed) →
      ∃ r, (solve (after l) c).1 = .run r ∧ r.n = n ∧
      (∀ i j, r.prec i j = matrixOf ⟨nc, cells (if bct = .fixed ∨ type = 0 then k else 0), n, type, false, maxit⟩
        (∀ p v, kind (cells (if bct = .fixed ∨ type = 0 then k else 0)) p ≠ .dirichlet v) i j) ∧
      (Consistent (cells k) n → Elliptic (cells k) → Anchored (cells k) n → 2 ≤ n → Compatible (cells k) →
        ∀ x y, Solves r.sys n x → Solves (linearSystem (cells k)) n y → ∀ p, outflux (cells k) x p = outflux (cells k) y p) := by
    intro l k c h1 h2 h3 h4 h5 h6
    obtain ⟨nc', cs, n', t', sm, mx⟩ := c
    simp only at h1 h2 h3 h5 h6
    subst h1 h2 h3
    simp only at h4
    have h4' := eq_of_heq h4
    subst h4'
    obtain ⟨o1, o2, o3⟩ := C108_outcome l ⟨nc', cells k, n', t', sm, mx⟩
    cases hres : (solve (after l) ⟨nc', cells k, n', t', sm, mx⟩).1 with
    | unknownType => have := o1.mp hres; simp only at this; omega
    | ub =>
      obtain ⟨a, b, d⟩ := o2.mp hres
      simp only at a b
      rw [h5 (by omega) b] at d
      cases d
    | badCast =>
      obtain ⟨a, b, c', d, e'⟩ := o3.mp hres
      simp only at a b e'
      rw [h5 (by omega) b] at d
      cases d
      exact absurd rfl e'
    | run r =>
      refine ⟨r, rfl, (C108_current l _ r hres).1, ?_, ?_⟩
      · obtain ⟨q, q1, q2, _, q4⟩ := C108_preconditioner l _ r hres
        intro i j
        rw [q4]
        simp only at q1 q2
        by_cases hq : t' = 0 ∨ sm = false
        · rw [q1 hq]
          have hk : (if bct = .fixed ∨ t' = 0 then k else 0) = k := by
            split
            · rfl
            · rename_i hn
              push Not at hn
              rcases hq with hq | hq
              · exact absurd hq hn.2
              · rcases h6.mp hq with h | h
                · exact h.symm
                · exact absurd h hn.1
          rw [hk]
          rfl
        · push Not at hq
          have hsm : sm = true := by simpa using hq.2
          have := (q2 ⟨hq.1, hsm⟩).1
          rw [h5 hq.1 hsm] at this
          cases this
          have hk : (if bct = .fixed ∨ t' = 0 then k else 0) = 0 := by
            rw [if_neg]
            rintro (h | h)
            · exact hq.2 (h6.mpr (.inr h))
            · exact hq.1 h
          rw [hk]
          rfl
      · intro a b d f g x y hx hy
        have hn := (C108_current l _ r hres).1
        exact (C108_solution_partial l _ r hres ⟨a, b, d, f⟩ g x y (by rw [hn]; exact hx) hy).1
  rw [hout]
  have hk : k = 0 ∨ k = 1 ∨ k = 2 := by omega
  rcases hk with rfl | rfl | rfl
  · obtain ⟨r, hr, rest⟩ := main h 0 c0 rfl rfl rfl HEq.rfl (fun _ h => by simp [hc0] at h) (by simp [hc0])
    exact ⟨r, by simp [hr], rest⟩
  · obtain ⟨r, hr, rest⟩ := main (h ++ [c0]) 1 c1 rfl rfl rfl HEq.rfl (fun h0 _ => hl1 h0) (by simp [hc1])
    exact ⟨r, by simp [hr], rest⟩
  · obtain ⟨r, hr, rest⟩ := main (h ++ [c0] ++ [c1]) 2 c2 rfl rfl rfl HEq.rfl
      (fun h0 hs => hl2 h0 (by rintro rfl; simp [hc2] at hs)) (by simp [hc2])
    exact ⟨r, by simpa using hr, rest⟩

/-! ### Cases -/

/-- The periodic pair of cells of C38, solved with AMG. -/
def pair (same : Bool) : Call ℚ := ⟨2, periodicCells, 3, 1, same, 0⟩

theorem pair_consistent : Consistent periodicCells 3 :=
  consistent_of _ _ (by decide +kernel) (by decide +kernel) (by decide +kernel)

theorem pair_posed (b : Bool) : WellPosed (pair b) :=
  ⟨pair_consistent,
    elliptic_two _ _ ⟨le_rfl, by unfold Mimetic.Symm; decide +kernel, posdef_two 2 0 2 (by norm_num) (by norm_num)⟩
      ⟨le_rfl, by unfold Mimetic.Symm; decide +kernel, posdef_two 3 1 2 (by norm_num) (by norm_num)⟩,
    periodicCells_anchored, show 2 ≤ 3 by decide⟩

/-- The hypotheses hold: two solves of the periodic pair, the second one with reuse. -/
example : ∃ r, (solve (after [pair false]) (pair true)).1 = .run r ∧ WellPosed (pair true) ∧ Compatible (pair true).cells :=
  ⟨_, rfl, pair_posed true, .inr (by decide +kernel)⟩

/-- C108, violated: in the reuse the matrix is singular: every constant can be added to the pressures. After a fresh solve
there is one solution only (C75). -/
theorem C108_violated_singular : ∃ r, (solve (after [pair false]) (pair true)).1 = .run r ∧
    ∀ x, Solves r.sys r.n x → ∀ t, Solves r.sys r.n fun d => x d + t := by
  have key : ∀ d < 3, ∑ e ∈ Finset.range 3, (assemble periodicCells).S d e = 0 := by decide +kernel
  have main : ∀ x, Solves (assemble periodicCells) 3 x → ∀ t, Solves (assemble periodicCells) 3 fun d => x d + t := by
    intro x hx t d hd
    simp only [mul_add, Finset.sum_add_distrib, ← Finset.sum_mul]
    rw [hx d hd, key d hd]
    ring
  exact ⟨_, rfl, main⟩

/-- The two cells between them without prescribed pressures, and with an unbalanced source. -/
def unbalanced (same : Bool) : Call ℚ :=
  ⟨2, fun i => { periodicCells i with src := 1 }, 3, 1, same, 0⟩

/-- C108, violated: with sources that do not balance, a fresh solve has a solution, a reuse has none. -/
theorem C108_violated_unbalanced :
    (∃ r x, (solve (after []) (unbalanced false)).1 = .run r ∧ Solves r.sys r.n x) ∧
      ∃ r, (solve (after [unbalanced false]) (unbalanced true)).1 = .run r ∧ ¬ ∃ x, Solves r.sys r.n x := by
  have h1 : Solves (linearSystem (unbalanced false).cells) 3 fun n => [7/6, 27/8, -5/8].getD n 0 := by
    unfold Solves; decide +kernel
  have h2 : ∀ e < 3, ∑ d ∈ Finset.range 3, (assemble (unbalanced true).cells).S d e = 0 := by decide +kernel
  have h3 : ∑ d ∈ Finset.range 3, (assemble (unbalanced true).cells).rhs d ≠ 0 := by decide +kernel
  have h4 : ¬ ∃ x, Solves (assemble (unbalanced true).cells) 3 x := by
    rintro ⟨x, hx⟩
    refine h3 ?_
    rw [← Finset.sum_congr rfl fun d hd => hx d (Finset.mem_range.mp hd), Finset.sum_comm]
    refine Finset.sum_eq_zero fun e he => ?_
    rw [← Finset.sum_mul, h2 e (Finset.mem_range.mp he), zero_mul]
  exact ⟨⟨_, _, rfl, h1⟩, _, rfl, h4⟩

/-- C108, violated: a reuse before anything was solved, or after ILU solves only, dereferences a null pointer; after a solve of
another type it throws. -/
theorem C108_violated_first : (solve (after []) (pair true)).1 = .ub ∧
    (solve (after [{ pair false with type := 0 }]) (pair true)).1 = .ub ∧
    (solve (after [{ pair false with type := 2 }]) (pair true)).1 = .badCast := by
  refine ⟨rfl, rfl, rfl⟩

/-- C108, violated: a reuse takes the preconditioner of another grid, with another number of unknowns. -/
theorem C108_violated_size (c0 c : Call K) (h0 : Keeps c0) (ht : c0.type = c.type) (hs : c.same = true) (hn : c0.n ≠ c.n) :
    ∃ r, (solve (after [c0]) c).1 = .run r ∧ r.precN ≠ r.n := by
  have hl : lastKept [c0] = some c0 := by simp [lastKept, h0]
  obtain ⟨o1, o2, o3⟩ := C108_outcome [c0] c
  have := h0.1
  cases hres : (solve (after [c0]) c).1 with
  | unknownType => have := o1.mp hres; omega
  | ub => have := (o2.mp hres).2.2; rw [hl] at this; cases this
  | badCast =>
    obtain ⟨_, _, c', d, e'⟩ := o3.mp hres
    rw [hl] at d
    cases d
    exact absurd ht e'
  | run r =>
    refine ⟨r, rfl, ?_⟩
    obtain ⟨q, _, q2, q3, _⟩ := C108_preconditioner [c0] c r hres
    have := (q2 ⟨by omega, hs⟩).1
    rw [hl] at this
    cases this
    rw [q3, (C108_current [c0] c r hres).1]
    exact hn

example : ∃ r, (solve (after [pair false]) ⟨2, twoCells, 4, 1, true, 0⟩).1 = .run r ∧ r.precN ≠ r.n :=
  C108_violated_size _ _ (by decide) rfl rfl (by decide)

end Verif.SolverControl
