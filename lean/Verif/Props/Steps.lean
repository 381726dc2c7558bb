import Verif.Model.Euler
import Mathlib.Tactic.FieldSimp
import Mathlib.Tactic.Linarith
import Mathlib.Tactic.Positivity
import Mathlib.Tactic.NormNum
import Mathlib.Tactic.Push
import Mathlib.Data.Rat.Floor
import Mathlib.Algebra.Order.Floor.Ring

/-! C12: number of small steps and retries of the explicit transport solver. -/

namespace Verif.Euler

/-! Specification. -/

/-- `n` successive small steps of length `dt`, none of which throws, lead from the first state to the second. -/
inductive Runs {K S : Type} (step : K → S → S × Bool) (dt : K) : Nat → S → S → Prop
  | done (s : S) : Runs step dt 0 s s
  | step {n : Nat} {s s' t : S} : step dt s = (s', true) → Runs step dt n s' t → Runs step dt (n + 1) s t

section
variable {K S : Type} [Field K]

theorem attempt_ok_iff (step : K → S → S × Bool) (dt : K) (n : Nat) (s t : S) :
    attempt step dt n s = (t, true) ↔ Runs step dt n s t := by
  induction n generalizing s with
  | zero =>
    simp only [attempt, Prod.mk.injEq, and_true]
    constructor
    · rintro rfl; exact .done _
    · intro h; cases h; rfl
  | succ n ih =>
    simp only [attempt]
    constructor
    · intro h
      split at h
      · rename_i s' hs
        exact .step hs ((ih s').1 h)
      · cases h
    · intro h
      cases h with
      | step hs hr => rw [hs]; exact (ih _).2 hr

theorem attempt_fail_iff (step : K → S → S × Bool) (dt : K) (n : Nat) (s : S) :
    (attempt step dt n s).2 = false ↔ ¬ ∃ t, Runs step dt n s t := by
  constructor
  · rintro h ⟨t, ht⟩
    rw [(attempt_ok_iff step dt n s t).2 ht] at h
    cases h
  · intro h
    cases hb : (attempt step dt n s).2 with
    | false => rfl
    | true => exact absurd ⟨(attempt step dt n s).1, (attempt_ok_iff step dt n s _).1 (by rw [← hb])⟩ h

theorem loop_spec (step : K → S → S × Bool) (time : K) (init : S) (fuel n : Nat) :
    ∃ k, k ≤ fuel ∧ (solveLoop step time init fuel n init).tries = (List.range (k + 1)).map (fun j => n * 2 ^ j) ∧
      (∀ j, j < k → ¬ ∃ t, Runs step (time / ((n * 2 ^ j : Nat) : K)) (n * 2 ^ j) init t) ∧
      (((solveLoop step time init fuel n init).ok = true ∧
          Runs step (time / ((n * 2 ^ k : Nat) : K)) (n * 2 ^ k) init (solveLoop step time init fuel n init).sat) ∨
       ((solveLoop step time init fuel n init).ok = false ∧ k = fuel ∧
          (¬ ∃ t, Runs step (time / ((n * 2 ^ k : Nat) : K)) (n * 2 ^ k) init t) ∧
          (solveLoop step time init fuel n init).sat = (attempt step (time / ((n * 2 ^ k : Nat) : K)) (n * 2 ^ k) init).1)) := by
  induction fuel generalizing n with
  | zero =>
    refine ⟨0, le_rfl, ?_, by omega, ?_⟩
    · unfold solveLoop
      rcases h : attempt step (time / n) n init with ⟨s', b⟩
      cases b <;> simp
    · unfold solveLoop
      rcases h : attempt step (time / n) n init with ⟨s', b⟩
      cases b with
      | true => left; simpa using (attempt_ok_iff step (time / n) n init s').1 h
      | false =>
        right
        refine ⟨rfl, rfl, ?_, by simp [h]⟩
        have := (attempt_fail_iff step (time / n) n init).1 (by rw [h])
        simpa using this
  | succ fuel ih =>
    rcases h : attempt step (time / n) n init with ⟨s', b⟩
    cases b with
    | true =>
      have hu : solveLoop step time init (fuel + 1) n init = ⟨s', true, [n]⟩ := by
        unfold solveLoop; rw [h]
      rw [hu]
      exact ⟨0, by omega, by simp, by omega, Or.inl ⟨rfl, by simpa using (attempt_ok_iff step (time / n) n init s').1 h⟩⟩
    | false =>
      have hu : solveLoop step time init (fuel + 1) n init =
          { solveLoop step time init fuel (2 * n) init with tries := n :: (solveLoop step time init fuel (2 * n) init).tries } := by
        conv_lhs => unfold solveLoop
        rw [h]
      obtain ⟨k, hk, htr, hf, hres⟩ := ih (2 * n)
      have hpow : ∀ j, 2 * n * 2 ^ j = n * 2 ^ (j + 1) := by intro j; rw [pow_succ]; ring
      rw [hu]
      refine ⟨k + 1, by omega, ?_, ?_, ?_⟩
      · simp only
        rw [htr, List.range_succ_eq_map (n := k + 1), List.map_cons, List.map_map]
        simp only [pow_zero, mul_one, List.cons.injEq, true_and]
        apply List.map_congr_left
        intro j _
        exact hpow j
      · intro j hj
        cases j with
        | zero =>
          have := (attempt_fail_iff step (time / n) n init).1 (by rw [h])
          simpa using this
        | succ j =>
          have := hf j (by omega)
          rwa [hpow j] at this
      · rw [hpow k] at hres
        rcases hres with hres | ⟨h1, h2, h3⟩
        · exact Or.inl hres
        · exact Or.inr ⟨h1, by omega, h3⟩

/-- **C12** The solver returns normally exactly if one of the eleven attempts with `n, 2n, …, 1024n` equal small steps runs through
from the initial saturation. -/
theorem C12_success_iff (step : K → S → S × Bool) (time : K) (n : Nat) (s : S) :
    (transportSolve step time n s).ok = true ↔
      ∃ k, k ≤ 10 ∧ ∃ t, Runs step (time / ((n * 2 ^ k : Nat) : K)) (n * 2 ^ k) s t := by
  obtain ⟨k, hk, _, hf, h⟩ := loop_spec step time s 10 n
  unfold transportSolve
  constructor
  · intro hok
    rcases h with ⟨_, h⟩ | ⟨h, _⟩
    · exact ⟨k, hk, _, h⟩
    · rw [hok] at h; cases h
  · rintro ⟨j, hj, t, ht⟩
    rcases h with ⟨h, _⟩ | ⟨_, h2, h3, _⟩
    · exact h
    · exfalso
      rcases Nat.lt_or_ge j k with hjk | hjk
      · exact hf j hjk ⟨t, ht⟩
      · have : j = k := by omega
        subst this; exact h3 ⟨t, ht⟩

/-- **C12** On normal return the result is what `N` equal small steps from the initial saturation give, with `N * dt = time`; `N` is the first of
`n, 2n, 4n, …` that succeeds, and exactly the attempts up to it are made. -/
theorem C12_result [CharZero K] (step : K → S → S × Bool) (time : K) (n : Nat) (hn : n ≠ 0) (s : S)
    (hok : (transportSolve step time n s).ok = true) :
    ∃ k dt, k ≤ 10 ∧ Runs step dt (n * 2 ^ k) s (transportSolve step time n s).sat ∧
      ((n * 2 ^ k : Nat) : K) * dt = time ∧
      (transportSolve step time n s).tries = (List.range (k + 1)).map (fun j => n * 2 ^ j) ∧
      ∀ j, j < k → ∀ d, ((n * 2 ^ j : Nat) : K) * d = time → ¬ ∃ t, Runs step d (n * 2 ^ j) s t := by
  obtain ⟨k, hk, htr, hf, h⟩ := loop_spec step time s 10 n
  unfold transportSolve at hok ⊢
  have hne : ∀ j, ((n * 2 ^ j : Nat) : K) ≠ 0 := by
    intro j; rw [Nat.cast_ne_zero]; positivity
  rcases h with ⟨_, h⟩ | ⟨h, _⟩
  · refine ⟨k, _, hk, h, ?_, htr, ?_⟩
    · rw [mul_comm, div_mul_cancel₀ _ (hne k)]
    · intro j hj d hd
      have : d = time / ((n * 2 ^ j : Nat) : K) := by rw [← hd, mul_comm, mul_div_cancel_right₀ _ (hne j)]
      rw [this]; exact hf j hj
  · rw [hok] at h; cases h

/-- **C12** On failure exactly eleven attempts have been made, all of which failed. -/
theorem C12_failure (step : K → S → S × Bool) (time : K) (n : Nat) (s : S)
    (hok : (transportSolve step time n s).ok = false) :
    (transportSolve step time n s).tries = (List.range 11).map (fun j => n * 2 ^ j) ∧
    ∀ k, k ≤ 10 → ¬ ∃ t, Runs step (time / ((n * 2 ^ k : Nat) : K)) (n * 2 ^ k) s t := by
  obtain ⟨k, hk, htr, hf, h⟩ := loop_spec step time s 10 n
  unfold transportSolve at hok ⊢
  rcases h with ⟨h, _⟩ | ⟨_, h2, h3, _⟩
  · rw [hok] at h; cases h
  · subst h2
    refine ⟨htr, fun j hj => ?_⟩
    rcases Nat.lt_or_ge j 10 with hjk | hjk
    · exact hf j hjk
    · have : j = 10 := by omega
      subst this; exact h3

/-- **C12** The step counter does not overflow a 32-bit `int` if the first attempt has at most 2^20 steps (the default maximum is 10000). -/
theorem C12_no_overflow (step : K → S → S × Bool) (time : K) (n : Nat) (hn : n ≤ 2 ^ 20) (s : S) :
    ∀ m ∈ (transportSolve step time n s).tries, m ≤ 2147483647 := by
  obtain ⟨k, hk, htr, _⟩ := loop_spec step time s 10 n
  unfold transportSolve
  rw [htr]
  intro m hm
  rw [List.mem_map] at hm
  obtain ⟨j, hj, rfl⟩ := hm
  rw [List.mem_range] at hj
  have : (2 : Nat) ^ j ≤ 2 ^ 10 := Nat.pow_le_pow_right (by norm_num) (by omega)
  calc n * 2 ^ j ≤ 2 ^ 20 * 2 ^ 10 := Nat.mul_le_mul hn this
    _ ≤ 2147483647 := by norm_num

end

/-- A solver state for the examples: a counter of completed steps; a step fails if it is longer than 1/4. -/
def exStep : ℚ → ℚ → ℚ × Bool := fun dt s => (s + dt, decide (dt ≤ 1 / 4))

/-- With three initial steps for unit time two attempts are made and the second succeeds. -/
example : (transportSolve exStep 1 3 0).ok = true ∧ (transportSolve exStep 1 3 0).tries = [3, 6] ∧ (transportSolve exStep 1 3 0).sat = 1 := by
  decide +kernel

/-- **C12** (violated: state after failure) When all attempts fail the exception leaves the caller with the partially advanced saturation of the last
attempt, not with the initial one. -/
theorem C12_violated_not_restored :
    ∃ (step : ℚ → ℚ → ℚ × Bool) (time : ℚ) (n : Nat) (s : ℚ), (transportSolve step time n s).ok = false ∧
      (transportSolve step time n s).sat ≠ s :=
  ⟨fun dt s => (s + dt, decide (s + dt < 1)), 2, 1, 0, by decide +kernel, by decide +kernel⟩

section
variable {K : Type} [Field K] [LinearOrder K] [IsStrictOrderedRing K] [FloorRing K]

/-- **C12** The number of steps of the first attempt respects the configured bounds. -/
theorem C12_bounds (lo hi : Nat) (hlh : lo ≤ hi) (cfl time : K) :
    lo ≤ firstSteps lo hi cfl time ∧ firstSteps lo hi cfl time ≤ hi := by
  unfold firstSteps
  split
  · exact ⟨le_rfl, hlh⟩
  · exact ⟨le_min (le_max_right _ _) hlh, min_le_right _ _⟩

/-- **C12** The small steps respect the CFL limit unless the number of steps is capped (by the configured maximum, or the largest `int`). -/
theorem C12_respects_cfl (lo hi : Nat) (hlo : 0 < lo) (cfl time : K) (hc : 0 < cfl) (ht : 0 ≤ time) :
    time / (firstSteps lo hi cfl time : K) ≤ cfl ∨ firstSteps lo hi cfl time = hi ∨ 2147483647 ≤ firstSteps lo hi cfl time := by
  unfold firstSteps
  by_cases h : cfl > time
  · left
    rw [if_pos h]
    have : (1 : K) ≤ (lo : K) := by exact_mod_cast hlo
    calc time / (lo : K) ≤ time := div_le_self ht this
      _ ≤ cfl := h.le
  · rw [if_neg h]
    simp only [if_neg hc.ne']
    by_cases hcap : hi ≤ max (min ⌈time / cfl⌉.toNat 2147483647) lo
    · right; left; exact min_eq_right hcap
    · rw [min_eq_left (by omega)]
      by_cases hbig : 2147483647 ≤ ⌈time / cfl⌉.toNat
      · right; right; rw [min_eq_right hbig]; exact le_max_left _ _
      · left
        rw [min_eq_left (by omega)]
        set m := max ⌈time / cfl⌉.toNat lo with hm
        have hmpos : (0 : K) < (m : K) := by
          have : 0 < m := lt_of_lt_of_le hlo (le_max_right _ _)
          exact_mod_cast this
        have h1 : time / cfl ≤ (m : K) := by
          have h2 : (⌈time / cfl⌉ : K) ≤ ((⌈time / cfl⌉.toNat : Int) : K) := by
            exact_mod_cast Int.self_le_toNat _
          calc time / cfl ≤ (⌈time / cfl⌉ : K) := Int.le_ceil _
            _ ≤ ((⌈time / cfl⌉.toNat : Int) : K) := h2
            _ = ((⌈time / cfl⌉.toNat : Nat) : K) := by push_cast; rfl
            _ ≤ (m : K) := by exact_mod_cast le_max_left _ _
        rw [div_le_iff₀ hmpos]
        rw [div_le_iff₀ hc] at h1
        linarith

/-- **C12** No more steps than needed: if there are more than the configured minimum, one step less would exceed the CFL limit. -/
theorem C12_minimal (lo hi : Nat) (cfl time : K) (hc : 0 < cfl) (ht : 0 ≤ time)
    (hm : lo < firstSteps lo hi cfl time) : ((firstSteps lo hi cfl time : K) - 1) * cfl < time := by
  unfold firstSteps at hm ⊢
  by_cases h : cfl > time
  · rw [if_pos h] at hm; omega
  · rw [if_neg h] at hm ⊢
    simp only [if_neg hc.ne'] at hm ⊢
    set m := min (max (min ⌈time / cfl⌉.toNat 2147483647) lo) hi with hmd
    have hle : m ≤ ⌈time / cfl⌉.toNat := by omega
    have hpos : 0 ≤ ⌈time / cfl⌉ := Int.ceil_nonneg (by positivity)
    have h1 : (m : K) ≤ (⌈time / cfl⌉ : K) := by
      have : (m : Int) ≤ ⌈time / cfl⌉ := by omega
      exact_mod_cast this
    have h2 : (⌈time / cfl⌉ : K) - 1 < time / cfl := by
      have := Int.ceil_lt_add_one (time / cfl); linarith
    have h3 : (m : K) - 1 < time / cfl := by linarith
    rwa [lt_div_iff₀ hc] at h3

end

example : firstSteps 1 10000 (3 / 10 : ℚ) 2 = 7 := by
  decide +kernel

end Verif.Euler
