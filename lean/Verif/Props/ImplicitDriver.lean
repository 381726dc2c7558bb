import Verif.Model.ImplicitDriver
import Mathlib.Tactic.Ring
import Mathlib.Tactic.FieldSimp
import Mathlib.Algebra.Field.Rat

/-! C55: retries of the implicit transport driver. -/

namespace Verif.ImplicitDriver

variable {K X : Type} [Field K]

/-- `n` successive substeps of length `dt`, all converged. -/
inductive Spec.AllConverge (solve : K → X → X × Bool) (dt : K) : Nat → X → X → Prop
  | nil (s) : AllConverge solve dt 0 s s
  | cons {n s s1 s2} : solve dt s = (s1, true) → AllConverge solve dt n s1 s2 → AllConverge solve dt (n + 1) s s2

/-- Some substep before the `n`-th fails to converge, leaving the state `s'`. -/
inductive Spec.Fails (solve : K → X → X × Bool) (dt : K) : Nat → X → X → Prop
  | here {n s s'} : solve dt s = (s', false) → Fails solve dt (n + 1) s s'
  | later {n s s1 s2} : solve dt s = (s1, true) → Fails solve dt n s1 s2 → Fails solve dt (n + 1) s s2

theorem attempt_true (solve : K → X → X × Bool) (dt : K) (n : Nat) (s s' : X) : attempt solve dt n s = (s', true) ↔ Spec.AllConverge solve dt n s s' := by
  induction n generalizing s with
  | zero =>
    unfold attempt
    constructor
    · intro h; simp at h; subst h; exact .nil _
    · intro h; cases h; rfl
  | succ n ih =>
    unfold attempt
    constructor
    · intro h
      rcases e : solve dt s with ⟨s1, b⟩
      rw [e] at h
      cases b with
      | true => exact .cons e ((ih s1).1 h)
      | false => simp at h
    · intro h
      cases h with
      | cons e h => rw [e]; exact (ih _).2 h

theorem attempt_false (solve : K → X → X × Bool) (dt : K) (n : Nat) (s s' : X) : attempt solve dt n s = (s', false) ↔ Spec.Fails solve dt n s s' := by
  induction n generalizing s with
  | zero =>
    unfold attempt
    constructor
    · intro h; simp at h
    · intro h; cases h
  | succ n ih =>
    unfold attempt
    constructor
    · intro h
      rcases e : solve dt s with ⟨s1, b⟩
      rw [e] at h
      cases b with
      | true => exact .later e ((ih s1).1 h)
      | false => simp at h; subst h; exact .here e
    · intro h
      cases h with
      | here e => rw [e]
      | later e h => rw [e]; exact (ih _).2 h

theorem drive_spec (solve : K → X → X × Bool) (time : K) (s0 : X) (fuel r : Nat) (dt : K) (hdt : dt = time / (2 ^ r : Nat)) :
    let o := drive solve time s0 fuel r (2 ^ r) dt
    r + 1 ≤ o.attempts ∧ o.attempts ≤ r + fuel + 1 ∧ o.steps = 2 ^ (o.attempts - 1) ∧
    (∀ k, r ≤ k → k + 1 < o.attempts → ∃ s', Spec.Fails solve (time / (2 ^ k : Nat)) (2 ^ k) s0 s') ∧
    (o.ok = true → Spec.AllConverge solve (time / (o.steps : Nat)) o.steps s0 o.sat) ∧
    (o.ok = false → o.attempts = r + fuel + 1 ∧ Spec.Fails solve (time / (o.steps : Nat)) o.steps s0 o.sat) := by
  induction fuel generalizing r dt with
  | zero =>
    unfold drive
    rcases e : attempt solve dt (2 ^ r) s0 with ⟨s, b⟩
    cases b with
    | true =>
      rw [attempt_true, hdt] at e
      exact ⟨le_rfl, le_rfl, rfl, fun k h1 h2 => absurd h2 (by simp; omega), fun _ => e, by simp⟩
    | false =>
      rw [attempt_false, hdt] at e
      exact ⟨le_rfl, le_rfl, rfl, fun k h1 h2 => absurd h2 (by simp; omega), by simp, fun _ => ⟨rfl, e⟩⟩
  | succ fuel ih =>
    unfold drive
    rcases e : attempt solve dt (2 ^ r) s0 with ⟨s, b⟩
    cases b with
    | true =>
      rw [attempt_true, hdt] at e
      exact ⟨le_rfl, by simp, rfl, fun k h1 h2 => absurd h2 (by simp; omega), fun _ => e, by simp⟩
    | false =>
      rw [attempt_false, hdt] at e
      have hp : 2 ^ r * 2 = 2 ^ (r + 1) := by ring
      simp only [hp]
      obtain ⟨a, b, c, d, f, g⟩ := ih (r + 1) (time / (2 ^ (r + 1) : Nat)) rfl
      refine ⟨by omega, by omega, c, ?_, f, fun h => ⟨by have := (g h).1; omega, (g h).2⟩⟩
      intro k h1 h2
      rcases Nat.eq_or_lt_of_le h1 with rfl | h1
      · exact ⟨s, e⟩
      · exact d k h1 h2

/-- **C55** At most `max_repeats + 2` attempts; the `k`-th (from 0) uses `2^k` equal substeps of the whole interval, starting from the saved initial state; every attempt but the last failed; true is
returned exactly after an attempt in which every substep converged, and the saturation is then the result of these substeps; false only after the last attempt allowed, and the saturation is then that
left by the substep that failed. -/
theorem C55_retries (solve : K → X → X × Bool) (maxRepeats : Nat) (time : K) (s0 : X) :
    let o := transportSolve solve maxRepeats time s0
    1 ≤ o.attempts ∧ o.attempts ≤ maxRepeats + 2 ∧ o.steps = 2 ^ (o.attempts - 1) ∧
    (∀ k, k + 1 < o.attempts → ∃ s', Spec.Fails solve (time / (2 ^ k : Nat)) (2 ^ k) s0 s') ∧
    (o.ok = true → Spec.AllConverge solve (time / (o.steps : Nat)) o.steps s0 o.sat) ∧
    (o.ok = false → o.attempts = maxRepeats + 2 ∧ Spec.Fails solve (time / (o.steps : Nat)) o.steps s0 o.sat) := by
  have := drive_spec solve time s0 (maxRepeats + 1) 0 time (by simp)
  simp only [pow_zero] at this
  obtain ⟨a, b, c, d, f, g⟩ := this
  unfold transportSolve
  exact ⟨by omega, by omega, c, fun k h => d k (Nat.zero_le _) h, f, fun h => ⟨by have := (g h).1; omega, (g h).2⟩⟩

/-- **C55** The substeps of an attempt cover the whole interval. -/
theorem C55_covers [CharZero K] (solve : K → X → X × Bool) (maxRepeats : Nat) (time : K) (s0 : X) :
    (transportSolve solve maxRepeats time s0).steps * (time / ((transportSolve solve maxRepeats time s0).steps : K)) = time := by
  have h := (C55_retries solve maxRepeats time s0).2.2.1
  have : ((transportSolve solve maxRepeats time s0).steps : K) ≠ 0 := by rw [h]; simp
  field_simp

/-- A step that converges only if it is short enough: success at the third attempt with four substeps. -/
def exSolve : ℚ → ℚ → ℚ × Bool := fun dt s => (s + dt, decide (dt ≤ 1))

example : (transportSolve exSolve 10 4 0).attempts = 3 ∧ (transportSolve exSolve 10 4 0).steps = 4 ∧ (transportSolve exSolve 10 4 0).sat = 4 ∧
    (transportSolve exSolve 10 4 0).ok = true := by decide +kernel

/-- All twelve attempts fail; the state left behind is that of the first substep of the last one. -/
example : (transportSolve (fun dt s => (s + dt, false)) 10 (4096 : ℚ) 0).attempts = 12 ∧ (transportSolve (fun dt s => (s + dt, false)) 10 (4096 : ℚ) 0).sat = 2 ∧
    (transportSolve (fun dt s => (s + dt, false)) 10 (4096 : ℚ) 0).ok = false := by decide +kernel

end Verif.ImplicitDriver
