import Verif.Spec.Control
import Mathlib.Tactic.Linarith
import Mathlib.Tactic.NormNum
import Mathlib.Algebra.Field.Rat
import Mathlib.Algebra.Order.Ring.Unbundled.Rat

/-!
C64: the sampling loop of the steady-state managers.
-/

namespace Verif.Control

open Verif.Spec

variable {K S T : Type}

theorem lastGood_cons (init : S) (o : Outcome (K := K) S T) (l : List (Outcome (K := K) S T)) :
    lastGood init (o :: l) = lastGood (if o.success then o.state else init) l := by
  unfold lastGood
  by_cases h : o.success = true
  · rw [if_pos h, List.filter_cons_of_pos h, List.getLast?_cons]
    cases (l.filter fun o => o.success).getLast? <;> simp
  · rw [List.filter_cons_of_neg h, if_neg h]

/-- One saturation: the computations are made in the order of the pressure drops, one row each; computation `k` starts
from the (limited) state of the last successful computation before it, or the initial profile; the row holds that
computation's results; the loop stops early exactly when a computation throws, after having written all earlier rows. -/
theorem C64_pressure_drops (limit : S → S) (hl : ∀ s, limit (limit s) = limit s)
    (solve : K → S → Option (Outcome (K := K) S T)) (ps : List K) (init : S) :
    ∃ outs : List (Outcome (K := K) S T),
      (pdropLoop limit solve ps init).1.length = outs.length ∧ outs.length ≤ ps.length ∧
      (∀ (k : Nat) (o : Outcome (K := K) S T), outs[k]? = some o →
        ∃ p, ps[k]? = some p ∧ solve p (limit (lastGood init (outs.take k))) = some o ∧
          (pdropLoop limit solve ps init).1[k]? = some (p, o.usat, o.lambda, o.success)) ∧
      ((pdropLoop limit solve ps init).2 = true ↔ outs.length = ps.length) ∧
      ((pdropLoop limit solve ps init).2 = false →
        ∃ p, ps[outs.length]? = some p ∧ solve p (limit (lastGood init outs)) = none) := by
  induction ps generalizing init with
  | nil =>
    refine ⟨[], rfl, le_refl _, ?_, ?_, ?_⟩
    · intro k o h; simp at h
    · simp [pdropLoop]
    · simp [pdropLoop]
  | cons p ps ih =>
    cases hs : solve p (limit init) with
    | none =>
      refine ⟨[], ?_, by simp, ?_, ?_, ?_⟩
      · simp [pdropLoop, hs]
      · intro k o h; simp at h
      · simp [pdropLoop, hs]
      · intro _
        exact ⟨p, rfl, by simpa [lastGood] using hs⟩
    | some o =>
      have hstep : pdropLoop limit solve (p :: ps) init =
          ((p, o.usat, o.lambda, o.success) :: (pdropLoop limit solve ps (if o.success then o.state else limit init)).1,
            (pdropLoop limit solve ps (if o.success then o.state else limit init)).2) := by
        simp only [pdropLoop, hs]
      obtain ⟨outs, h1, h2, h3, h4, h5⟩ := ih (if o.success then o.state else limit init)
      have hlast : ∀ l : List (Outcome (K := K) S T),
          limit (lastGood (if o.success then o.state else limit init) l) = limit (lastGood init (o :: l)) := by
        intro l
        rw [lastGood_cons]
        by_cases h : o.success = true
        · simp [h]
        · simp only [h, Bool.false_eq_true, if_false]
          unfold lastGood
          cases (l.filter fun o => o.success).getLast? <;> simp [hl]
      rw [hstep]
      refine ⟨o :: outs, by simp [h1], by simp [h2], ?_, by simp [h4], ?_⟩
      · intro k q hk
        cases k with
        | zero =>
          simp only [List.getElem?_cons_zero, Option.some.injEq] at hk
          subst hk
          exact ⟨p, rfl, by simpa [lastGood] using hs, rfl⟩
        | succ k =>
          simp only [List.getElem?_cons_succ] at hk
          obtain ⟨p', e1, e2, e3⟩ := h3 k q hk
          refine ⟨p', by simpa using e1, ?_, by simpa using e3⟩
          rw [List.take_succ_cons, ← hlast]
          exact e2
      · intro hf
        obtain ⟨p', e1, e2⟩ := h5 hf
        refine ⟨p', by simpa using e1, ?_⟩
        rw [← hlast]
        exact e2

/-- All saturations: if no computation throws, the rows are those of each saturation in turn, each run started from its
own profile; there is one row per (saturation, pressure drop). -/
theorem C64_saturations (limit : S → S) (hl : ∀ s, limit (limit s) = limit s) (start : K → S)
    (solve : K → K → S → Option (Outcome (K := K) S T)) (runs : List (K × List K))
    (h : (satLoop limit start solve runs).2 = true) :
    (satLoop limit start solve runs).1 =
      (runs.flatMap fun r => (pdropLoop limit (solve r.1) r.2 (start r.1)).1) ∧
    (satLoop limit start solve runs).1.length = (runs.map fun r => r.2.length).sum ∧
    (satLoop limit start solve runs).1.map Prod.fst = runs.flatMap fun r => r.2 := by
  induction runs with
  | nil => exact ⟨rfl, rfl, rfl⟩
  | cons r runs ih =>
    obtain ⟨s, ps⟩ := r
    unfold satLoop at h ⊢
    by_cases hr : (pdropLoop limit (solve s) ps (start s)).2 = true
    · simp only [hr, if_true] at h ⊢
      obtain ⟨i1, i2, i3⟩ := ih h
      obtain ⟨outs, h1, h2, h3, h4, _⟩ := C64_pressure_drops limit hl (solve s) ps (start s)
      have hlen := h4.mp hr
      refine ⟨?_, ?_, ?_⟩
      · rw [i1, List.flatMap_cons]
      · rw [List.length_append, i2, h1, hlen]
        simp
      · rw [List.map_append, i3, List.flatMap_cons]
        congr 1
        apply List.ext_getElem?
        intro k
        rw [List.getElem?_map]
        by_cases hk : k < outs.length
        · obtain ⟨p, e1, _, e3⟩ := h3 k outs[k] (List.getElem?_eq_getElem hk)
          rw [e3, e1]; rfl
        · rw [List.getElem?_eq_none (by omega)]
          rw [List.getElem?_eq_none (by show ps.length ≤ k; omega)]; rfl
    · rw [Bool.not_eq_true] at hr
      simp [hr] at h

/-- A thrown exception in an earlier saturation leaves its complete rows but nothing of the later saturations. -/
theorem C64_stops (limit : S → S) (start : K → S) (solve : K → K → S → Option (Outcome (K := K) S T))
    (s : K) (ps : List K) (runs : List (K × List K)) (h : (pdropLoop limit (solve s) ps (start s)).2 = false) :
    satLoop limit start solve ((s, ps) :: runs) = ((pdropLoop limit (solve s) ps (start s)).1, false) := by
  simp [satLoop, h]

/-! ### the saturation limits -/

variable [Field K] [LinearOrder K]

theorem initSatLimits_get (eps : K) (smin smax : Nat → K) (s : List K) (i : Nat) :
    (initSatLimits eps smin smax s)[i]? = (s[i]?).map fun x => min (smax i - eps) (max (smin i + eps) x) := by
  simp [initSatLimits, List.getElem?_map, List.getElem?_zipIdx]
  cases s[i]? <;> simp

/-- Limiting the initial saturations twice is limiting them once (the hypothesis of the loop theorems), whatever the
limits are. -/
theorem C64_limits_idempotent (eps : K) (smin smax : Nat → K) (s : List K) :
    initSatLimits eps smin smax (initSatLimits eps smin smax s) = initSatLimits eps smin smax s := by
  apply List.ext_getElem?
  intro i
  rw [initSatLimits_get, initSatLimits_get]
  cases s[i]? with
  | none => rfl
  | some x =>
    simp only [Option.map_some, Option.some.injEq]
    rcases le_total (smax i - eps) (smin i + eps) with h | h
    · rw [min_eq_left (le_trans h (le_max_left _ _)), min_eq_left (le_trans h (le_max_left _ _))]
    · rw [max_eq_right (le_min h (le_max_left _ _)), min_eq_right (min_le_left _ _)]

/-- Where the limits leave room the result lies between them and values already there are unchanged. -/
theorem C64_limits (eps : K) (smin smax : Nat → K) (s : List K) (i : Nat) (x : K) (hx : s[i]? = some x)
    (h : smin i + eps ≤ smax i - eps) :
    ∃ y, (initSatLimits eps smin smax s)[i]? = some y ∧ smin i + eps ≤ y ∧ y ≤ smax i - eps ∧
      (smin i + eps ≤ x → x ≤ smax i - eps → y = x) := by
  refine ⟨_, by rw [initSatLimits_get, hx]; rfl, ?_, min_le_left _ _, ?_⟩
  · exact le_min h (le_max_left _ _)
  · intro h1 h2
    rw [max_eq_right h1, min_eq_right h2]

/-! ### a concrete run -/

/-- A solver that fails for the pressure drop 20 and otherwise adds the pressure drop to the state. -/
def exSolve : ℚ → ℚ → ℚ → Option (Outcome (K := ℚ) ℚ ℚ) :=
  fun s p st => some ⟨(s, st), if p = 20 then 0 else st + p, st, decide (p ≠ 20)⟩

example : satLoop (fun x : ℚ => x) (fun s => s) exSolve [(1, [10, 20, 30]), (2, [10])] =
    ([(10, 1, (1, 1), true), (20, 11, (1, 11), false), (30, 11, (1, 11), true), (10, 2, (2, 2), true)], true) := by
  decide +kernel

example : initSatLimits (1 / 10 : ℚ) (fun _ => 0) (fun _ => 1) [0, 1 / 2, 1] = [1 / 10, 1 / 2, 9 / 10] := by
  decide +kernel

end Verif.Control
