import Verif.Model.Steady
import Verif.Spec.Steady
import Mathlib.Algebra.Order.BigOperators.Group.List
import Mathlib.Algebra.Field.Rat
import Mathlib.Algebra.Order.Ring.Unbundled.Rat
import Mathlib.Tactic.Ring
import Mathlib.Tactic.Linarith
import Mathlib.Tactic.Positivity
import Mathlib.Tactic.FieldSimp
import Mathlib.Data.Real.Sqrt

/-!
Property C34: the steady state iterations.
-/

namespace Verif.Steady

open Spec

variable {K : Type} [Field K] [LinearOrder K] [IsStrictOrderedRing K]

omit [Field K] [IsStrictOrderedRing K] in
theorem foldl_max_lt {α : Type} (w : α → K) (t : K) (l : List α) (m : K) :
    l.foldl (fun m p => max m (w p)) m < t ↔ m < t ∧ ∀ p ∈ l, w p < t := by
  induction l generalizing m with
  | nil => simp
  | cons a l ih =>
    rw [List.foldl_cons, ih, max_lt_iff]
    simp [and_assoc]

omit [IsStrictOrderedRing K] in
theorem maxdiff_lt (t : K) (ht : 0 < t) (new old : List K) :
    maxdiff new old < t ↔ ChangeBelow true [] t new old := by
  unfold maxdiff ChangeBelow
  rw [foldl_max_lt (fun p : K × K => |p.1 - p.2|)]
  constructor
  · rintro ⟨_, h⟩
    intro i x y hx hy
    exact h (x, y) (List.mem_of_getElem? (i := i) (by rw [List.getElem?_zip_eq_some]; exact ⟨hx, hy⟩))
  · intro h
    refine ⟨ht, fun p hp => ?_⟩
    obtain ⟨i, hi⟩ := List.getElem?_of_mem hp
    obtain ⟨h1, h2⟩ := List.getElem?_zip_eq_some.mp hi
    exact h i _ _ h1 h2

omit [LinearOrder K] [IsStrictOrderedRing K] in
theorem foldl_add {α : Type} (w : α → K) (l : List α) (m : K) :
    l.foldl (fun a p => a + w p) m = m + (l.map w).sum := by
  induction l generalizing m with
  | nil => simp
  | cons a l ih => rw [List.foldl_cons, ih, List.map_cons, List.sum_cons, add_assoc]

omit [LinearOrder K] [IsStrictOrderedRing K] in
theorem foldl_add_id (l : List K) (m : K) : l.foldl (· + ·) m = m + l.sum := by
  have := foldl_add (fun x : K => x) l m
  simpa using this

omit [LinearOrder K] [IsStrictOrderedRing K] in
theorem sqdiff_eq (pv new old : List K) :
    sqdiff pv new old = (((new.zip old).zip pv).map fun p => (p.1.1 - p.1.2) ^ 2 * p.2).sum := by
  unfold sqdiff
  rw [foldl_add (fun p : (K × K) × K => (p.1.1 - p.1.2) * (p.1.1 - p.1.2) * p.2), zero_add]
  simp only [pow_two]

theorem sqdiff_nonneg (pv new old : List K) (hpv : ∀ v ∈ pv, 0 ≤ v) : 0 ≤ sqdiff pv new old := by
  rw [sqdiff_eq]
  apply List.sum_nonneg
  intro x hx
  obtain ⟨p, hp, rfl⟩ := List.mem_map.mp hx
  exact mul_nonneg (sq_nonneg _) (hpv _ (List.of_mem_zip hp).2)

theorem euclid_lt (P : Params K) (hs : IsSqrt P.sqrt) (pv : List K) (hpv : ∀ v ∈ pv, 0 ≤ v) (htot : 0 < pv.sum)
    (t : K) (ht : 0 < t) (new old : List K) :
    euclid P pv new old < t ↔ ChangeBelow false pv t new old := by
  unfold euclid ChangeBelow
  rw [foldl_add_id, zero_add, ← sqdiff_eq]
  have hq := div_nonneg (sqdiff_nonneg pv new old hpv) htot.le
  obtain ⟨h0, h1⟩ := hs _ hq
  have : P.sqrt (sqdiff pv new old / pv.sum) < t ↔ sqdiff pv new old / pv.sum < t ^ 2 := by
    rw [pow_two]
    constructor
    · intro h
      calc _ = _ := h1.symm
        _ < t * t := mul_self_lt_mul_self h0 h
    · intro h
      rw [← h1] at h
      exact lt_of_mul_self_lt_mul_self₀ ht.le h
  rw [this, div_lt_iff₀ htot]
  rfl

/-- The selected measure of change is below a positive tolerance exactly when the change is. -/
theorem change_lt (P : Params K) (hs : P.useMaxdiff = false → IsSqrt P.sqrt) (pv : List K) (hpv : ∀ v ∈ pv, 0 ≤ v) (htot : 0 < pv.sum)
    (t : K) (ht : 0 < t) (new old : List K) :
    change P pv new old < t ↔ ChangeBelow P.useMaxdiff pv t new old := by
  unfold change
  cases h : P.useMaxdiff
  · simpa using euclid_lt P (hs h) pv hpv htot t ht new old
  · simpa [ChangeBelow] using maxdiff_lt t ht new old

/-- What the solver answered in a call ended the iteration. -/
def Rec.Done (P : Params K) (pv : List K) (r : Rec K) : Prop :=
  r.converged = true ∧ change P pv r.after r.before * P.year / r.dt < P.satChangeYear

/-- The step size of the next call. -/
def Rec.next (P : Params K) (pv : List K) (r : Rec K) : K :=
  if r.converged then (if change P pv r.after r.before < P.dtSatTol then min P.maxStep (2 * r.dt) else r.dt)
  else r.dt / 2

omit [IsStrictOrderedRing K] in
theorem body_spec (P : Params K) (pv : List K) (solve : Nat → List K → K → Bool × List K) (it : Nat) (s : LoopSt K)
    (hs : s.satOld = s.sat) (hst : s.stationary = false) :
    ∃ r s', body P pv solve it s = (r, s') ∧ solve it r.before r.dt = (r.converged, r.after) ∧ r.before = s.sat ∧
      r.dt = s.step ∧ s'.sat = r.after ∧ s'.satOld = s'.sat ∧ s'.step = r.next P pv ∧
      (s'.stationary = true ↔ r.Done P pv) := by
  unfold body
  cases h : solve it s.sat s.step with
  | mk c a =>
    cases c
    · refine ⟨_, _, rfl, h, rfl, rfl, rfl, rfl, by simp [Rec.next], ?_⟩
      simp [Rec.Done, hst]
    · refine ⟨_, _, rfl, h, rfl, rfl, rfl, rfl, ?_, ?_⟩
      · simp [Rec.next, hs]
      · simp [Rec.Done, hs]

omit [IsStrictOrderedRing K] in
theorem loop_stationary (P : Params K) (pv : List K) (solve : Nat → List K → K → Bool × List K) (n it : Nat)
    (s : LoopSt K) (h : s.stationary = true) : loop P pv solve n it s = ([], s) := by
  cases n with
  | zero => rfl
  | succ n => rw [loop, if_pos h]

/-- Everything about the calls made by the loop, in one induction. -/
structure Trace (P : Params K) (pv : List K) (solve : Nat → List K → K → Bool × List K) (n it : Nat)
    (s : LoopSt K) (recs : List (Rec K)) (fin : LoopSt K) : Prop where
  bound : recs.length ≤ n
  full : fin.stationary = false → recs.length = n
  call : ∀ (i : Nat) (r : Rec K), recs[i]? = some r → solve (it + i) r.before r.dt = (r.converged, r.after)
  first : ∀ r : Rec K, recs[0]? = some r → r.before = s.sat ∧ r.dt = s.step
  link : ∀ (i : Nat) (r r' : Rec K), recs[i]? = some r → recs[i + 1]? = some r' →
    r'.before = r.after ∧ r'.dt = r.next P pv ∧ ¬ r.Done P pv
  success : fin.stationary = true ↔ ∃ r, recs.getLast? = some r ∧ r.Done P pv
  last : (recs.getLast?.map Rec.after).getD s.sat = fin.sat

omit [IsStrictOrderedRing K] in
theorem loop_trace (P : Params K) (pv : List K) (solve : Nat → List K → K → Bool × List K) (n it : Nat)
    (s : LoopSt K) (hs : s.satOld = s.sat) (hst : s.stationary = false) :
    Trace P pv solve n it s (loop P pv solve n it s).1 (loop P pv solve n it s).2 := by
  induction n generalizing it s with
  | zero =>
    constructor <;> simp [loop, hst]
  | succ n ih =>
    obtain ⟨r, s', hb, hcall, hbef, hdt, haft, hold, hnext, hdone⟩ := body_spec P pv solve it s hs hst
    have hl : loop P pv solve (n + 1) it s =
        (r :: (loop P pv solve n (it + 1) s').1, (loop P pv solve n (it + 1) s').2) := by
      rw [loop, if_neg (by simp [hst]), hb]
    rw [hl]
    cases hst' : s'.stationary with
    | true =>
      rw [loop_stationary P pv solve n _ _ hst']
      have hd := hdone.mp hst'
      constructor
      · simp
      · simp [hst']
      · intro i q hq
        cases i with
        | zero => simp at hq; subst hq; exact hcall
        | succ i => simp at hq
      · intro q hq
        simp at hq; subst hq; exact ⟨hbef, hdt⟩
      · intro i q q' _ hq'
        simp at hq'
      · simp [hst', hd]
      · simp [haft]
    | false =>
      have T := ih (it + 1) s' hold hst'
      have hnd : ¬ r.Done P pv := fun h => by rw [← hdone] at h; simp [hst'] at h
      constructor
      · simpa using T.bound
      · intro h
        simpa using T.full h
      · intro i q hq
        cases i with
        | zero => simp at hq; subst hq; exact hcall
        | succ i =>
          have := T.call i q (by simpa using hq)
          rwa [show it + (i + 1) = it + 1 + i by omega]
      · intro q hq
        simp at hq; subst hq; exact ⟨hbef, hdt⟩
      · intro i q q' hq hq'
        cases i with
        | zero =>
          simp only [List.getElem?_cons_zero, Option.some.injEq] at hq
          subst hq
          obtain ⟨h1, h2⟩ := T.first q' (by simpa using hq')
          exact ⟨by rw [h1, haft], by rw [h2, hnext], hnd⟩
        | succ i => exact T.link i q q' (by simpa using hq) (by simpa using hq')
      · rw [T.success]
        generalize (loop P pv solve n (it + 1) s').1 = l
        cases l with
        | nil => simp [hnd]
        | cons a l => simp [List.getLast?_cons_cons]
      · have := T.last
        revert this
        generalize (loop P pv solve n (it + 1) s').1 = l
        cases l with
        | nil => simp [haft]
        | cons a l => simp [List.getLast?_cons]

/-- The saturations change by less than `tol` per year during a call of length `dt`. -/
def RateBelow (perCell : Bool) (pv : List K) (year tol : K) (r : Rec K) : Prop :=
  ChangeBelow perCell pv (tol * r.dt / year) r.after r.before

theorem done_iff (P : Params K) (hs : P.useMaxdiff = false → IsSqrt P.sqrt) (pv : List K)
    (hpv : ∀ v ∈ pv, 0 ≤ v) (htot : 0 < pv.sum)
    (hy : 0 < P.year) (ht : 0 < P.satChangeYear) (r : Rec K) (hdt : 0 < r.dt) :
    r.Done P pv ↔ r.converged = true ∧ RateBelow P.useMaxdiff pv P.year P.satChangeYear r := by
  unfold Rec.Done RateBelow
  rw [div_lt_iff₀ hdt, ← lt_div_iff₀ hy, change_lt P hs pv hpv htot _ (by positivity)]

/-- C34: the number of transport calls never exceeds the configured maximum, and an iteration that does not report
success has used all of them. -/
theorem C34_bounded (P : Params K) (pv : List K) (solve : Nat → List K → K → Bool × List K) (init : List K) :
    (run P pv solve init).1.length ≤ P.maxIt ∧
    ((run P pv solve init).2.stationary = false → (run P pv solve init).1.length = P.maxIt) := by
  have T := loop_trace P pv solve P.maxIt 0 ⟨init, init, P.initStep, false⟩ rfl rfl
  exact ⟨T.bound, T.full⟩

/-- C34: the calls. The first call starts from the given saturations with the initial step size, every further one
from what the previous call left. A step that did not converge is halved; after a converged one the step is doubled, up to the
maximum, exactly if the saturations changed by less than the tolerance, and kept otherwise. -/
theorem C34_schedule (P : Params K) (hs : P.useMaxdiff = false → IsSqrt P.sqrt) (pv : List K)
    (hpv : ∀ v ∈ pv, 0 ≤ v) (htot : 0 < pv.sum)
    (htol : 0 < P.dtSatTol) (solve : Nat → List K → K → Bool × List K) (init : List K) :
    (∀ (i : Nat) (r : Rec K), (run P pv solve init).1[i]? = some r →
      solve i r.before r.dt = (r.converged, r.after)) ∧
    (∀ r : Rec K, (run P pv solve init).1[0]? = some r → r.before = init ∧ r.dt = P.initStep) ∧
    (∀ (i : Nat) (r r' : Rec K), (run P pv solve init).1[i]? = some r → (run P pv solve init).1[i + 1]? = some r' →
      r'.before = r.after ∧
      (r.converged = false → r'.dt = r.dt / 2) ∧
      (r.converged = true → ChangeBelow P.useMaxdiff pv P.dtSatTol r.after r.before →
        r'.dt = min P.maxStep (2 * r.dt)) ∧
      (r.converged = true → ¬ ChangeBelow P.useMaxdiff pv P.dtSatTol r.after r.before → r'.dt = r.dt)) ∧
    ((run P pv solve init).1.getLast?.map Rec.after).getD init = (run P pv solve init).2.sat := by
  have T := loop_trace P pv solve P.maxIt 0 ⟨init, init, P.initStep, false⟩ rfl rfl
  refine ⟨fun i r h => ?_, T.first, fun i r r' h h' => ?_, T.last⟩
  · have := T.call i r h
    rwa [Nat.zero_add] at this
  · obtain ⟨h1, h2, -⟩ := T.link i r r' h h'
    refine ⟨h1, fun hc => ?_, fun hc hb => ?_, fun hc hb => ?_⟩
    · rw [h2, Rec.next, if_neg (by simp [hc])]
    · rw [h2, Rec.next, if_pos hc, if_pos ((change_lt P hs pv hpv htot _ htol _ _).mpr hb)]
    · rw [h2, Rec.next, if_pos hc, if_neg (fun h => hb ((change_lt P hs pv hpv htot _ htol _ _).mp h))]

omit [IsStrictOrderedRing K] in
theorem next_pos [IsStrictOrderedRing K] (P : Params K) (pv : List K) (r : Rec K) (hm : 0 < P.maxStep) (h : 0 < r.dt) :
    0 < r.next P pv := by
  unfold Rec.next
  split
  · split
    · exact lt_min hm (by positivity)
    · exact h
  · positivity

/-- C34: the step size is always positive, and never above the maximum if the initial one is not. -/
theorem C34_step_range (P : Params K) (pv : List K) (solve : Nat → List K → K → Bool × List K) (init : List K)
    (hi : 0 < P.initStep) (hm : P.initStep ≤ P.maxStep) :
    ∀ r ∈ (run P pv solve init).1, 0 < r.dt ∧ r.dt ≤ P.maxStep := by
  have T := loop_trace P pv solve P.maxIt 0 ⟨init, init, P.initStep, false⟩ rfl rfl
  have key : ∀ (i : Nat) (r : Rec K), (run P pv solve init).1[i]? = some r → 0 < r.dt ∧ r.dt ≤ P.maxStep := by
    intro i
    induction i with
    | zero =>
      intro r hr
      obtain ⟨_, h⟩ := T.first r hr
      rw [h]
      exact ⟨hi, hm⟩
    | succ i ih =>
      intro r' hr'
      obtain ⟨r, hr⟩ : ∃ r, (run P pv solve init).1[i]? = some r := by
        have := (List.getElem?_eq_some_iff.mp hr').1
        exact ⟨_, List.getElem?_eq_getElem (by omega)⟩
      obtain ⟨h1, h2⟩ := ih r hr
      obtain ⟨-, h, -⟩ := T.link i r r' hr hr'
      rw [h]
      refine ⟨next_pos P pv r (lt_of_lt_of_le hi hm) h1, ?_⟩
      unfold Rec.next
      split
      · split
        · exact min_le_left _ _
        · exact h2
      · linarith
  intro r hr
  obtain ⟨i, h⟩ := List.getElem?_of_mem hr
  exact key i r h

/-- C34: positivity alone, without any relation between the initial and the maximal step. -/
theorem C34_step_positive (P : Params K) (pv : List K) (solve : Nat → List K → K → Bool × List K) (init : List K)
    (hi : 0 < P.initStep) (hm : 0 < P.maxStep) : ∀ r ∈ (run P pv solve init).1, 0 < r.dt := by
  have T := loop_trace P pv solve P.maxIt 0 ⟨init, init, P.initStep, false⟩ rfl rfl
  have key : ∀ (i : Nat) (r : Rec K), (run P pv solve init).1[i]? = some r → 0 < r.dt := by
    intro i
    induction i with
    | zero =>
      intro r hr
      obtain ⟨_, h⟩ := T.first r hr
      rw [h]
      exact hi
    | succ i ih =>
      intro r' hr'
      obtain ⟨r, hr⟩ : ∃ r, (run P pv solve init).1[i]? = some r := by
        have := (List.getElem?_eq_some_iff.mp hr').1
        exact ⟨_, List.getElem?_eq_getElem (by omega)⟩
      obtain ⟨-, h, -⟩ := T.link i r r' hr hr'
      rw [h]
      exact next_pos P pv r hm (ih r hr)
  intro r hr
  obtain ⟨i, h⟩ := List.getElem?_of_mem hr
  exact key i r h

/-- C34: success is reported exactly when the last call converged and changed the saturations by less than the
tolerance per year; no earlier call did. -/
theorem C34_success (P : Params K) (hs : P.useMaxdiff = false → IsSqrt P.sqrt) (pv : List K)
    (hpv : ∀ v ∈ pv, 0 ≤ v) (htot : 0 < pv.sum)
    (hy : 0 < P.year) (ht : 0 < P.satChangeYear) (hi : 0 < P.initStep) (hm : 0 < P.maxStep)
    (solve : Nat → List K → K → Bool × List K) (init : List K) :
    ((run P pv solve init).2.stationary = true ↔ ∃ r, (run P pv solve init).1.getLast? = some r ∧
      r.converged = true ∧ RateBelow P.useMaxdiff pv P.year P.satChangeYear r) ∧
    (∀ (i : Nat) (r : Rec K), (run P pv solve init).1[i]? = some r → i + 1 < (run P pv solve init).1.length →
      ¬ (r.converged = true ∧ RateBelow P.useMaxdiff pv P.year P.satChangeYear r)) := by
  have T := loop_trace P pv solve P.maxIt 0 ⟨init, init, P.initStep, false⟩ rfl rfl
  have hpos := C34_step_positive P pv solve init hi hm
  constructor
  · refine T.success.trans ⟨?_, ?_⟩
    · rintro ⟨r, h1, h2⟩
      exact ⟨r, h1, (done_iff P hs pv hpv htot hy ht r (hpos r (List.mem_of_getLast? h1))).mp h2⟩
    · rintro ⟨r, h1, h2⟩
      exact ⟨r, h1, (done_iff P hs pv hpv htot hy ht r (hpos r (List.mem_of_getLast? h1))).mpr h2⟩
  · intro i r hr hlen h
    obtain ⟨r', hr'⟩ : ∃ r, (run P pv solve init).1[i + 1]? = some r := ⟨_, List.getElem?_eq_getElem hlen⟩
    obtain ⟨-, -, hn⟩ := T.link i r r' hr hr'
    exact hn ((done_iff P hs pv hpv htot hy ht r (hpos r (List.mem_of_getElem? hr))).mpr h)

/-- Parameters for examples: at most three calls, first step 1, largest step `m`, per-cell changes. -/
def exP (m : ℚ) : Params ℚ := ⟨3, 1, m, 1 / 10, 1 / 100, 1, true, fun _ => 0⟩

/-- A solver for examples: the first call fails, later ones halve the distance to one half. -/
def exSolve (it : Nat) (s : List ℚ) (_ : ℚ) : Bool × List ℚ :=
  if it = 0 then (false, s) else (true, s.map fun x => (x + 1 / 2) / 2)

example : ((run (exP 4) [1, 1] exSolve [1 / 2, 6 / 10]).1.map fun r => (r.dt, r.converged)) =
      [(1, false), (1 / 2, true), (1, true)] ∧
    (run (exP 4) [1, 1] exSolve [1 / 2, 6 / 10]).2.stationary = false ∧
    (run (exP 4) [1, 1] exSolve [1 / 2, 501 / 1000]).2.stationary = true ∧
    (run (exP 4) [1, 1] exSolve [1 / 2, 501 / 1000]).1.length = 2 := by decide +kernel

example : IsSqrt Real.sqrt := fun x hx => ⟨Real.sqrt_nonneg x, Real.mul_self_sqrt hx⟩

/-- The hypotheses of `C34_success` are met, by a run that succeeds in its second call. -/
example : ∃ r, (run (exP 4) [1, 1] exSolve [1 / 2, 501 / 1000]).1.getLast? = some r ∧ r.converged = true ∧
    RateBelow true [1, 1] 1 (1 / 100) r :=
  (C34_success (exP 4) (fun h => absurd h (by decide)) [1, 1] (by decide) (by decide +kernel) (by decide +kernel) (by decide +kernel)
    (by decide +kernel) (by decide +kernel) exSolve [1 / 2, 501 / 1000]).1.mp (by decide +kernel)

/-- An initial step above the maximal one is used as it is: the bound of `C34_step_range` needs its second hypothesis. -/
theorem C34_violated_initial_step :
    ∃ r ∈ (run (exP (1 / 2)) [1, 1] exSolve [1 / 2, 6 / 10]).1, ¬ r.dt ≤ (exP (1 / 2)).maxStep := by
  refine ⟨⟨1, [1 / 2, 6 / 10], [1 / 2, 6 / 10], false⟩, ?_, by decide +kernel⟩
  exact List.mem_of_getElem? (i := 0) rfl

/-! ### the explicit iteration -/

/-- C34, explicit upscaler: at most the configured number of passes; the passes are chained, each one is the flow and transport
step applied to the saturations left by the previous one; the iteration ends early exactly when a pass changed every
saturation by less than the threshold, and no earlier pass did. -/
theorem C34_explicit (threshold : K) (ht : 0 < threshold) (solve : Nat → List K → List K) (n it : Nat) (init : List K) :
    (loopExplicit threshold solve n it init).1.length ≤ n ∧
    (∀ (i : Nat) (p : List K × List K), (loopExplicit threshold solve n it init).1[i]? = some p →
      p.2 = solve (it + i) p.1 ∧ (i = 0 → p.1 = init) ∧
      (∀ q, (loopExplicit threshold solve n it init).1[i + 1]? = some q →
        q.1 = p.2 ∧ ¬ ChangeBelow true [] threshold p.2 p.1) ∧
      (i + 1 = (loopExplicit threshold solve n it init).1.length →
        (loopExplicit threshold solve n it init).2 = p.2 ∧ (i + 1 < n → ChangeBelow true [] threshold p.2 p.1))) ∧
    (0 < n → (loopExplicit threshold solve n it init).1 ≠ []) := by
  induction n generalizing it init with
  | zero => simp [loopExplicit]
  | succ n ih =>
    rw [loopExplicit]
    by_cases h : maxdiff (solve it init) init < threshold
    · simp only [h, if_true]
      have hc := (maxdiff_lt threshold ht _ _).mp h
      refine ⟨by simp, fun i p hp => ?_, by simp⟩
      cases i with
      | zero =>
        simp only [List.getElem?_cons_zero, Option.some.injEq] at hp
        subst hp
        exact ⟨rfl, fun _ => rfl, by simp, fun _ => ⟨rfl, fun _ => hc⟩⟩
      | succ i => simp at hp
    · simp only [h, if_false]
      have hc : ¬ ChangeBelow true [] threshold (solve it init) init := fun hb => h ((maxdiff_lt threshold ht _ _).mpr hb)
      obtain ⟨h1, h2, h3⟩ := ih (it + 1) (solve it init)
      refine ⟨by simpa using h1, fun i p hp => ?_, by simp⟩
      cases i with
      | zero =>
        simp only [List.getElem?_cons_zero, Option.some.injEq] at hp
        subst hp
        refine ⟨rfl, fun _ => rfl, fun q hq => ⟨?_, hc⟩, fun hl => ?_⟩
        · exact (h2 0 q (by simpa using hq)).2.1 rfl
        · have hnil : (loopExplicit threshold solve n (it + 1) (solve it init)).1 = [] := by
            rw [← List.length_eq_zero_iff]
            simp only [List.length_cons] at hl
            omega
          have hn0 : n = 0 := by
            by_contra hn
            exact h3 (Nat.pos_of_ne_zero hn) hnil
          subst hn0
          exact ⟨rfl, fun h => by omega⟩
      | succ i =>
        obtain ⟨a, b, c, d⟩ := h2 i p (by simpa using hp)
        refine ⟨by rw [a, show it + (i + 1) = it + 1 + i by omega], by simp, fun q hq => c q (by simpa using hq),
          fun hl => ?_⟩
        obtain ⟨d1, d2⟩ := d (by simpa using hl)
        exact ⟨d1, fun hlt => d2 (by omega)⟩

example : loopExplicit (1 / 5 : ℚ) (fun _ s => s.map fun x => x / 2) 10 0 [1] =
    ([([1], [1 / 2]), ([1 / 2], [1 / 4]), ([1 / 4], [1 / 8])], [1 / 8]) := by decide +kernel

end Verif.Steady
