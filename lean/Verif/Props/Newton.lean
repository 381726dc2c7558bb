import Verif.Model.Newton
import Mathlib.Tactic.Linarith
import Mathlib.Tactic.NormNum
import Mathlib.Algebra.Field.Rat
import Mathlib.Algebra.Order.Ring.Unbundled.Rat

/-! C18: the Newton driver of implicit transport. -/

namespace Verif.Newton

section
variable {K X : Type} [LinearOrder K] [Mul K]

/-- The line search makes between one and `fuel + 1` further passes; its result is the trial of its last pass; if it ends with a reduction then that trial
is in range, has a smaller residual and the system has been assembled there; the system is at the last in-range trial or where it was. -/
theorem lineSearch_spec (P : Problem K X) (big nr : K) (x0 y0 : X) (hbig : nr ≤ big) (fuel j : Nat) (y : X)
    (hy : nr ≤ P.resNorm y) :
    let r := lineSearch P big nr x0 y0 fuel j y
    j < r.2.2 ∧ r.2.2 ≤ j + fuel + 1 ∧ r.1 = P.trial x0 y0 (r.2.2 - 1) ∧
    ((P.inRange r.1 = true ∧ r.2.1 = r.1 ∧ P.resNorm r.1 < nr) ∨
     (r.2.2 = j + fuel + 1 ∧ nr ≤ P.resNorm r.2.1 ∧ (P.inRange r.1 = true → r.2.1 = r.1))) := by
  induction fuel generalizing j y with
  | zero =>
    unfold lineSearch
    by_cases hin : P.inRange (P.trial x0 y0 j) = true
    · by_cases hlt : P.resNorm (P.trial x0 y0 j) < nr
      · simp [hin, hlt]
      · simp [hin, hlt, not_lt.1 hlt]
    · have : ¬ big < nr := not_lt.2 hbig
      rw [Bool.not_eq_true] at hin
      simp [hin, this, hy]
  | succ fuel ih =>
    unfold lineSearch
    by_cases hin : P.inRange (P.trial x0 y0 j) = true
    · by_cases hlt : P.resNorm (P.trial x0 y0 j) < nr
      · simp [hin, hlt]
      · obtain ⟨a, b, c, d⟩ := ih (j + 1) (P.trial x0 y0 j) (not_lt.1 hlt)
        simp only [hin, if_true, hlt, if_false]
        refine ⟨by omega, by omega, c, ?_⟩
        rcases d with d | ⟨d1, d2⟩
        · exact Or.inl d
        · exact Or.inr ⟨by omega, d2⟩
    · have : ¬ big < nr := not_lt.2 hbig
      rw [Bool.not_eq_true] at hin
      obtain ⟨a, b, c, d⟩ := ih (j + 1) y hy
      simp only [hin, this, if_false, Bool.false_eq_true]
      refine ⟨by omega, by omega, c, ?_⟩
      rcases d with d | ⟨d1, d2⟩
      · exact Or.inl d
      · exact Or.inr ⟨by omega, d2⟩

/-- State of the loop before an iteration: the system is assembled at the current solution, the recorded norm is its residual norm. -/
structure Sync (P : Problem K X) (normRes : K) (x y : X) : Prop where
  same : y = x
  norm : normRes = P.resNorm x

/-- One iteration from a synchronised state. -/
theorem iteration_spec (P : Problem K X) (big : K) (c : Ctrl K) (nr : K) (x y : X) (hs : Sync P nr x y) (hbig : nr ≤ big) :
    let r := iteration P big c nr x y
    r.2.2 ≤ c.maxLs + 2 ∧
    ((nr < c.atol ∧ r = (x, y, 0)) ∨
     (¬ nr < c.atol ∧ P.inRange r.1 = true ∧ r.2.1 = r.1 ∧ P.resNorm r.1 < nr ∧ ∃ j, r.1 = P.trial x x j) ∨
     (¬ nr < c.atol ∧ r.2.2 = c.maxLs + 2 ∧ nr ≤ P.resNorm r.2.1 ∧ (P.inRange r.1 = true → r.2.1 = r.1) ∧ ∃ j, r.1 = P.trial x x j)) := by
  unfold iteration
  by_cases h : nr < c.atol
  · simp [h]
  · simp only [h, if_false]
    have hy : nr ≤ P.resNorm y := by rw [hs.same, ← hs.norm]
    obtain ⟨_, b, e, d⟩ := lineSearch_spec P big nr x y hbig (c.maxLs + 1) 0 y hy
    rw [hs.same] at b e d ⊢
    refine ⟨by omega, Or.inr ?_⟩
    rcases d with ⟨d1, d2, d3⟩ | ⟨d1, d2, d3⟩
    · exact Or.inl ⟨not_false, d1, d2, d3, _, e⟩
    · exact Or.inr ⟨not_false, by omega, d2, d3, _, e⟩

/-- The iterates the driver has visited, newest first: each is a trial iterate from its predecessor, in range, with a strictly smaller residual, and met none of
the tolerances (or the driver would have stopped there). -/
inductive Chain (P : Problem K X) (c : Ctrl K) (x0 : X) : List X → Prop
  | start : Chain P c x0 [x0]
  | step {x x' : X} {l : List X} : Chain P c x0 (x :: l) → P.inRange x' = true → P.resNorm x' < P.resNorm x →
      (∃ j, x' = P.trial x x j) → ¬ P.resNorm x' < c.atol → ¬ P.resNorm x' < c.rtol * P.resNorm x0 →
      ¬ P.dxNorm x < c.dxtol → Chain P c x0 (x' :: x :: l)

theorem Chain.le {P : Problem K X} {c : Ctrl K} {x0 : X} {x : X} {l : List X} (h : Chain P c x0 (x :: l)) :
    P.resNorm x ≤ P.resNorm x0 := by
  induction l generalizing x with
  | nil => cases h with | start => exact le_rfl
  | cons a l ih => cases h with | step h _ hlt => exact hlt.le.trans (ih h)

/-- What the driver guarantees about its report. -/
structure Good (P : Problem K X) (c : Ctrl K) (x0 : X) (rep : Report K X) : Prop where
  nit_pos : 1 ≤ rep.nit
  nit_le : rep.nit ≤ c.maxIt
  passes_len : rep.passes.length = rep.nit
  passes_le : ∀ p ∈ rep.passes, p ≤ c.maxLs + 2
  flag : rep.flag = flagOf c (P.resNorm x0) rep.normRes rep.normDx
  normRes : rep.normRes = P.resNorm rep.y
  /-- the last iteration started from the end of a chain of in-range iterates with decreasing residuals -/
  last : ∃ xl l, Chain P c x0 (xl :: l) ∧ l.length + 1 = rep.nit ∧ rep.normDx = P.dxNorm xl ∧
    ((P.resNorm xl < c.atol ∧ rep.x = xl ∧ rep.y = xl) ∨
     (¬ P.resNorm xl < c.atol ∧ (∃ j, rep.x = P.trial xl xl j) ∧
       ((P.inRange rep.x = true ∧ rep.y = rep.x ∧ P.resNorm rep.x < P.resNorm xl) ∨
        (P.resNorm xl ≤ P.resNorm rep.y ∧ (P.inRange rep.x = true → rep.y = rep.x)))))

theorem loop_good (P : Problem K X) (big : K) (c : Ctrl K) (x0 : X) (hbig : P.resNorm x0 ≤ big) (fuel nit : Nat) (nr : K) (x y : X) (ps : List Nat)
    (l : List X) (hs : Sync P nr x y) (hc : Chain P c x0 (x :: l)) (hlen : l.length = nit) (hps : ps.length = nit)
    (hpl : ∀ p ∈ ps, p ≤ c.maxLs + 2) (hfuel : nit + fuel + 1 = c.maxIt) :
    Good P c x0 (loop P big c (P.resNorm x0) fuel nit nr x y ps) := by
  induction fuel generalizing nit nr x y ps l with
  | zero =>
    obtain ⟨p1, p2⟩ := iteration_spec P big c nr x y hs (by rw [hs.norm]; exact hc.le.trans hbig)
    unfold loop
    set r := iteration P big c nr x y with hr
    have hgood : Good P c x0 ⟨nit + 1, flagOf c (P.resNorm x0) (P.resNorm r.2.1) (P.dxNorm y), P.resNorm r.2.1, P.dxNorm y, r.1, r.2.1, ps ++ [r.2.2]⟩ := by
      refine ⟨by simp, by simp; omega, by simp [hps], ?_, rfl, rfl, x, l, hc, by simp [hlen], by simp [hs.same], ?_⟩
      · intro p hp
        simp only [List.mem_append, List.mem_singleton] at hp
        rcases hp with hp | rfl
        · exact hpl p hp
        · exact p1
      · rw [← hs.norm]
        rcases p2 with ⟨a, b⟩ | ⟨a, b1, b2, b3, b4⟩ | ⟨a, b1, b2, b3, b4⟩
        · left; exact ⟨a, by rw [b], by rw [b]; exact hs.same⟩
        · right; exact ⟨a, b4, Or.inl ⟨b1, b2, b3⟩⟩
        · right; exact ⟨a, b4, Or.inr ⟨b2, b3⟩⟩
    simp only [ite_self]
    exact hgood
  | succ fuel ih =>
    obtain ⟨p1, p2⟩ := iteration_spec P big c nr x y hs (by rw [hs.norm]; exact hc.le.trans hbig)
    unfold loop
    set r := iteration P big c nr x y with hr
    have hpl' : ∀ p ∈ ps ++ [r.2.2], p ≤ c.maxLs + 2 := by
      intro p hp
      simp only [List.mem_append, List.mem_singleton] at hp
      rcases hp with hp | rfl
      · exact hpl p hp
      · exact p1
    have hgood : Good P c x0 ⟨nit + 1, flagOf c (P.resNorm x0) (P.resNorm r.2.1) (P.dxNorm y), P.resNorm r.2.1, P.dxNorm y, r.1, r.2.1, ps ++ [r.2.2]⟩ := by
      refine ⟨by simp, by simp; omega, by simp [hps], hpl', rfl, rfl, x, l, hc, by simp [hlen], by simp [hs.same], ?_⟩
      rw [← hs.norm]
      rcases p2 with ⟨a, b⟩ | ⟨a, b1, b2, b3, b4⟩ | ⟨a, b1, b2, b3, b4⟩
      · left; exact ⟨a, by rw [b], by rw [b]; exact hs.same⟩
      · right; exact ⟨a, b4, Or.inl ⟨b1, b2, b3⟩⟩
      · right; exact ⟨a, b4, Or.inr ⟨b2, b3⟩⟩
    simp only
    split
    · exact hgood
    · rename_i hstop
      simp only [Bool.or_eq_true, decide_eq_true_eq, not_or] at hstop
      obtain ⟨⟨⟨s1, s2⟩, s3⟩, s4⟩ := hstop
      rcases p2 with ⟨a, b⟩ | ⟨a, b1, b2, b3, b4⟩ | ⟨a, b1, b2, b3, b4⟩
      · exfalso
        rw [b] at s1
        apply s1
        simp only [hs.same, ← hs.norm]; exact a
      · apply ih (nit + 1) _ _ _ _ (x :: l)
        · exact ⟨b2, by rw [b2]⟩
        · rw [b2] at s1 s2
          exact .step hc b1 (by rw [← hs.norm]; exact b3) b4 s1 s2 (by rw [hs.same] at s3; exact s3)
        · simp [hlen]
        · simp [hps]
        · exact hpl'
        · omega
      · omega

theorem solve_good (P : Problem K X) (big : K) (c : Ctrl K) (x0 : X) (hm : 1 ≤ c.maxIt) (hbig : P.resNorm x0 ≤ big) :
    Good P c x0 (solve P big c x0) :=
  loop_good P big c _ hbig _ _ _ _ _ _ [] ⟨rfl, rfl⟩ .start rfl rfl (by simp) (by omega)

/-- **C18** At least one and at most `max_it` Newton iterations are made, each with at most `max_it_ls + 2` line-search passes. -/
theorem C18_bounded (P : Problem K X) (big : K) (c : Ctrl K) (x0 : X) (hm : 1 ≤ c.maxIt) (hbig : P.resNorm x0 ≤ big) :
    1 ≤ (solve P big c x0).nit ∧ (solve P big c x0).nit ≤ c.maxIt ∧
    (solve P big c x0).passes.length = (solve P big c x0).nit ∧ ∀ p ∈ (solve P big c x0).passes, p ≤ c.maxLs + 2 :=
  have g := solve_good P big c x0 hm hbig
  ⟨g.nit_pos, g.nit_le, g.passes_len, g.passes_le⟩

/-- **C18** The flag says what the reported numbers are: 1, 2, 3 exactly for the first of the tolerances (absolute, relative, increment) that is met, -1 if none is;
so convergence is reported exactly if one of them is met. -/
theorem C18_flag (P : Problem K X) (big : K) (c : Ctrl K) (x0 : X) (hm : 1 ≤ c.maxIt) (hbig : P.resNorm x0 ≤ big) :
    let r := solve P big c x0
    (r.flag = 1 ↔ r.normRes < c.atol) ∧ (r.flag = 2 ↔ ¬ r.normRes < c.atol ∧ r.normRes < c.rtol * P.resNorm x0) ∧
    (r.flag = 3 ↔ ¬ r.normRes < c.atol ∧ ¬ r.normRes < c.rtol * P.resNorm x0 ∧ r.normDx < c.dxtol) ∧
    (r.flag = -1 ↔ ¬ r.normRes < c.atol ∧ ¬ r.normRes < c.rtol * P.resNorm x0 ∧ ¬ r.normDx < c.dxtol) := by
  have g := (solve_good P big c x0 hm hbig).flag
  intro r
  change r.flag = flagOf c (P.resNorm x0) r.normRes r.normDx at g
  rw [g]
  unfold flagOf
  by_cases h1 : r.normRes < c.atol
  · simp [h1]
  · by_cases h2 : r.normRes < c.rtol * P.resNorm x0
    · simp [h1, h2]
    · by_cases h3 : r.normDx < c.dxtol
      · simp [h1, h2, h3]
      · simp [h1, h2, h3]

/-- **C18** If the absolute or the relative tolerance is reported as met (with a relative tolerance that does not exceed the starting residual), the reported residual norm is that
of the very solution handed over, which is either the starting point or in range. -/
theorem C18_truthful (P : Problem K X) (big : K) (c : Ctrl K) (x0 : X) (hm : 1 ≤ c.maxIt) (hbig : P.resNorm x0 ≤ big)
    (hr : c.rtol * P.resNorm x0 ≤ P.resNorm x0)
    (hf : (solve P big c x0).flag = 1 ∨ (solve P big c x0).flag = 2) :
    (solve P big c x0).normRes = P.resNorm (solve P big c x0).x ∧
    (P.inRange (solve P big c x0).x = true ∨ (solve P big c x0).x = x0) ∧
    (P.resNorm (solve P big c x0).x < c.atol ∨ P.resNorm (solve P big c x0).x < c.rtol * P.resNorm x0) := by
  have g := solve_good P big c x0 hm hbig
  obtain ⟨f1, f2, _, _⟩ := C18_flag P big c x0 hm hbig
  set r := solve P big c x0 with hrr
  have htol : r.normRes < c.atol ∨ r.normRes < c.rtol * P.resNorm x0 := by
    rcases hf with hf | hf
    · exact Or.inl (f1.1 hf)
    · exact Or.inr (f2.1 hf).2
  obtain ⟨xl, l, hc, _, _, hl⟩ := g.last
  have hxl : ¬ P.resNorm xl < c.atol → ¬ P.resNorm xl < c.rtol * P.resNorm x0 := by
    intro _
    cases hc with
    | start => exact not_lt.2 hr
    | step _ _ _ _ _ h _ => exact h
  rcases hl with ⟨a, b1, b2⟩ | ⟨a, _, ⟨b1, b2, b3⟩ | ⟨b1, b2⟩⟩
  · have : r.normRes = P.resNorm r.x := by rw [g.normRes, b2, b1]
    refine ⟨this, ?_, by rw [← this]; exact htol⟩
    rw [b1]
    cases hc with
    | start => exact Or.inr rfl
    | step _ h _ _ _ _ _ => exact Or.inl h
  · have : r.normRes = P.resNorm r.x := by rw [g.normRes, b2]
    exact ⟨this, Or.inl b1, by rw [← this]; exact htol⟩
  · exfalso
    rw [g.normRes] at htol
    rcases htol with h | h
    · exact a (b1.trans_lt h)
    · exact hxl a (b1.trans_lt h)

/-- **C18** Every Newton iterate except possibly the last is in range and strictly reduces the residual: the last iteration starts at the end of a chain of `nit - 1` such
iterates from the starting point. -/
theorem C18_monotone (P : Problem K X) (big : K) (c : Ctrl K) (x0 : X) (hm : 1 ≤ c.maxIt) (hbig : P.resNorm x0 ≤ big) :
    ∃ xl l, Chain P c x0 (xl :: l) ∧ l.length + 1 = (solve P big c x0).nit ∧
      (solve P big c x0).normDx = P.dxNorm xl ∧
      ((solve P big c x0).x = xl ∨ ∃ j, (solve P big c x0).x = P.trial xl xl j) := by
  obtain ⟨xl, l, a, b, d, e⟩ := (solve_good P big c x0 hm hbig).last
  refine ⟨xl, l, a, b, d, ?_⟩
  rcases e with ⟨_, e, _⟩ | ⟨_, e, _⟩
  · exact Or.inl e
  · exact Or.inr e

/-- **C18** A start that already meets the absolute tolerance is returned unchanged after one iteration, with flag 1. -/
theorem C18_converged_start (P : Problem K X) (big : K) (c : Ctrl K) (x0 : X) (h : P.resNorm x0 < c.atol) :
    (solve P big c x0).x = x0 ∧ (solve P big c x0).nit = 1 ∧ (solve P big c x0).flag = 1 ∧ (solve P big c x0).passes = [0] := by
  have e : ∀ fuel, loop P big c (P.resNorm x0) fuel 0 (P.resNorm x0) x0 x0 [] =
      ⟨1, 1, P.resNorm x0, P.dxNorm x0, x0, x0, [0]⟩ := by
    intro fuel
    unfold loop
    simp [iteration, h, flagOf]
  unfold solve
  rw [e]
  simp

end

/-- Newton's method for `x^2 = 2` on [0, 2] over the rationals. -/
def exProblem : Problem ℚ ℚ where
  inRange x := decide (0 ≤ x ∧ x ≤ 2)
  resNorm x := |x * x - 2|
  dxNorm y := |(y * y - 2) / (2 * y)|
  trial x y j := x - (y * y - 2) / (2 * y) / 2 ^ j

def exCtrl : Ctrl ℚ := ⟨10, 1 / 10 ^ 6, 1 / 10 ^ 7, 1 / 10 ^ 8, 5⟩

/-- Three iterations and flag 1. -/
example : (solve exProblem (10 ^ 99) exCtrl 2).nit = 4 ∧ (solve exProblem (10 ^ 99) exCtrl 2).flag = 1 ∧
    (solve exProblem (10 ^ 99) exCtrl 2).passes = [1, 1, 1, 1] := by decide +kernel

/-- **C18** (violated for the increment tolerance) Convergence can be reported (flag 3) although the solution handed over is out of range and the reported residual
norm is not its residual norm but that of an earlier iterate. -/
theorem C18_violated_stale_residual :
    ∃ (P : Problem ℚ ℚ) (c : Ctrl ℚ) (x0 : ℚ), 1 ≤ c.maxIt ∧ (solve P (10 ^ 99) c x0).flag = 3 ∧
      P.inRange (solve P (10 ^ 99) c x0).x = false ∧ (solve P (10 ^ 99) c x0).normRes ≠ P.resNorm (solve P (10 ^ 99) c x0).x := by
  refine ⟨⟨fun x => decide (x ≤ 0), fun x => 1 + x, fun _ => 1 / 10 ^ 9, fun x _ j => x + 1 / 10 ^ 9 / 2 ^ j⟩, exCtrl, 0, ?_⟩
  decide +kernel

end Verif.Newton
