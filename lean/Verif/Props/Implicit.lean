import Verif.Model.Implicit
import Verif.Spec.Implicit
import Mathlib.Tactic.Ring
import Mathlib.Tactic.Linarith
import Mathlib.Tactic.FieldSimp
import Mathlib.Tactic.Positivity
import Mathlib.Algebra.Field.Rat
import Mathlib.Algebra.Order.Ring.Unbundled.Rat

/-! C19-C22: implicit upwind fluxes, saturations and the layout of the Jacobian system. -/

namespace Verif.Implicit

section
variable {K : Type} [Field K] [LinearOrder K]

/-- **C19** Seen from its two cells, the flux over a face has opposite signs: what one equation receives the other loses. -/
theorem C19_cancel (st : Store K) (dt q g0 : K) (f a b : Nat) (hab : a ≠ b) (x y : Contrib K)
    (hx : fluxConnection st dt q g0 a f a b = some x) (hy : fluxConnection st dt q g0 b f a b = some y) : x.F + y.F = 0 := by
  unfold fluxConnection at hx hy
  simp only [if_neg hab, if_true] at hx hy
  split at hx
  · simp at hx
  · rename_i h
    rw [if_neg h] at hy
    simp only [Option.some.injEq] at hx hy
    rw [← hx, ← hy]
    ring

end

section
variable {K : Type} [Field K] [LinearOrder K] [IsStrictOrderedRing K]

/-- **C20** The mobilities selected for a face: water from the first cell only if the water flux (total flux plus oil mobility times driving force) does not point into it, and so on for
both phases and both cells. -/
theorem C20_upwind (st : Store K) (q G : K) (a b : Nat) (hpos : ∀ c, c = a ∨ c = b → 0 ≤ (st.mob c).1 ∧ 0 ≤ (st.mob c).2) :
    let p := upwind st q G a b
    let mw := (st.mob (if p.1 then b else a)).1
    let mo := (st.mob (if p.2 then b else a)).2
    (p.1 = false → 0 ≤ q + mo * G) ∧ (p.1 = true → q + mo * G ≤ 0) ∧
    (p.2 = false → 0 ≤ q - mw * G) ∧ (p.2 = true → q - mw * G ≤ 0) := by
  obtain ⟨ha1, ha2⟩ := hpos a (Or.inl rfl)
  obtain ⟨hb1, hb2⟩ := hpos b (Or.inr rfl)
  by_cases h1 : 0 ≤ q ∧ 0 ≤ G
  · have e : upwind st q G a b = (false, decide (q - (st.mob a).1 * G < 0)) := by
      simp [upwind, side, not_lt.2 h1.1, not_lt.2 h1.2]
    simp only [e]
    refine ⟨fun _ => ?_, by simp, ?_, ?_⟩
    · split <;> nlinarith [h1.1, h1.2]
    · intro h; simpa using h
    · intro h; have := of_decide_eq_true h; simpa using this.le
  · have hn : (decide (q < 0) || decide (G < 0)) = true := by
      by_contra hc
      simp only [Bool.or_eq_true, decide_eq_true_eq, not_or, not_lt] at hc
      exact h1 hc
    have hn' : (!decide (q < 0) && !decide (G < 0)) = false := by rw [← Bool.not_or, hn]; rfl
    by_cases h2 : q ≤ 0 ∧ G ≤ 0
    · have e : upwind st q G a b = (true, decide (q - (st.mob b).1 * G < 0)) := by
        simp only [upwind, side, hn']
        simp [not_lt.2 h2.1, not_lt.2 h2.2]
      simp only [e]
      refine ⟨by simp, fun _ => ?_, ?_, ?_⟩
      · split <;> nlinarith [h2.1, h2.2]
      · intro h; simpa using h
      · intro h; have := of_decide_eq_true h; simpa using this.le
    · have hm : (!decide (q > 0) && !decide (G > 0)) = false := by
        by_contra hc
        simp only [Bool.not_eq_false, Bool.and_eq_true, Bool.not_eq_true', decide_eq_false_iff_not, gt_iff_lt, not_lt] at hc
        exact h2 hc
      by_cases h3 : 0 ≤ q ∧ G ≤ 0
      · have e : upwind st q G a b = (!decide (0 < q + (st.mob a).2 * G), false) := by
          simp only [upwind, side, hn', hm]
          simp [not_lt.2 h3.1, not_lt.2 h3.2]
        simp only [e]
        refine ⟨?_, ?_, fun _ => ?_, by simp⟩
        · intro h; simp only [Bool.not_eq_false', decide_eq_true_eq] at h; simpa using h.le
        · intro h; simp only [Bool.not_eq_true', decide_eq_false_iff_not, not_lt] at h; simpa using h
        · split <;> nlinarith [h3.1, h3.2]
      · have h4 : q ≤ 0 ∧ 0 ≤ G := by
          rcases le_total 0 q with hq | hq <;> rcases le_total 0 G with hG | hG
          · exact absurd ⟨hq, hG⟩ h1
          · exact absurd ⟨hq, hG⟩ h3
          · exact ⟨hq, hG⟩
          · exact absurd ⟨hq, hG⟩ h2
        have hk : (!decide (q < 0) && !decide (G > 0)) = false := by
          by_contra hc
          simp only [Bool.not_eq_false, Bool.and_eq_true, Bool.not_eq_true', decide_eq_false_iff_not, gt_iff_lt, not_lt] at hc
          exact h3 hc
        have e : upwind st q G a b = (!decide (0 < q + (st.mob b).2 * G), true) := by
          simp only [upwind, side, hn', hm, hk]
          simp
        simp only [e]
        refine ⟨?_, ?_, by simp, fun _ => ?_⟩
        · intro h; simp only [Bool.not_eq_false', decide_eq_true_eq] at h; simpa using h.le
        · intro h; simp only [Bool.not_eq_true', decide_eq_false_iff_not, not_lt] at h; simpa using h
        · split <;> nlinarith [h4.1, h4.2]

/-- **C20** The residual contribution of a face is the water volume leaving the cell, computed with mobilities that are upwind for the very phase fluxes they define. -/
theorem C20_flux (st : Store K) (dt q g0 : K) (c f a b : Nat) (hc : c = a ∨ c = b) (hab : a ≠ b)
    (hpos : ∀ c, c = a ∨ c = b → 0 ≤ (st.mob c).1 ∧ 0 ≤ (st.mob c).2) (x : Contrib K)
    (hx : fluxConnection st dt q g0 c f a b = some x) :
    ∃ cw co, (cw = a ∨ cw = b) ∧ (co = a ∨ co = b) ∧
      let G := g0 + st.trans f * (st.pc b - st.pc a)
      let mw := (st.mob cw).1
      let mo := (st.mob co).2
      x.F = (if c = a then 1 else -1) * Spec.waterVolume dt q G mw mo ∧
      (cw = a → 0 ≤ q + mo * G) ∧ (cw = b → q + mo * G ≤ 0) ∧ (co = a → 0 ≤ q - mw * G) ∧ (co = b → q - mw * G ≤ 0) := by
  have u := C20_upwind st q (g0 + st.trans f * (st.pc b - st.pc a)) a b hpos
  set G := g0 + st.trans f * (st.pc b - st.pc a) with hG
  set p := upwind st q G a b with hp
  refine ⟨if p.1 then b else a, if p.2 then b else a, by cases p.1 <;> simp, by cases p.2 <;> simp, ?_⟩
  simp only at u ⊢
  refine ⟨?_, ?_, ?_, ?_, ?_⟩
  · unfold fluxConnection at hx
    simp only [capFlux, ← hG, ← hp, side] at hx
    by_cases hm : (st.mob (if p.1 = true then b else a)).1 + (st.mob (if p.2 = true then b else a)).2 = 0
    · rw [if_pos hm] at hx; simp at hx
    · rw [if_neg hm, Option.some.injEq] at hx
      rw [← hx]
      simp only [Spec.waterVolume]
      by_cases h : c = a
      · simp [h]
      · simp only [if_neg h, if_neg (Ne.symm h)]; ring
  · intro h; apply u.1; revert h; cases p.1 <;> simp [hab.symm]
  · intro h; apply u.2.1; revert h; cases p.1 <;> simp [hab]
  · intro h; apply u.2.2.1; revert h; cases p.2 <;> simp [hab.symm]
  · intro h; apply u.2.2.2; revert h; cases p.2 <;> simp [hab]

/-- **C21** Finalised saturations: they sum to one and the water saturation is within the limits of its cell, whatever the increments; an increment that stays within the limits is applied
exactly. -/
theorem C21_finish (cells : List (K × K × K × K)) (hl : ∀ q ∈ cells, q.1 ≤ q.2.1) :
    (finishStep cells).length = cells.length ∧
    ∀ (i : Nat) (smin smax s x : K), cells[i]? = some (smin, smax, s, x) → ∃ sw so, (finishStep cells)[i]? = some (sw, so) ∧ sw + so = 1 ∧ smin ≤ sw ∧ sw ≤ smax ∧
      (smin ≤ s + x → s + x ≤ smax → sw = s + x) := by
  refine ⟨by simp [finishStep], fun i smin smax s x h => ?_⟩
  have hle : smin ≤ smax := hl _ (List.mem_of_getElem? h)
  refine ⟨min smax (max smin (s + x)), 1 - min smax (max smin (s + x)), by simp [finishStep, h], by ring, le_min hle (le_max_left _ _), min_le_left _ _, ?_⟩
  intro h1 h2
  rw [max_eq_right h1, min_eq_right h2]

/-- **C21** An iterate is reported in range exactly if every saturation it proposes is within the tolerance of the limits; the saturations at which the fluid is evaluated sum to one, are
within the limits and equal the proposed ones if those are. -/
theorem C21_iteration (tol : K) (cells : List (K × K × K × K)) (hl : ∀ q ∈ cells, q.1 ≤ q.2.1) :
    ((initIteration tol cells).1 = true ↔ ∀ q ∈ cells, q.1 - tol ≤ q.2.2.1 + q.2.2.2 ∧ q.2.2.1 + q.2.2.2 ≤ q.2.1 + tol) ∧
    (initIteration tol cells).2 = finishStep cells ∧
    ((initIteration tol cells).1 = true → 0 ≤ tol → ∀ (i : Nat) (smin smax s x sw so : K), cells[i]? = some (smin, smax, s, x) →
      (finishStep cells)[i]? = some (sw, so) → |sw - (s + x)| ≤ tol) := by
  have gen : ∀ (cs : List (K × K × K × K)) (a : Bool × List (K × K)),
      (cs.foldl (fun a q => let r := initCell tol q.1 q.2.1 q.2.2.1 q.2.2.2; (a.1 && r.1, a.2 ++ [r.2])) a) =
        (a.1 && cs.all (fun q => (initCell tol q.1 q.2.1 q.2.2.1 q.2.2.2).1), a.2 ++ finishStep cs) := by
    intro cs
    induction cs with
    | nil => intro a; simp [finishStep]
    | cons q cs ih => intro a; rw [List.foldl_cons, ih]; simp [finishStep, initCell, Bool.and_assoc]
  have e : initIteration tol cells = (cells.all (fun q => (initCell tol q.1 q.2.1 q.2.2.1 q.2.2.2).1), finishStep cells) := by
    unfold initIteration; rw [gen]; simp
  have iff : (initIteration tol cells).1 = true ↔ ∀ q ∈ cells, q.1 - tol ≤ q.2.2.1 + q.2.2.2 ∧ q.2.2.1 + q.2.2.2 ≤ q.2.1 + tol := by
    rw [e, List.all_eq_true]
    apply forall₂_congr
    intro q _
    simp [initCell]
  refine ⟨iff, by rw [e], ?_⟩
  intro hr ht i smin smax s x sw so h h'
  have hle : smin ≤ smax := hl _ (List.mem_of_getElem? h)
  obtain ⟨b1, b2⟩ := iff.1 hr _ (List.mem_of_getElem? h)
  simp [finishStep, h] at h'
  rw [← h'.1]
  simp only at b1 b2
  rw [abs_le]
  rcases le_total smin (s + x) with h1 | h1 <;> rcases le_total (max smin (s + x)) smax with h2 | h2
  · rw [min_eq_right h2, max_eq_right h1]; constructor <;> linarith
  · rw [min_eq_left h2]; rw [max_eq_right h1] at h2; constructor <;> linarith
  · rw [min_eq_right h2, max_eq_left h1]; constructor <;> linarith
  · rw [min_eq_left h2]; rw [max_eq_left h1] at h2
    have : smin = smax := le_antisymm hle h2
    constructor <;> linarith

/-- **C21** The starting iterate: no change of saturation, or water saturation one half in every cell. -/
theorem C21_start (s : List (K × K)) (i : Nat) (sw so : K) (h : s[i]? = some (sw, so)) :
    (initStep true s)[i]? = some 0 ∧ (∀ x, (initStep false s)[i]? = some x → sw + x = 1 / 2) := by
  refine ⟨by unfold initStep; rw [if_pos rfl, List.getElem?_map, h]; rfl, fun x hx => ?_⟩
  simp [initStep, h] at hx
  rw [← hx]; ring

end

/-! ### Examples -/

/-- Two cells with different mobilities and capillary pressures. -/
def exStore : Store ℚ := ⟨1, fun c => if c = 0 then (1, 2) else (3, 1), fun _ => (1, -1), fun _ => 1, fun _ => 0, fun _ => 0, fun c => if c = 0 then 5 else 4, fun _ => -1, fun _ => 2⟩

theorem exStore_pos (c : Nat) : 0 ≤ (exStore.mob c).1 ∧ 0 ≤ (exStore.mob c).2 := by
  simp only [exStore]
  split <;> decide

/-- `C19_cancel`: the flux 1 from cell 0 to cell 1 against a driving force of 1 - 2 = -1. -/
example : (fluxConnection exStore 1 1 1 0 7 0 1).map (·.F) = some (-3 / 5) ∧ (fluxConnection exStore 1 1 1 1 7 0 1).map (·.F) = some (3 / 5) := by decide +kernel

/-- `C20_upwind`, `C20_flux`: water comes from cell 1, oil from cell 0. -/
example : upwind exStore 1 (-1) 0 1 = (true, false) := by decide +kernel

example := C20_upwind exStore 1 (-1) 0 1 fun c _ => exStore_pos c

example (x : Contrib ℚ) (hx : fluxConnection exStore 1 1 1 0 7 0 1 = some x) :=
  C20_flux exStore 1 1 1 0 7 0 1 (Or.inl rfl) (by decide) (fun c _ => exStore_pos c) x hx

/-- `C21_finish`, `C21_iteration`, `C21_start`: two cells, the second one beyond its limit. -/
example : finishStep [((0 : ℚ), 1, 1 / 4, 1 / 4), (1 / 10, 9 / 10, 1 / 2, 1 / 2)] = [(1 / 2, 1 / 2), (9 / 10, 1 / 10)] ∧
    (initIteration (1 / 20) [((0 : ℚ), 1, 1 / 4, 1 / 4), (1 / 10, 9 / 10, 1 / 2, 1 / 2)]).1 = false ∧
    (initIteration (1 / 5) [((0 : ℚ), 1, 1 / 4, 1 / 4), (1 / 10, 9 / 10, 1 / 2, 1 / 2)]).1 = true ∧
    ∀ q ∈ [((0 : ℚ), (1 : ℚ), (1 / 4 : ℚ), (1 / 4 : ℚ)), (1 / 10, 9 / 10, 1 / 2, 1 / 2)], q.1 ≤ q.2.1 := by decide +kernel

example : initStep false [((1 / 4 : ℚ), (3 / 4 : ℚ))] = [1 / 4] := by decide +kernel

end Verif.Implicit
