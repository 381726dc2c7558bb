import Verif.Model.Steady
import Verif.Spec.Steady
import Verif.Props.Dense
import Verif.Props.Sampling
import Mathlib.Algebra.BigOperators.Fin
import Mathlib.Data.List.Nodup
import Mathlib.Tactic.Positivity

/-!
Properties C35 (saturation layouts), C54 (in- and outflow) and C71 (phase mobilities and relative permeabilities).
-/

namespace Verif.Steady

open Spec

variable {K : Type} [Field K] [LinearOrder K]

/-! ### C35 -/

theorem both_get (sw : List K) (i : Nat) (s : K) (h : sw[i]? = some s) :
    (waterSatToBothSat sw)[2 * i]? = some s ∧ (waterSatToBothSat sw)[2 * i + 1]? = some (1 - s) := by
  induction sw generalizing i with
  | nil => simp at h
  | cons a l ih =>
    cases i with
    | zero =>
      simp at h
      subst h
      simp [waterSatToBothSat]
    | succ i =>
      have := ih i (by simpa using h)
      simp only [waterSatToBothSat, List.flatMap_cons] at this ⊢
      rw [show 2 * (i + 1) = 2 * i + 1 + 1 by omega]
      simpa using this

theorem both_length (sw : List K) : (waterSatToBothSat sw).length = 2 * sw.length := by
  induction sw with
  | nil => rfl
  | cons a l ih =>
    simp only [waterSatToBothSat, List.flatMap_cons, List.length_append, List.length_cons, List.length_nil] at ih ⊢
    omega

/-- C35: the two-phase layout has two entries per cell, water then oil, and they sum to one. -/
theorem C35_both (sw : List K) :
    (waterSatToBothSat sw).length = 2 * sw.length ∧
    ∀ (i : Nat) (s : K), sw[i]? = some s → ∃ w o : K, (waterSatToBothSat sw)[2 * i]? = some w ∧
      (waterSatToBothSat sw)[2 * i + 1]? = some o ∧ w = s ∧ w + o = 1 :=
  ⟨both_length sw, fun i s h => ⟨s, 1 - s, (both_get sw i s h).1, (both_get sw i s h).2, rfl, by ring⟩⟩

omit [LinearOrder K] in
/-- The loop, when there is room for all elements read. -/
theorem destripeLoop_spec (v : List K) (stride : Nat) (hs : 0 < stride) (fuel : Nat) (i di : Nat) (dst : List K)
    (hfuel : v.length < i + fuel) :
    (v.length ≤ i + (dst.length - di) * stride →
      ∃ d, destripeLoop v stride fuel i di dst = some d ∧ d.length = dst.length ∧
        ∀ k, d[k]? = if di ≤ k ∧ k < dst.length ∧ i + (k - di) * stride < v.length then v[i + (k - di) * stride]?
          else dst[k]?) ∧
    (i + (dst.length - di) * stride < v.length → di ≤ dst.length → destripeLoop v stride fuel i di dst = none) := by
  induction fuel generalizing i di dst with
  | zero =>
    constructor
    · intro _
      refine ⟨dst, rfl, rfl, fun k => ?_⟩
      rw [if_neg (by intro h; have := Nat.le_add_right i ((k - di) * stride); omega)]
    · intro h _
      have := Nat.le_add_right i ((dst.length - di) * stride)
      omega
  | succ fuel ih =>
    rw [destripeLoop]
    cases hv : v[i]? with
    | none =>
      have hlen : v.length ≤ i := by simpa using hv
      constructor
      · intro _
        refine ⟨dst, rfl, rfl, fun k => ?_⟩
        rw [if_neg (by intro h; have := Nat.le_add_right i ((k - di) * stride); omega)]
      · intro h _
        have := Nat.le_add_right i ((dst.length - di) * stride)
        omega
    | some x =>
      have hlen : i < v.length := (List.getElem?_eq_some_iff.mp hv).1
      by_cases hd : di < dst.length
      · simp only [hd, if_true]
        have hmul : (dst.length - di) * stride = stride + (dst.length - (di + 1)) * stride := by
          rw [show dst.length - di = (dst.length - (di + 1)) + 1 by omega, Nat.add_mul]
          omega
        obtain ⟨h1, h2⟩ := ih (i + stride) (di + 1) (dst.set di x) (by omega)
        rw [List.length_set] at h1 h2
        constructor
        · intro h
          obtain ⟨d, e1, e2, e3⟩ := h1 (by omega)
          refine ⟨d, e1, e2, fun k => ?_⟩
          rw [e3]
          by_cases hk : di + 1 ≤ k
          · have hm : (k - di) * stride = stride + (k - (di + 1)) * stride := by
              rw [show k - di = (k - (di + 1)) + 1 by omega, Nat.add_mul]
              omega
            rw [hm, ← Nat.add_assoc, List.getElem?_set, if_neg (by omega : ¬ di = k)]
            by_cases hc : k < dst.length ∧ i + stride + (k - (di + 1)) * stride < v.length
            · rw [if_pos ⟨hk, hc⟩, if_pos ⟨by omega, hc⟩]
            · rw [if_neg (fun h => hc h.2), if_neg (fun h => hc h.2)]
          · rw [if_neg (fun h => hk h.1), List.getElem?_set]
            by_cases hkd : di = k
            · subst hkd
              rw [if_pos rfl, if_pos hd, if_pos ⟨le_refl _, hd, by simpa using hlen⟩]
              simp [hv]
            · rw [if_neg hkd, if_neg (fun h => by omega)]
        · intro h _
          exact h2 (by omega) (by omega)
      · simp only [hd, if_false]
        constructor
        · intro h
          rw [show dst.length - di = 0 by omega] at h
          omega
        · intro _ _
          trivial

omit [LinearOrder K] in
/-- C35: extracting every `stride`-th element is defined exactly when the elements read fit into the result, and then
element `k` of the result is element `k * stride + offset` of the field. -/
theorem C35_destripe (v : List K) (stride offset : Nat) (hs : 0 < stride) :
    (destripe v stride offset ≠ none ↔ v.length ≤ offset + v.length / stride * stride) ∧
    ∀ d, destripe v stride offset = some d → d.length = v.length / stride ∧
      ∀ k, k < d.length → offset + k * stride < v.length → d[k]? = v[offset + k * stride]? := by
  unfold destripe
  rw [if_neg (by omega)]
  obtain ⟨h1, h2⟩ := destripeLoop_spec v stride hs (v.length + 1) offset 0
    (List.replicate (v.length / stride) (0 : K)) (by omega)
  simp only [List.length_replicate, Nat.sub_zero] at h1 h2
  constructor
  · constructor
    · intro h
      by_contra hc
      exact h (h2 (by omega) (Nat.zero_le _))
    · intro h
      obtain ⟨d, e, -⟩ := h1 h
      simp [e]
  · intro d hd
    by_cases hc : v.length ≤ offset + v.length / stride * stride
    · obtain ⟨d', e1, e2, e3⟩ := h1 hc
      rw [hd] at e1
      obtain rfl : d = d' := by simpa using e1
      refine ⟨e2, fun k hk hlt => ?_⟩
      rw [e3, if_pos ⟨Nat.zero_le _, by omega, hlt⟩]
    · rw [h2 (by omega) (Nat.zero_le _)] at hd
      cases hd

/-- C35: the water saturations come back unchanged from the two-phase layout, and the other phase is one minus them. -/
theorem C35_roundtrip (sw : List K) :
    destripe (waterSatToBothSat sw) 2 0 = some sw ∧
    destripe (waterSatToBothSat sw) 2 1 = some (sw.map fun s => 1 - s) := by
  have hl := both_length sw
  constructor
  · obtain ⟨h1, h2⟩ := C35_destripe (waterSatToBothSat sw) 2 0 (by omega)
    obtain ⟨d, hd⟩ := Option.ne_none_iff_exists'.mp (h1.mpr (by omega))
    obtain ⟨e1, e2⟩ := h2 d hd
    rw [hd]
    congr 1
    apply List.ext_getElem?
    intro k
    by_cases hk : k < sw.length
    · rw [e2 k (by omega) (by omega), List.getElem?_eq_getElem hk, Nat.zero_add, Nat.mul_comm]
      exact (both_get sw k _ (List.getElem?_eq_getElem hk)).1
    · rw [List.getElem?_eq_none (by omega), List.getElem?_eq_none (by omega)]
  · obtain ⟨h1, h2⟩ := C35_destripe (waterSatToBothSat sw) 2 1 (by omega)
    obtain ⟨d, hd⟩ := Option.ne_none_iff_exists'.mp (h1.mpr (by omega))
    obtain ⟨e1, e2⟩ := h2 d hd
    rw [hd]
    congr 1
    apply List.ext_getElem?
    intro k
    by_cases hk : k < sw.length
    · rw [e2 k (by omega) (by omega), List.getElem?_map, List.getElem?_eq_getElem hk, Nat.add_comm, Nat.mul_comm]
      exact (both_get sw k _ (List.getElem?_eq_getElem hk)).2
    · rw [List.getElem?_eq_none (by omega), List.getElem?_eq_none (by simp; omega)]

/-- The extraction itself is not safe: with a size that is not a multiple of the stride it writes past its result. -/
theorem C35_violated_destripe : destripe ([1, 2, 3] : List ℚ) 2 0 = none := by decide +kernel

/-- C35: limiting initial saturations (the property also proved as part of C64). -/
theorem C35_limits [IsStrictOrderedRing K] (eps : K) (smin smax : Nat → K) (s : List K) (i : Nat) (x : K)
    (hx : s[i]? = some x) (hr : smin i + eps ≤ smax i - eps) :
    ∃ y, (Control.initSatLimits eps smin smax s)[i]? = some y ∧ smin i + eps ≤ y ∧ y ≤ smax i - eps ∧
      (smin i + eps ≤ x → x ≤ smax i - eps → y = x) := by
  refine ⟨_, by rw [Control.initSatLimits_get, hx]; rfl, le_min hr (le_max_left _ _), min_le_left _ _, fun h1 h2 => ?_⟩
  rw [max_eq_right h1, min_eq_right h2]

example : destripe (waterSatToBothSat ([1 / 4, 1] : List ℚ)) 2 0 = some [1 / 4, 1] ∧
    waterSatToBothSat ([1 / 4, 1] : List ℚ) = [1 / 4, 3 / 4, 1, 0] := by decide +kernel

/-! ### C54 -/

/-- The state after the first pass. -/
theorem out_fold (ff : Nat → K → K) (sat : Nat → K) (faces : List (BFace K)) (a : Flows K) :
    (faces.foldl (outStep ff sat) a).outW = a.outW + sumIf faces (fun f => 0 ≤ f.flux)
      (fun f => f.flux * ff f.cell (sat f.cell)) ∧
    (faces.foldl (outStep ff sat) a).outO = a.outO + sumIf faces (fun f => 0 ≤ f.flux)
      (fun f => f.flux * (1 - ff f.cell (sat f.cell))) ∧
    (faces.foldl (outStep ff sat) a).inW = a.inW ∧ (faces.foldl (outStep ff sat) a).inO = a.inO := by
  induction faces generalizing a with
  | nil => simp [sumIf]
  | cons f l ih =>
    rw [List.foldl_cons]
    obtain ⟨h1, h2, h3, h4⟩ := ih (outStep ff sat a f)
    rw [h1, h2, h3, h4]
    unfold outStep sumIf
    by_cases h : 0 ≤ f.flux
    · simp [h, add_assoc]
    · simp [h]

theorem out_frac (ff : Nat → K → K) (sat : Nat → K) (faces : List (BFace K)) (a : Flows K) (b : Nat) (x : K) :
    (faces.foldl (outStep ff sat) a).frac b = some x →
      a.frac b = some x ∨ ∃ f ∈ faces, 0 ≤ f.flux ∧ f.dirichlet = none ∧ f.bid = b ∧ x = ff f.cell (sat f.cell) := by
  induction faces generalizing a with
  | nil => exact fun h => Or.inl h
  | cons f l ih =>
    rw [List.foldl_cons]
    intro h
    rcases ih _ h with h | ⟨g, hg, h⟩
    · unfold outStep at h
      by_cases hf : 0 ≤ f.flux
      · rw [if_pos hf] at h
        cases hd : f.dirichlet with
        | none =>
          simp only [hd] at h
          by_cases hb : b = f.bid
          · rw [if_pos hb] at h
            exact Or.inr ⟨f, by simp, hf, hd, hb.symm, by simpa using h.symm⟩
          · rw [if_neg hb] at h
            exact Or.inl h
        | some s =>
          simp only [hd] at h
          exact Or.inl h
      · rw [if_neg hf] at h
        exact Or.inl h
    · exact Or.inr ⟨g, by simp [hg], h⟩

theorem out_frac_keep (ff : Nat → K → K) (sat : Nat → K) (faces : List (BFace K)) (a : Flows K) (b : Nat)
    (h : a.frac b ≠ none ∨ ∃ f ∈ faces, 0 ≤ f.flux ∧ f.dirichlet = none ∧ f.bid = b) :
    (faces.foldl (outStep ff sat) a).frac b ≠ none := by
  induction faces generalizing a with
  | nil => simpa using h
  | cons f l ih =>
    rw [List.foldl_cons]
    apply ih
    by_cases hset : 0 ≤ f.flux ∧ f.dirichlet = none ∧ f.bid = b
    · left
      obtain ⟨h1, h2, h3⟩ := hset
      simp [outStep, h1, h2, h3]
    · rcases h with h | ⟨g, hg, hh⟩
      · left
        unfold outStep
        by_cases hf : 0 ≤ f.flux
        · rw [if_pos hf]
          cases hd : f.dirichlet with
          | none =>
            simp only
            by_cases hb : b = f.bid
            · simp [hb]
            · rw [if_neg hb]; exact h
          | some s => exact h
        · rw [if_neg hf]; exact h
      · rcases List.mem_cons.mp hg with rfl | hg
        · exact absurd hh hset
        · exact Or.inr ⟨g, hg, hh⟩

/-- The fraction used on an inflow face. -/
def usedFrac (ff : Nat → K → K) (frac : Nat → Option K) (f : BFace K) : Option K :=
  match f.dirichlet with
  | none => frac f.partner
  | some s => some (ff f.cell s)

theorem in_none (ff : Nat → K → K) (faces : List (BFace K)) : faces.foldl (inStep ff) none = none := by
  induction faces with
  | nil => rfl
  | cons f l ih => rw [List.foldl_cons]; exact ih

theorem inStep_eq (ff : Nat → K → K) (a : Flows K) (f : BFace K) :
    inStep ff (some a) f = if f.flux < 0 then (usedFrac ff a.frac f).map (fun x =>
      { a with inW := a.inW + f.flux * x, inO := a.inO + f.flux * (1 - x) }) else some a := by
  unfold inStep usedFrac
  by_cases h : f.flux < 0
  · simp only [h, if_true]
    cases f.dirichlet with
    | none =>
      cases a.frac f.partner <;> rfl
    | some s => rfl
  · simp [h]

theorem in_fold (ff : Nat → K → K) (faces : List (BFace K)) (a : Flows K) :
    (faces.foldl (inStep ff) (some a) ≠ none ↔ ∀ f ∈ faces, f.flux < 0 → usedFrac ff a.frac f ≠ none) ∧
    ∀ r, faces.foldl (inStep ff) (some a) = some r → r.outW = a.outW ∧ r.outO = a.outO ∧
      r.inW = a.inW + sumIf faces (fun f => f.flux < 0) (fun f => f.flux * (usedFrac ff a.frac f).getD 0) ∧
      r.inO = a.inO + sumIf faces (fun f => f.flux < 0) (fun f => f.flux * (1 - (usedFrac ff a.frac f).getD 0)) := by
  induction faces generalizing a with
  | nil =>
    refine ⟨by simp, fun r h => ?_⟩
    simp only [List.foldl_nil, Option.some.injEq] at h
    subst h
    simp [sumIf]
  | cons f l ih =>
    rw [List.foldl_cons, inStep_eq]
    by_cases h : f.flux < 0
    · rw [if_pos h]
      cases hu : usedFrac ff a.frac f with
      | none =>
        rw [Option.map_none, in_none]
        refine ⟨?_, fun r h => by cases h⟩
        simp only [ne_eq, not_true_eq_false, false_iff]
        intro hc
        exact hc f (by simp) h hu
      | some x =>
        rw [Option.map_some]
        obtain ⟨h1, h2⟩ := ih { a with inW := a.inW + f.flux * x, inO := a.inO + f.flux * (1 - x) }
        refine ⟨?_, fun r hr => ?_⟩
        · rw [h1]
          constructor
          · intro hc g hg hgf
            rcases List.mem_cons.mp hg with rfl | hg
            · simp [hu]
            · exact hc g hg hgf
          · intro hc g hg hgf
            exact hc g (by simp [hg]) hgf
        · obtain ⟨e1, e2, e3, e4⟩ := h2 r hr
          refine ⟨e1, e2, ?_, ?_⟩
          · rw [e3]; simp [sumIf, h, hu, add_assoc]
          · rw [e4]; simp [sumIf, h, hu, add_assoc]
    · rw [if_neg h]
      obtain ⟨h1, h2⟩ := ih a
      refine ⟨?_, fun r hr => ?_⟩
      · rw [h1]
        constructor
        · intro hc g hg hgf
          rcases List.mem_cons.mp hg with rfl | hg
          · exact absurd hgf h
          · exact hc g hg hgf
        · intro hc g hg hgf
          exact hc g (by simp [hg]) hgf
      · obtain ⟨e1, e2, e3, e4⟩ := h2 r hr
        refine ⟨e1, e2, ?_, ?_⟩
        · rw [e3]; simp [sumIf, h]
        · rw [e4]; simp [sumIf, h]

omit [LinearOrder K] in
theorem sumIf_add {α : Type} (l : List α) (p : α → Prop) [DecidablePred p] (u v : α → K) :
    sumIf l p u + sumIf l p v = sumIf l p (fun a => u a + v a) := by
  unfold sumIf
  induction l.filter (fun a => decide (p a)) with
  | nil => simp
  | cons a l ih => simp only [List.map_cons, List.sum_cons]; rw [← ih]; ring

omit [LinearOrder K] in
theorem sumIf_congr {α : Type} (l : List α) (p : α → Prop) [DecidablePred p] (u v : α → K)
    (h : ∀ a ∈ l, p a → u a = v a) : sumIf l p u = sumIf l p v := by
  unfold sumIf
  congr 1
  apply List.map_congr_left
  intro a ha
  rw [List.mem_filter] at ha
  exact h a ha.1 (by simpa using ha.2)

/-- C54: the reported water and oil flows add up, separately for in and out, to the total flux of the faces with flow
into (negative flux) and out of (non-negative flux) the domain; so each boundary face is counted in exactly one. -/
theorem C54_total (ff : Nat → K → K) (sat : Nat → K) (faces : List (BFace K)) (r : Flows K)
    (h : inOutFlows ff sat faces = some r) :
    r.inW + r.inO = sumIf faces (fun f => f.flux < 0) (fun f => f.flux) ∧
    r.outW + r.outO = sumIf faces (fun f => 0 ≤ f.flux) (fun f => f.flux) ∧
    (r.inW + r.inO) + (r.outW + r.outO) = (faces.map fun f => f.flux).sum := by
  obtain ⟨h1, h2, h3, h4⟩ := out_fold ff sat faces ⟨0, 0, 0, 0, fun _ => none⟩
  obtain ⟨e1, e2, e3, e4⟩ := (in_fold ff faces _).2 r h
  have hin : r.inW + r.inO = sumIf faces (fun f => f.flux < 0) (fun f => f.flux) := by
    rw [e3, e4, h3, h4, zero_add, zero_add, sumIf_add]
    exact sumIf_congr _ _ _ _ fun a _ _ => by ring
  have hout : r.outW + r.outO = sumIf faces (fun f => 0 ≤ f.flux) (fun f => f.flux) := by
    rw [e1, e2, h1, h2, zero_add, zero_add, sumIf_add]
    exact sumIf_congr _ _ _ _ fun a _ _ => by ring
  refine ⟨hin, hout, ?_⟩
  rw [hin, hout]
  unfold sumIf
  clear h h1 h2 h3 h4 e1 e2 e3 e4 hin hout
  induction faces with
  | nil => simp
  | cons f l ih =>
    by_cases hf : f.flux < 0
    · simp only [List.filter_cons, hf, not_le.mpr hf, decide_true, decide_false, if_true, List.map_cons, List.sum_cons]
      rw [← ih]
      simp
      ring
    · simp only [List.filter_cons, hf, not_lt.mp hf, decide_true, decide_false, if_true, List.map_cons, List.sum_cons]
      rw [← ih]
      simp
      ring

/-- C54: the summary is computed, without the error, exactly when every periodic face with inflow has a periodic face
carrying its partner's id without inflow. -/
theorem C54_defined (ff : Nat → K → K) (sat : Nat → K) (faces : List (BFace K)) :
    inOutFlows ff sat faces ≠ none ↔ ∀ f ∈ faces, f.flux < 0 → f.dirichlet = none →
      ∃ g ∈ faces, 0 ≤ g.flux ∧ g.dirichlet = none ∧ g.bid = f.partner := by
  refine (in_fold ff faces _).1.trans ?_
  constructor
  · intro h f hf hfl hd
    have := h f hf hfl
    unfold usedFrac at this
    rw [hd] at this
    obtain ⟨x, hx⟩ := Option.ne_none_iff_exists'.mp this
    rcases out_frac ff sat faces _ _ x hx with h | ⟨g, hg, h1, h2, h3, -⟩
    · cases h
    · exact ⟨g, hg, h1, h2, h3⟩
  · intro h f hf hfl
    unfold usedFrac
    cases hd : f.dirichlet with
    | none => exact out_frac_keep ff sat faces _ _ (Or.inr (h f hf hfl hd))
    | some s => simp

/-- C54: the fractions. Water leaves through a face with the fractional flow of its cell at the cell's saturation. It
enters through a face with a prescribed saturation with the fractional flow of the cell at that saturation, and through a
periodic face with that of the cell on the other side, the one whose boundary id is the partner's. -/
theorem C54_fractions (ff : Nat → K → K) (sat : Nat → K) (faces : List (BFace K)) (r : Flows K)
    (hu : (faces.map fun f => f.bid).Nodup) (x : BFace K → K)
    (hx : ∀ f ∈ faces, f.flux < 0 → (∀ s, f.dirichlet = some s → x f = ff f.cell s) ∧
      (f.dirichlet = none → ∃ g ∈ faces, g.bid = f.partner ∧ x f = ff g.cell (sat g.cell)))
    (h : inOutFlows ff sat faces = some r) :
    r.outW = sumIf faces (fun f => 0 ≤ f.flux) (fun f => f.flux * ff f.cell (sat f.cell)) ∧
    r.inW = sumIf faces (fun f => f.flux < 0) (fun f => f.flux * x f) := by
  obtain ⟨h1, h2, h3, h4⟩ := out_fold ff sat faces ⟨0, 0, 0, 0, fun _ => none⟩
  obtain ⟨e1, e2, e3, e4⟩ := (in_fold ff faces _).2 r h
  have hdef := (in_fold ff faces _).1.mp (by unfold inOutFlows at h; rw [h]; simp)
  refine ⟨by rw [e1, h1, zero_add], ?_⟩
  rw [e3, h3, zero_add]
  apply sumIf_congr
  intro f hf hfl
  congr 1
  obtain ⟨hxd, hxp⟩ := hx f hf hfl
  have hne := hdef f hf hfl
  unfold usedFrac at hne ⊢
  cases hd : f.dirichlet with
  | some s => simp [hxd s hd]
  | none =>
    rw [hd] at hne
    obtain ⟨y, hy⟩ := Option.ne_none_iff_exists'.mp hne
    obtain ⟨g, hg, hgb, hgx⟩ := hxp hd
    show ((faces.foldl (outStep ff sat) ⟨0, 0, 0, 0, fun _ => none⟩).frac f.partner).getD 0 = x f
    replace hy : (faces.foldl (outStep ff sat) ⟨0, 0, 0, 0, fun _ => none⟩).frac f.partner = some y := hy
    rw [hy, hgx]
    rcases out_frac ff sat faces _ _ y hy with h | ⟨g', hg', -, -, hb', hy'⟩
    · cases h
    · obtain rfl : g' = g := List.inj_on_of_nodup_map hu hg' hg (by rw [hb', hgb])
      simpa using hy'

/-- C54: in the fully periodic case nothing is lost: if the faces are paired, the fluxes of partners cancel and boundary
ids are distinct, then the summary is computed and the water (and oil) that leaves equals what enters. -/
theorem C54_periodic_balance [IsStrictOrderedRing K] (ff : Nat → K → K) (sat : Nat → K) (n : Nat) (faces : Fin n → BFace K)
    (σ : Fin n → Fin n) (hσ : ∀ i, σ (σ i) = i) (hbid : Function.Injective fun i => (faces i).bid)
    (hpart : ∀ i, (faces i).partner = (faces (σ i)).bid) (hper : ∀ i, (faces i).dirichlet = none)
    (hflux : ∀ i, (faces (σ i)).flux = - (faces i).flux) :
    ∃ r, inOutFlows ff sat (List.ofFn faces) = some r ∧ r.inW = - r.outW ∧ r.inO = - r.outO := by
  have hmem : ∀ i, faces i ∈ List.ofFn faces := fun i => List.mem_ofFn.mpr ⟨i, rfl⟩
  have hdef : inOutFlows ff sat (List.ofFn faces) ≠ none := by
    rw [C54_defined]
    intro f hf hfl _
    obtain ⟨i, rfl⟩ := List.mem_ofFn.mp hf
    refine ⟨faces (σ i), hmem _, ?_, hper _, (hpart i).symm⟩
    rw [hflux]
    linarith
  obtain ⟨r, hr⟩ := Option.ne_none_iff_exists'.mp hdef
  have hsum : ∀ (p : BFace K → Prop) [DecidablePred p] (w : BFace K → K),
      sumIf (List.ofFn faces) p w = ∑ i, if p (faces i) then w (faces i) else 0 := by
    intro p _ w
    have hgen : ∀ l : List (BFace K), sumIf l p w = (l.map fun f => if p f then w f else 0).sum := by
      intro l
      unfold sumIf
      induction l with
      | nil => rfl
      | cons a l ih =>
        by_cases h : p a
        · simp [h, ih]
        · simp [h, ih]
    rw [hgen, List.map_ofFn, List.sum_ofFn]
    rfl
  have hinj : Function.Injective faces := fun i j h => hbid (by simp [h])
  have hnd : ((List.ofFn faces).map fun f => f.bid).Nodup := by
    rw [List.map_ofFn, List.nodup_ofFn]
    exact hbid
  -- the fraction that enters through a face
  classical
  let x : BFace K → K := fun f =>
    if h : ∃ i, faces i = f then ff (faces (σ h.choose)).cell (sat (faces (σ h.choose)).cell) else 0
  have hx : ∀ i, x (faces i) = ff (faces (σ i)).cell (sat (faces (σ i)).cell) := by
    intro i
    have h : ∃ j, faces j = faces i := ⟨i, rfl⟩
    have : h.choose = i := hinj h.choose_spec
    simp only [x]
    rw [dif_pos h, this]
  obtain ⟨f1, f2⟩ := C54_fractions ff sat (List.ofFn faces) r hnd x (by
    intro f hf _
    obtain ⟨i, rfl⟩ := List.mem_ofFn.mp hf
    exact ⟨fun s hs => (by rw [hper i] at hs; cases hs), fun _ => ⟨faces (σ i), hmem _, (hpart i).symm, hx i⟩⟩) hr
  obtain ⟨t1, t2, -⟩ := C54_total ff sat (List.ofFn faces) r hr
  rw [hsum] at f1 f2 t1 t2
  have hequiv : ∀ w : Fin n → K, ∑ i, w (σ i) = ∑ i, w i :=
    fun w => Equiv.sum_comp (⟨σ, σ, hσ, hσ⟩ : Fin n ≃ Fin n) w
  have hW : r.inW = - r.outW := by
    rw [f1, f2, ← hequiv fun i => if 0 ≤ (faces i).flux then _ else _, ← Finset.sum_neg_distrib]
    apply Finset.sum_congr rfl
    intro i _
    rw [hx, hflux]
    by_cases h : (faces i).flux < 0
    · rw [if_pos h, if_pos (by linarith)]; ring
    · by_cases h0 : (faces i).flux = 0
      · rw [if_neg h, h0]; simp
      · rw [if_neg h, if_neg (by intro hc; exact h0 (le_antisymm (by linarith) (not_lt.mp h)))]; ring
  have hT : r.inW + r.inO = - (r.outW + r.outO) := by
    rw [t1, t2, ← hequiv fun i => if 0 ≤ (faces i).flux then _ else _, ← Finset.sum_neg_distrib]
    apply Finset.sum_congr rfl
    intro i _
    rw [hflux]
    by_cases h : (faces i).flux < 0
    · rw [if_pos h, if_pos (by linarith)]; ring
    · by_cases h0 : (faces i).flux = 0
      · rw [if_neg h, h0]; simp
      · rw [if_neg h, if_neg (by intro hc; exact h0 (le_antisymm (by linarith) (not_lt.mp h)))]; ring
  refine ⟨r, hr, hW, ?_⟩
  rw [hW] at hT
  linarith

/-- Two cells, two periodic faces carrying flux 3 through the domain: a case of `C54_periodic_balance`. -/
def exFaces : Fin 2 → BFace ℚ := ![⟨0, 1, -3, 2, none⟩, ⟨1, 2, 3, 1, none⟩]

example : (inOutFlows (fun _ s => s) (fun c => if c = 0 then 1 / 4 else 1 / 2) (List.ofFn exFaces)).map
      (fun r => (r.inW, r.inO, r.outW, r.outO)) = some (-3 / 2, -3 / 2, 3 / 2, 3 / 2) ∧
    (∀ i : Fin 2, (exFaces (1 - i)).flux = - (exFaces i).flux) ∧
    (∀ i : Fin 2, (exFaces i).partner = (exFaces (1 - i)).bid) := by
  decide +kernel

/-- The error is reachable: partners both with inflow. -/
example : (inOutFlows (fun _ s => s) (fun _ => 1 / 4)
    [(⟨0, 1, -3, 2, none⟩ : BFace ℚ), ⟨1, 2, -3, 1, none⟩]).isNone = true := by decide +kernel

/-! ### C71 -/

omit [Field K] in
theorem foldl_maxl (l : List K) (m : K) : ∀ z, l.foldl (fun a x => max a x) m ≤ z ↔ m ≤ z ∧ ∀ x ∈ l, x ≤ z := by
  induction l generalizing m with
  | nil => simp
  | cons a l ih => intro z; rw [List.foldl_cons, ih]; simp [and_assoc]

theorem maxMob_le (mobs : List (List K)) (z : K) : maxMob mobs ≤ z ↔ 0 ≤ z ∧ ∀ l ∈ mobs, ∀ x ∈ l, x ≤ z := by
  unfold maxMob
  suffices h : ∀ m : K, mobs.foldl (fun m l => l.foldl (fun a x => max a x) m) m ≤ z ↔
      m ≤ z ∧ ∀ l ∈ mobs, ∀ x ∈ l, x ≤ z from h 0
  induction mobs with
  | nil => simp
  | cons l ls ih =>
    intro m
    rw [List.foldl_cons, ih, foldl_maxl]
    simp [and_assoc]

/-- C71: each mobility handed to the upscaling is the smallest non-negative value that is not below the computed mobility,
not below the relative permeability threshold divided by viscosity, and not below any computed mobility of the phase divided
by the maximal contrast. -/
theorem C71_mobility [IsStrictOrderedRing K] (relThresh visc contrast : K) (hv : 0 < visc) (hc : 0 < contrast)
    (mobs : List (List K)) (i j : Nat) (l : List K) (x : K) (hl : mobs[i]? = some l) (hx : l[j]? = some x) :
    ∃ l' y, (thresholded relThresh visc contrast mobs)[i]? = some l' ∧ l'.length = l.length ∧ l'[j]? = some y ∧
      IsLeast {z | 0 ≤ z ∧ x ≤ z ∧ relThresh ≤ z * visc ∧ ∀ k ∈ mobs, ∀ w ∈ k, w ≤ z * contrast} y := by
  have key : ∀ z : K, max x (mobThreshold relThresh visc contrast mobs) ≤ z ↔
      0 ≤ z ∧ x ≤ z ∧ relThresh ≤ z * visc ∧ ∀ k ∈ mobs, ∀ w ∈ k, w ≤ z * contrast := by
    intro z
    unfold mobThreshold
    rw [max_le_iff, max_le_iff, div_le_iff₀ hv, div_le_iff₀ hc, maxMob_le]
    constructor
    · rintro ⟨a, b, c, d⟩
      exact ⟨nonneg_of_mul_nonneg_left c hc, a, b, d⟩
    · rintro ⟨a, b, c, d⟩
      exact ⟨b, c, by positivity, d⟩
  refine ⟨_, _, by rw [thresholded, List.getElem?_map, hl]; rfl, by simp, by rw [List.getElem?_map, hx]; rfl, ?_, ?_⟩
  · exact (key _).mp le_rfl
  · intro z hz
    exact (key z).mpr hz

/-- C71: mobilities of a phase differ at most by the contrast. -/
theorem C71_contrast [IsStrictOrderedRing K] (relThresh visc contrast : K) (hv : 0 < visc) (hc : 1 ≤ contrast)
    (mobs : List (List K)) : ∀ l ∈ thresholded relThresh visc contrast mobs, ∀ y ∈ l,
      ∀ l' ∈ thresholded relThresh visc contrast mobs, ∀ y' ∈ l', y' ≤ contrast * y := by
  have hc0 : 0 < contrast := by linarith
  intro l hl y hy l' hl' y' hy'
  obtain ⟨k, hk, rfl⟩ := List.mem_map.mp hl
  obtain ⟨k', hk', rfl⟩ := List.mem_map.mp hl'
  obtain ⟨x, hx, rfl⟩ := List.mem_map.mp hy
  obtain ⟨x', hx', rfl⟩ := List.mem_map.mp hy'
  obtain ⟨i, hi⟩ := List.getElem?_of_mem hk
  obtain ⟨j, hj⟩ := List.getElem?_of_mem hx
  obtain ⟨m, y, h1, -, h2, h3, -⟩ := C71_mobility relThresh visc contrast hv hc0 mobs i j k x hi hj
  simp only [thresholded, List.getElem?_map, hi, Option.map_some, Option.some.injEq] at h1
  subst h1
  simp only [List.getElem?_map, hj, Option.map_some, Option.some.injEq] at h2
  subst h2
  obtain ⟨g0, -, -, g⟩ := h3
  have g' := g k' hk' x' hx'
  apply max_le
  · rw [mul_comm]; exact g'
  · calc mobThreshold relThresh visc contrast mobs ≤ max x (mobThreshold relThresh visc contrast mobs) := le_max_right _ _
      _ = 1 * max x (mobThreshold relThresh visc contrast mobs) := (one_mul _).symm
      _ ≤ _ := mul_le_mul_of_nonneg_right hc g0

/-- C71: the reported relative permeability, times the single-phase permeability, is viscosity times the effective permeability of the
phase. Missing: an invertible permeability whose zz element is zero (division by zero, see C03). -/
theorem C71_relperm_partial (eff up : Matrix (Fin 3) (Fin 3) K) (visc : K) (hz : up 2 2 ≠ 0) (hdet : up.det ≠ 0) :
    ∃ kr, phaseRelperm eff up visc = some kr ∧ Matrix.of kr * up = visc • eff := by
  obtain ⟨mi, h1, -, h2⟩ := (Dense.C03_inverse3x3_partial up hz).2 hdet
  refine ⟨fun r c => matprod eff mi r c * visc, by unfold phaseRelperm; rw [h1]; rfl, ?_⟩
  have : (Matrix.of fun r c => matprod eff mi r c * visc) = visc • (eff * Matrix.of mi) := by
    ext r c
    simp only [Matrix.of_apply, Matrix.smul_apply, Matrix.mul_apply, smul_eq_mul, matprod, Fin.sum_univ_three]
    rw [show List.finRange 3 = [0, 1, 2] from rfl]
    simp only [List.foldl_cons, List.foldl_nil]
    ring
  rw [this, Matrix.smul_mul, Matrix.mul_assoc, h2, Matrix.mul_one]

/-- C71: a single-phase run with unit mobility and unit viscosity gives relative permeability one. -/
theorem C71_identity (up : Matrix (Fin 3) (Fin 3) K) (hz : up 2 2 ≠ 0) (hdet : up.det ≠ 0) :
    ∃ kr, phaseRelperm up up 1 = some kr ∧ Matrix.of kr = 1 := by
  obtain ⟨kr, h1, h2⟩ := C71_relperm_partial up up 1 hz hdet
  refine ⟨kr, h1, ?_⟩
  obtain ⟨mi, -, h3, -⟩ := (Dense.C03_inverse3x3_partial up hz).2 hdet
  rw [one_smul] at h2
  calc Matrix.of kr = Matrix.of kr * (up * Matrix.of mi) := by rw [h3, Matrix.mul_one]
    _ = 1 := by rw [← Matrix.mul_assoc, h2, h3]

example : thresholded (1 / 10 : ℚ) 2 4 [[1, 1 / 8], [3 / 10, 0]] = [[1, 1 / 4], [3 / 10, 1 / 4]] ∧
    (phaseRelperm (!![2, 0, 0; 0, 1, 0; 0, 0, 1] : Matrix (Fin 3) (Fin 3) ℚ) !![4, 0, 0; 0, 2, 0; 0, 0, 1] 3).map
      (fun k => [k 0 0, k 0 1, k 1 1, k 2 2]) = some [3 / 2, 0, 3 / 2, 3] := by decide +kernel

end Verif.Steady
