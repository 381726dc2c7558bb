import Verif.Spec.SimRun
import Verif.Props.Steps
import Verif.Props.Transport
import Mathlib.Tactic.Linarith
import Mathlib.Data.List.Sort

/-!
C140: sources and steps of the test simulators.
-/

namespace Verif.SimRun

open Verif.SimSetup
open scoped BigOperators

variable {K : Type} [Field K] [LinearOrder K]

/-! ### Looking up -/

theorem lowerBound_spec (a : List Nat) (x : Nat) (ha : a.Pairwise (· < ·)) (fuel : Nat) : ∀ (first len : Nat), len ≤ fuel → first + len ≤ a.length →
    (∀ j < first, a.getD j 0 < x) → (∀ j, first + len ≤ j → j < a.length → x ≤ a.getD j 0) →
    (∀ j < lowerBound a x fuel first len, a.getD j 0 < x) ∧ (∀ j, lowerBound a x fuel first len ≤ j → j < a.length → x ≤ a.getD j 0) := by
  have mono : ∀ i j, i < j → j < a.length → a.getD i 0 < a.getD j 0 := by
    intro i j hij hj
    rw [List.getD_eq_getElem?_getD, List.getD_eq_getElem?_getD, List.getElem?_eq_getElem hj, List.getElem?_eq_getElem (by omega)]
    exact List.pairwise_iff_getElem.mp ha i j (by omega) hj hij
  induction fuel with
  | zero =>
    intro first len hl hfl h1 h2
    obtain rfl : len = 0 := by omega
    exact ⟨h1, h2⟩
  | succ fuel ih =>
    intro first len hl hfl h1 h2
    unfold lowerBound
    by_cases h0 : len = 0
    · rw [if_pos h0]; subst h0; exact ⟨h1, h2⟩
    · rw [if_neg h0]
      by_cases hm : a.getD (first + len / 2) 0 < x
      · rw [if_pos hm]
        refine ih _ _ (by omega) (by omega) ?_ ?_
        · intro j hj
          rcases Nat.lt_or_ge j (first + len / 2) with h | h
          · exact (mono j _ h (by omega)).trans hm
          · obtain rfl : j = first + len / 2 := by omega
            exact hm
        · intro j hj hja
          exact h2 j (by omega) hja
      · rw [if_neg hm]
        refine ih _ _ (by omega) (by omega) h1 ?_
        intro j hj hja
        rcases Nat.lt_or_ge (first + len / 2) j with h | h
        · exact (Nat.le_of_not_lt hm).trans (mono _ j h hja).le
        · obtain rfl : j = first + len / 2 := by omega
          exact Nat.le_of_not_lt hm

/-- A sorted sparse vector gives back each value at its index and 0 elsewhere. -/
theorem get_sorted (n : Nat) (idx : List Nat) (hs : idx.Pairwise (· < ·)) (g : Nat → K) (i : Nat) :
    (⟨n, idx, idx.map g⟩ : Sparse K).get i = if i ∈ idx then g i else 0 := by
  obtain ⟨h1, h2⟩ := lowerBound_spec idx i hs idx.length 0 idx.length le_rfl (by omega) (fun j hj => by omega) (fun j hj hj' => by omega)
  unfold Sparse.get
  dsimp only
  generalize lowerBound idx i idx.length 0 idx.length = k at h1 h2
  by_cases hm : i ∈ idx
  · rw [if_pos hm]
    obtain ⟨j, hj, rfl⟩ := List.getElem_of_mem hm
    have e : ∀ q (hq : q < idx.length), idx.getD q 0 = idx[q] := by
      intro q hq
      rw [List.getD_eq_getElem?_getD, List.getElem?_eq_getElem hq]; rfl
    have hjk : ¬ j < k := by
      intro h
      have := h1 j h
      rw [e j hj] at this
      omega
    have hkj : ¬ k < j := by
      intro h
      have := h2 k le_rfl (by omega)
      rw [e k (by omega)] at this
      have := List.pairwise_iff_getElem.mp hs k j (by omega) hj h
      omega
    obtain rfl : k = j := by omega
    rw [if_pos (List.getElem?_eq_getElem hj), List.getD_eq_getElem?_getD, List.getElem?_map, List.getElem?_eq_getElem hj]
    rfl
  · rw [if_neg hm, if_neg]
    intro h
    exact hm (List.mem_of_getElem? h)

/-! ### Blocks -/

section Blocks
variable (asserts : Bool) (low high : Fin 3 → K) (d : K) (inj : Bool)

/-- The rate of a cell of a block. -/
def rateOf (c : Cell K) : K := if inj then d * c.volume else -(d * c.volume)

theorem sourceBlock_ok (l : List (Cell K × Nat)) (hl : l.Pairwise (fun a b => a.2 < b.2)) (v : Sparse K) (p : List K) (t : K)
    (hv : ∀ a ∈ v.idx, ∀ c ∈ l, isInside low high c.1.centroid = true → a < c.2) (hs : ∀ c ∈ l, c.2 < v.size) (hp : ∀ c ∈ l, c.2 < p.length) :
    ∃ p', l.foldlM (blockStep asserts low high d inj) (⟨v, p⟩, t) =
      .ok (⟨⟨v.size, v.idx ++ (l.filter fun c => isInside low high c.1.centroid).map (·.2),
          v.val ++ (l.filter fun c => isInside low high c.1.centroid).map (fun c => rateOf d inj c.1)⟩, p'⟩,
        t + ((l.filter fun c => isInside low high c.1.centroid).map (fun c => rateOf d inj c.1)).sum) ∧ p'.length = p.length ∧
      (∀ i, (∀ c ∈ l, isInside low high c.1.centroid = true → c.2 ≠ i) → p'[i]? = p[i]?) ∧
      (∀ c ∈ l, isInside low high c.1.centroid = true → p'[c.2]? = some (rateOf d inj c.1)) := by
  induction l generalizing v p t with
  | nil => exact ⟨p, by simp [pure, Except.pure], rfl, fun _ _ => rfl, by simp⟩
  | cons c l ih =>
    rw [List.pairwise_cons] at hl
    rw [List.foldlM_cons]
    by_cases hin : isInside low high c.1.centroid = true
    · have hstep : blockStep asserts low high d inj (⟨v, p⟩, t) c = .ok (⟨⟨v.size, v.idx ++ [c.2], v.val ++ [rateOf d inj c.1]⟩, p.set c.2 (rateOf d inj c.1)⟩,
          t + rateOf d inj c.1) := by
        have hc : (v.idx.getLast?.all (fun j => decide (j < c.2)) && decide (c.2 < v.size)) = true := by
          rw [Bool.and_eq_true]
          refine ⟨?_, by simpa using hs c (by simp)⟩
          rcases hq : v.idx.getLast? with _ | a
          · rfl
          · simpa using hv a (List.mem_of_getLast? hq) c (by simp) hin
        unfold blockStep Sparse.add
        rw [if_pos hin]
        dsimp only
        rw [if_neg (by rw [hc]; simp)]
        dsimp only
        rw [if_pos (hp c (by simp))]
        rfl
      rw [hstep]
      obtain ⟨p', h1, h2, h3, h4⟩ := ih hl.2 ⟨v.size, v.idx ++ [c.2], v.val ++ [rateOf d inj c.1]⟩ (p.set c.2 (rateOf d inj c.1)) (t + rateOf d inj c.1)
        (by
          intro a ha e he hie
          rcases List.mem_append.mp ha with ha | ha
          · exact hv a ha e (List.mem_cons_of_mem _ he) hie
          · rw [List.mem_singleton] at ha; subst ha; exact hl.1 e he)
        (fun e he => hs e (List.mem_cons_of_mem _ he)) (fun e he => by rw [List.length_set]; exact hp e (List.mem_cons_of_mem _ he))
      refine ⟨p', ?_, by rw [h2, List.length_set], ?_, ?_⟩
      · refine h1.trans ?_
        rw [List.filter_cons_of_pos (by simpa using hin)]
        simp only [List.append_assoc, List.map_cons, List.singleton_append, List.sum_cons, add_assoc]
      · intro i hi
        rw [h3 i (fun e he => hi e (List.mem_cons_of_mem _ he)), List.getElem?_set_ne (hi c (by simp) hin)]
      · intro e he hie
        rcases List.mem_cons.mp he with rfl | he'
        · rw [h3 e.2 (fun e' he' _ => (hl.1 e' he').ne'), List.getElem?_set_self (hp e (by simp))]
        · exact h4 e he' hie
    · have hstep : blockStep asserts low high d inj (⟨v, p⟩, t) c = .ok (⟨v, p⟩, t) := by
        unfold blockStep; rw [if_neg hin]
      rw [hstep]
      obtain ⟨p', h1, h2, h3, h4⟩ := ih hl.2 v p t (fun a ha e he => hv a ha e (List.mem_cons_of_mem _ he))
        (fun e he => hs e (List.mem_cons_of_mem _ he)) (fun e he => hp e (List.mem_cons_of_mem _ he))
      refine ⟨p', ?_, h2, ?_, ?_⟩
      · refine h1.trans ?_
        rw [List.filter_cons_of_neg (by simpa using hin)]
      · intro i hi
        exact h3 i (fun e he => hi e (List.mem_cons_of_mem _ he))
      · intro e he hie
        rcases List.mem_cons.mp he with rfl | he'
        · exact absurd hie hin
        · exact h4 e he' hie

/-- One cell with assertions: nothing changes, or an index larger than all others is added. -/
theorem step_ok (v : Sparse K) (p : List K) (t : K) (c : Cell K × Nat) (r : Rates K × K) (h : blockStep true low high d inj (⟨v, p⟩, t) c = .ok r) :
    (isInside low high c.1.centroid = false ∧ r.1.transport.idx = v.idx) ∨
      (isInside low high c.1.centroid = true ∧ r.1.transport.idx = v.idx ++ [c.2] ∧ ∀ a, v.idx.getLast? = some a → a < c.2) := by
  unfold blockStep at h
  by_cases hin : isInside low high c.1.centroid = true
  · rw [if_pos hin] at h
    unfold Sparse.add at h
    dsimp only at h
    by_cases hc : (v.idx.getLast?.all (fun j => decide (j < c.2)) && decide (c.2 < v.size)) = true
    · rw [if_neg (by rw [hc]; simp)] at h
      dsimp only at h
      by_cases hp : c.2 < p.length
      · rw [if_pos hp] at h
        injection h with h
        subst h
        refine .inr ⟨hin, rfl, ?_⟩
        intro a ha
        rw [Bool.and_eq_true, ha] at hc
        simpa using hc.1
      · rw [if_neg hp] at h; cases h
    · rw [Bool.not_eq_true] at hc
      rw [if_pos (by rw [hc]; rfl)] at h
      cases h
  · rw [if_neg hin] at h
    injection h with h
    subst h
    exact .inl ⟨by simpa using hin, rfl⟩

theorem step_err (v : Sparse K) (p : List K) (t : K) (c : Cell K × Nat) (e : Err) (h : blockStep asserts low high d inj (⟨v, p⟩, t) c = .error e) : e = .ub := by
  unfold blockStep at h
  split at h
  · dsimp only at h
    split at h
    · rename_i e' he
      injection h with h; subst h
      unfold Sparse.add at he
      split at he
      · injection he with he; exact he.symm
      · cases he
    · split at h
      · cases h
      · injection h with h; exact h.symm
  · cases h

theorem block_err (l : List (Cell K × Nat)) (st : Rates K × K) (e : Err) (h : l.foldlM (blockStep asserts low high d inj) st = .error e) : e = .ub := by
  induction l generalizing st with
  | nil => cases h
  | cons c l ih =>
    rw [List.foldlM_cons] at h
    cases hs : blockStep asserts low high d inj st c with
    | error e' =>
      rw [hs] at h
      have := step_err asserts low high d inj st.1.transport st.1.pressure st.2 c e' hs
      subst this
      injection h with h; exact h.symm
    | ok st' => rw [hs] at h; exact ih st' h

/-- With assertions a block that succeeds keeps the indices increasing and contains all its cells. -/
theorem block_sorted (l : List (Cell K × Nat)) (st r : Rates K × K) (hv : st.1.transport.idx.Pairwise (· < ·))
    (h : l.foldlM (blockStep true low high d inj) st = .ok r) :
    r.1.transport.idx.Pairwise (· < ·) ∧ ∃ m, r.1.transport.idx = st.1.transport.idx ++ m ∧ ∀ c ∈ l, isInside low high c.1.centroid = true → c.2 ∈ m := by
  induction l generalizing st with
  | nil => injection h with h; subst h; exact ⟨hv, [], by simp, by simp⟩
  | cons c l ih =>
    rw [List.foldlM_cons] at h
    cases hs : blockStep true low high d inj st c with
    | error e' => rw [hs] at h; cases h
    | ok st' =>
      rw [hs] at h
      replace h : l.foldlM (blockStep true low high d inj) st' = .ok r := h
      rcases step_ok low high d inj st.1.transport st.1.pressure st.2 c st' hs with ⟨h0, h1⟩ | ⟨h0, h1, h2⟩
      · obtain ⟨i1, m, i2, i3⟩ := ih st' (by rw [h1]; exact hv) h
        refine ⟨i1, m, by rw [i2, h1], ?_⟩
        intro e he hie
        rcases List.mem_cons.mp he with rfl | he'
        · rw [h0] at hie; cases hie
        · exact i3 e he' hie
      · have hs' : st'.1.transport.idx.Pairwise (· < ·) := by
          rw [h1, List.pairwise_append]
          refine ⟨hv, by simp, ?_⟩
          intro a ha b hb
          rw [List.mem_singleton] at hb; subst hb
          rcases hq : st.1.transport.idx.getLast? with _ | z
          · rw [List.getLast?_eq_none_iff] at hq; rw [hq] at ha; cases ha
          · have hz := h2 z hq
            obtain ⟨ys, hys⟩ := List.getLast?_eq_some_iff.mp hq
            rw [hys] at ha hv
            rcases List.mem_append.mp ha with h' | h'
            · exact ((List.pairwise_append.mp hv).2.2 a h' z (by simp)).trans hz
            · rw [List.mem_singleton] at h'; subst h'; exact hz
        obtain ⟨i1, m, i2, i3⟩ := ih st' hs' h
        refine ⟨i1, c.2 :: m, by rw [i2, h1]; simp, ?_⟩
        intro e he hie
        rcases List.mem_cons.mp he with rfl | he'
        · simp
        · exact List.mem_cons_of_mem _ (i3 e he' hie)

end Blocks

/-! ### Initialisation -/

theorem inside_iff (b : Block K) (pt : Fin 3 → K) :
    isInside (vec3 (b.lowX.getD 0) (b.lowY.getD 0) (b.lowZ.getD 0)) (vec3 (b.highX.getD 1) (b.highY.getD 1) (b.highZ.getD 1)) pt = true ↔ InBox b pt := by
  unfold isInside InBox vec3
  simp only [Bool.and_eq_true, decide_eq_true_eq, gt_iff_lt]
  constructor
  · rintro ⟨⟨⟨⟨⟨h1, h2⟩, h3⟩, h4⟩, h5⟩, h6⟩; exact ⟨⟨h1, h4⟩, ⟨h2, h5⟩, ⟨h3, h6⟩⟩
  · rintro ⟨⟨h1, h4⟩, ⟨h2, h5⟩, ⟨h3, h6⟩⟩; exact ⟨⟨⟨⟨⟨h1, h2⟩, h3⟩, h4⟩, h5⟩, h6⟩

/-- The cells of a block, in order. -/
noncomputable def covered (b : Block K) (cells : List (Cell K)) : List (Cell K × Nat) :=
  if b.present = some true then cells.zipIdx.filter (fun c => isInside (vec3 (b.lowX.getD 0) (b.lowY.getD 0) (b.lowZ.getD 0))
    (vec3 (b.highX.getD 1) (b.highY.getD 1) (b.highZ.getD 1)) c.1.centroid) else []

theorem mem_covered (b : Block K) (cells : List (Cell K)) (i : Nat) : i ∈ (covered b cells).map (·.2) ↔ Covers b cells i := by
  unfold covered Covers
  by_cases hp : b.present = some true
  · rw [if_pos hp, List.mem_map]
    constructor
    · rintro ⟨c, hc, rfl⟩
      rw [List.mem_filter] at hc
      exact ⟨hp, c.1, List.mem_zipIdx_iff_getElem?.mp hc.1, (inside_iff b _).mp hc.2⟩
    · rintro ⟨_, c, hc, hin⟩
      exact ⟨(c, i), List.mem_filter.mpr ⟨List.mem_zipIdx_iff_getElem?.mpr hc, (inside_iff b _).mpr hin⟩, rfl⟩
  · rw [if_neg hp]; simp [hp]

theorem zipIdx_sorted {α : Type} (l : List α) : l.zipIdx.Pairwise (fun a b => a.2 < b.2) := by
  rw [List.pairwise_iff_getElem]
  intro i j hi hj hij
  simpa using hij

theorem covered_sorted (b : Block K) (cells : List (Cell K)) : ((covered b cells).map (·.2)).Pairwise (· < ·) := by
  unfold covered
  split
  · exact List.pairwise_map.mpr ((zipIdx_sorted cells).sublist List.filter_sublist)
  · simp

theorem covered_rate (b : Block K) (cells : List (Cell K)) (d : K) (hd : b.density = some d) (c : Cell K × Nat) (hc : c ∈ covered b cells) :
    d * c.1.volume = blockRate b cells c.2 := by
  have h : Covers b cells c.2 := (mem_covered b cells c.2).mp (List.mem_map_of_mem hc)
  have hg : cells[c.2]? = some c.1 := by
    unfold covered at hc
    split at hc
    · exact List.mem_zipIdx_iff_getElem?.mp (List.mem_filter.mp hc).1
    · cases hc
  unfold blockRate
  rw [if_pos h, hd, hg]; rfl

theorem not_covered (b : Block K) (cells : List (Cell K)) (i : Nat) (h : ¬ Covers b cells i) : blockRate b cells i = 0 := if_neg h

/-- The sum over the cells of a block is the sum of its rates over all cells. -/
theorem covered_sum (b : Block K) (cells : List (Cell K)) (f : Nat → K) (hf : ∀ i, ¬ Covers b cells i → f i = 0) :
    ((covered b cells).map (fun c => f c.2)).sum = ∑ i ∈ Finset.range cells.length, f i := by
  classical
  have hnd : ((covered b cells).map (·.2)).Nodup := (covered_sorted b cells).imp (fun h => h.ne)
  have e : ((covered b cells).map (fun c => f c.2)) = ((covered b cells).map (·.2)).map f := by rw [List.map_map]; rfl
  rw [e, ← List.sum_toFinset _ hnd]
  refine Finset.sum_subset ?_ ?_
  · intro i hi
    rw [List.mem_toFinset, mem_covered] at hi
    obtain ⟨_, c, hc, _⟩ := hi
    rw [Finset.mem_range]
    exact (List.getElem?_eq_some_iff.mp hc).1
  · intro i _ hi
    rw [List.mem_toFinset, mem_covered] at hi
    exact hf i hi

/-- One block on top of earlier rates whose cells have smaller numbers. -/
theorem initBlock_ok (asserts : Bool) (cells : List (Cell K)) (b : Block K) (inj : Bool) (v : Sparse K) (p : List K) (hd : b.present = some true → b.density ≠ none)
    (hs : v.size = cells.length) (hp : p.length = cells.length) (hv : ∀ a ∈ v.idx, ∀ i, Covers b cells i → a < i) :
    ∃ p', initBlock asserts cells b inj ⟨v, p⟩ = .ok (⟨⟨cells.length, v.idx ++ (covered b cells).map (·.2),
        v.val ++ (covered b cells).map (fun c => if inj then blockRate b cells c.2 else -blockRate b cells c.2)⟩, p'⟩,
        ∑ i ∈ Finset.range cells.length, if inj then blockRate b cells i else -blockRate b cells i) ∧ p'.length = cells.length ∧
      (∀ i, ¬ Covers b cells i → p'[i]? = p[i]?) ∧
      (∀ i, Covers b cells i → p'[i]? = some (if inj then blockRate b cells i else -blockRate b cells i)) := by
  unfold initBlock
  by_cases hon : b.present = some true
  · obtain ⟨d, hd'⟩ := Option.ne_none_iff_exists'.mp (hd hon)
    have hcov : covered b cells = cells.zipIdx.filter (fun c => isInside (vec3 (b.lowX.getD 0) (b.lowY.getD 0) (b.lowZ.getD 0))
        (vec3 (b.highX.getD 1) (b.highY.getD 1) (b.highZ.getD 1)) c.1.centroid) := if_pos hon
    have hlt : ∀ c ∈ cells.zipIdx, c.2 < cells.length := fun c hc => (List.getElem?_eq_some_iff.mp (List.mem_zipIdx_iff_getElem?.mp hc)).1
    have hcv : ∀ c ∈ cells.zipIdx, isInside (vec3 (b.lowX.getD 0) (b.lowY.getD 0) (b.lowZ.getD 0)) (vec3 (b.highX.getD 1) (b.highY.getD 1) (b.highZ.getD 1)) c.1.centroid = true →
        Covers b cells c.2 := fun c hc hin => ⟨hon, c.1, List.mem_zipIdx_iff_getElem?.mp hc, (inside_iff b _).mp hin⟩
    obtain ⟨p', h1, h2, h3, h4⟩ := sourceBlock_ok asserts (vec3 (b.lowX.getD 0) (b.lowY.getD 0) (b.lowZ.getD 0)) (vec3 (b.highX.getD 1) (b.highY.getD 1) (b.highZ.getD 1)) d inj
      cells.zipIdx (zipIdx_sorted cells) v p 0 (fun a ha c hc hin => hv a ha c.2 (hcv c hc hin)) (fun c hc => by rw [hs]; exact hlt c hc) (fun c hc => by rw [hp]; exact hlt c hc)
    have hrate : ∀ c ∈ covered b cells, rateOf d inj c.1 = if inj then blockRate b cells c.2 else -blockRate b cells c.2 := by
      intro c hc
      unfold rateOf
      rw [covered_rate b cells d hd' c hc]
    have hmap : (covered b cells).map (fun c => rateOf d inj c.1) = (covered b cells).map (fun c => if inj then blockRate b cells c.2 else -blockRate b cells c.2) :=
      List.map_congr_left hrate
    rw [if_pos (by rw [hon]; rfl), hd']
    dsimp only
    refine ⟨p', ?_, by rw [h2, hp], ?_, ?_⟩
    · unfold sourceBlock
      rw [h1, ← hcov, hmap, zero_add, hs]
      congr 2
      exact covered_sum b cells (fun i => if inj then blockRate b cells i else -blockRate b cells i) (fun i hi => by rw [not_covered b cells i hi]; simp)
    · intro i hi
      refine h3 i ?_
      rintro c hc hin rfl
      exact hi (hcv c hc hin)
    · intro i hi
      obtain ⟨c, hc, rfl⟩ := List.mem_map.mp ((mem_covered b cells i).mpr hi)
      rw [← hrate c hc]
      rw [hcov, List.mem_filter] at hc
      exact h4 c hc.1 hc.2
  · have hoff : b.present.getD false = false := by
      rcases h : b.present with _ | _ | _ <;> simp_all
    have hnc : ∀ i, ¬ Covers b cells i := fun i h => hon h.1
    have hcov : covered b cells = [] := if_neg hon
    rw [if_neg (by rw [hoff]; simp)]
    refine ⟨p, ?_, hp, fun _ _ => rfl, fun i hi => absurd hi (hnc i)⟩
    rw [hcov]
    have : ∑ i ∈ Finset.range cells.length, (if inj then blockRate b cells i else -blockRate b cells i) = 0 := by
      apply Finset.sum_eq_zero
      intro i _
      rw [not_covered b cells i (hnc i)]; simp
    rw [this, ← hs]
    simp

/-- C140. On a new simulator, if every cell of the injection block comes before every cell of the production block: both solvers get the same rates, density times
volume in the cells whose centre is strictly inside the box, positive for injection, negative for production and 0 elsewhere, and the printed totals are their sums. -/
theorem C140_blocks (asserts : Bool) (cells : List (Cell K)) (inj prod : Block K) (hdi : inj.present = some true → inj.density ≠ none)
    (hdp : prod.present = some true → prod.density ≠ none) (hord : ∀ i j, Covers inj cells i → Covers prod cells j → i < j) :
    ∃ s, initSources asserts cells inj prod [] = .ok s ∧
      (∀ i < cells.length, s.rates.transport.get i = blockRate inj cells i - blockRate prod cells i ∧
        s.rates.pressure[i]? = some (blockRate inj cells i - blockRate prod cells i)) ∧
      s.rates.pressure.length = cells.length ∧
      s.totalInj = ∑ i ∈ Finset.range cells.length, blockRate inj cells i ∧ s.totalProd = -∑ i ∈ Finset.range cells.length, blockRate prod cells i := by
  obtain ⟨p1, a1, a2, a3, a4⟩ := initBlock_ok asserts cells inj true ⟨cells.length, [], []⟩ (Boundary.resizeList [] cells.length 0) hdi rfl
    (by simp [Boundary.resizeList]) (by simp)
  obtain ⟨p2, b1, b2, b3, b4⟩ := initBlock_ok asserts cells prod false ⟨cells.length, [] ++ (covered inj cells).map (·.2),
        [] ++ (covered inj cells).map (fun c => if true then blockRate inj cells c.2 else -blockRate inj cells c.2)⟩ p1 hdp rfl a2
    (by
      intro a ha i hi
      rw [List.nil_append, mem_covered] at ha
      exact hord a i ha hi)
  refine ⟨⟨⟨⟨cells.length, [] ++ (covered inj cells).map (·.2) ++ (covered prod cells).map (·.2),
      [] ++ (covered inj cells).map (fun c => if true then blockRate inj cells c.2 else -blockRate inj cells c.2) ++
        (covered prod cells).map (fun c => if false then blockRate prod cells c.2 else -blockRate prod cells c.2)⟩, p2⟩,
    ∑ i ∈ Finset.range cells.length, blockRate inj cells i, -∑ i ∈ Finset.range cells.length, blockRate prod cells i⟩, ?_, ?_, b2, rfl, rfl⟩
  · unfold initSources
    rw [a1]
    dsimp only
    rw [b1]
    simp
  · intro i hi
    have hne : ∀ i, Covers inj cells i → ¬ Covers prod cells i := fun i h h' => absurd (hord i i h h') (lt_irrefl i)
    constructor
    · have hval : [] ++ (covered inj cells).map (fun c => if true then blockRate inj cells c.2 else -blockRate inj cells c.2) ++
          (covered prod cells).map (fun c => if false then blockRate prod cells c.2 else -blockRate prod cells c.2) =
          ((covered inj cells).map (·.2) ++ (covered prod cells).map (·.2)).map (fun i => blockRate inj cells i - blockRate prod cells i) := by
        rw [List.map_append, List.map_map, List.map_map, List.nil_append]
        congr 1
        · apply List.map_congr_left
          intro c hc
          have := hne c.2 ((mem_covered inj cells c.2).mp (List.mem_map_of_mem hc))
          simp [not_covered prod cells c.2 this]
        · apply List.map_congr_left
          intro c hc
          have h' : ¬ Covers inj cells c.2 := fun h => hne c.2 h ((mem_covered prod cells c.2).mp (List.mem_map_of_mem hc))
          simp [not_covered inj cells c.2 h']
      have hsort : ((covered inj cells).map (·.2) ++ (covered prod cells).map (·.2)).Pairwise (· < ·) := by
        rw [List.pairwise_append]
        refine ⟨covered_sorted _ _, covered_sorted _ _, ?_⟩
        intro a ha b hb
        exact hord a b ((mem_covered _ _ _).mp ha) ((mem_covered _ _ _).mp hb)
      rw [hval, List.nil_append]
      dsimp only
      rw [get_sorted _ _ hsort]
      split
      · rfl
      · rename_i hn
        rw [List.mem_append, mem_covered, mem_covered, not_or] at hn
        rw [not_covered _ _ _ hn.1, not_covered _ _ _ hn.2, sub_zero]
    · dsimp only
      by_cases hp : Covers prod cells i
      · have h' : ¬ Covers inj cells i := fun h => hne i h hp
        rw [b4 i hp, not_covered _ _ _ h']; simp
      · rw [b3 i hp, not_covered _ _ _ hp]
        by_cases hj : Covers inj cells i
        · rw [a4 i hj]; simp
        · rw [a3 i hj, not_covered _ _ _ hj]
          simp [Boundary.resizeList, hi]

/-- C140. With assertions this order is needed: if some cell of the production block is a cell of the injection block or comes before one, an assertion fails. -/
theorem C140_blocks_order (cells : List (Cell K)) (inj prod : Block K) (old : List K) (hdi : inj.density ≠ none) (hdp : prod.density ≠ none) (i j : Nat)
    (hi : Covers inj cells i) (hj : Covers prod cells j) (hij : j ≤ i) : initSources true cells inj prod old = .error .ub := by
  obtain ⟨di, hdi'⟩ := Option.ne_none_iff_exists'.mp hdi
  obtain ⟨dp, hdp'⟩ := Option.ne_none_iff_exists'.mp hdp
  have hblk : ∀ (b : Block K) (d : K) (w : Bool) (r : Rates K), b.present = some true → b.density = some d → initBlock true cells b w r =
      cells.zipIdx.foldlM (blockStep true (vec3 (b.lowX.getD 0) (b.lowY.getD 0) (b.lowZ.getD 0)) (vec3 (b.highX.getD 1) (b.highY.getD 1) (b.highZ.getD 1)) d w) (r, 0) := by
    intro b d w r h1 h2
    unfold initBlock
    rw [if_pos (by rw [h1]; rfl), h2]
    rfl
  unfold initSources
  rw [hblk inj di true _ hi.1 hdi']
  cases h1 : cells.zipIdx.foldlM (blockStep true (vec3 (inj.lowX.getD 0) (inj.lowY.getD 0) (inj.lowZ.getD 0)) (vec3 (inj.highX.getD 1) (inj.highY.getD 1) (inj.highZ.getD 1)) di true)
    ((⟨⟨cells.length, [], []⟩, Boundary.resizeList old cells.length 0⟩ : Rates K), 0) with
  | error e => dsimp only; rw [block_err _ _ _ _ _ _ _ _ h1]
  | ok r1 =>
    obtain ⟨r1, t1⟩ := r1
    dsimp only
    rw [hblk prod dp false _ hj.1 hdp']
    cases h2 : cells.zipIdx.foldlM (blockStep true (vec3 (prod.lowX.getD 0) (prod.lowY.getD 0) (prod.lowZ.getD 0))
        (vec3 (prod.highX.getD 1) (prod.highY.getD 1) (prod.highZ.getD 1)) dp false) (r1, 0) with
    | error e => dsimp only; rw [block_err _ _ _ _ _ _ _ _ h2]
    | ok r2 =>
      exfalso
      obtain ⟨s1, m1, e1, c1⟩ := block_sorted _ _ _ _ _ _ _ List.Pairwise.nil h1
      obtain ⟨s2, m2, e2, c2⟩ := block_sorted _ _ _ _ _ (r1, 0) _ s1 h2
      obtain ⟨_, ci, hci, hini⟩ := hi
      obtain ⟨_, cj, hcj, hinj⟩ := hj
      have mi : i ∈ m1 := c1 (ci, i) (List.mem_zipIdx_iff_getElem?.mpr hci) ((inside_iff inj _).mpr hini)
      have mj : j ∈ m2 := c2 (cj, j) (List.mem_zipIdx_iff_getElem?.mpr hcj) ((inside_iff prod _).mpr hinj)
      rw [e2, List.pairwise_append] at s2
      have := s2.2.2 i (by dsimp only at e1 ⊢; rw [e1]; exact List.mem_append_right _ mi) j mj
      omega

/-- C140. A block without density is an error. -/
theorem C140_density (asserts : Bool) (cells : List (Cell K)) (inj prod : Block K) (old : List K) (hi : inj.present = some true) (hd : inj.density = none) :
    initSources asserts cells inj prod old = .error .thrown := by
  unfold initSources initBlock
  rw [if_pos (by rw [hi]; rfl), hd]

/-! ### The loop -/

theorem maxDiff_spec [IsStrictOrderedRing K] (n : Nat) (s old : Nat → K) : LargestChange n s old (maxDiff n s old) := by
  unfold maxDiff LargestChange
  induction n with
  | zero => exact ⟨fun c hc => absurd hc (by omega), .inl ⟨rfl, rfl⟩⟩
  | succ n ih =>
    rw [List.range_succ, List.foldl_append]
    simp only [List.foldl_cons, List.foldl_nil]
    generalize (List.range n).foldl (fun m c => max m |s c - old c|) 0 = m at ih
    obtain ⟨h1, h2⟩ := ih
    constructor
    · intro c hc
      rcases Nat.lt_or_ge c n with h | h
      · exact (h1 c h).trans (le_max_left _ _)
      · obtain rfl : c = n := by omega
        exact le_max_right _ _
    · right
      rcases le_total m |s n - old n| with h | h
      · exact ⟨n, by omega, max_eq_right h⟩
      · rcases h2 with ⟨h0, hm⟩ | ⟨c, hc, hm⟩
        · refine ⟨n, by omega, ?_⟩
          rw [hm]; exact max_eq_right (abs_nonneg _)
        · exact ⟨c, by omega, by rw [max_eq_left h]; exact hm⟩

/-- What the loop leaves, for any number of steps. -/
theorem loop_spec' [IsStrictOrderedRing K] {F : Type} (flow : (Nat → K) → Option F) (transport : F → (Nat → K) → Option (Nat → K)) (n fuel i : Nat) (s : Nat → K) :
    ∃ traj : Nat → Nat → K, traj 0 = s ∧
      (∀ k o, (loop flow transport n fuel i s s).1[k]? = some o → o.vtk = "testsolution-" ++ toString (i + k) ∧ o.field = "saturation-" ++ toString (i + k) ∧
        flow (traj k) = some o.solution ∧ transport o.solution (traj k) = some (traj (k + 1)) ∧ o.sat = traj (k + 1) ∧
        LargestChange n (traj (k + 1)) (traj k) o.change) ∧
      (∀ e, (loop flow transport n fuel i s s).2 = some e → (loop flow transport n fuel i s s).1.length = fuel ∧ e = traj fuel) ∧
      ((loop flow transport n fuel i s s).2 = none → (loop flow transport n fuel i s s).1.length < fuel ∧
        (flow (traj (loop flow transport n fuel i s s).1.length)).bind (fun f => transport f (traj (loop flow transport n fuel i s s).1.length)) = none) := by
  induction fuel generalizing i s with
  | zero =>
    refine ⟨fun _ => s, rfl, ?_, ?_, ?_⟩
    · intro k o h; cases h
    · intro e h; injection h with h; exact ⟨rfl, h.symm⟩
    · intro h; cases h
  | succ fuel ih =>
    unfold loop
    cases hf : flow s with
    | none =>
      refine ⟨fun _ => s, rfl, ?_, ?_, ?_⟩
      · intro k o h; cases h
      · intro e h; cases h
      · intro _; exact ⟨by simp, by dsimp only; rw [hf]; rfl⟩
    | some f =>
      dsimp only
      cases ht : transport f s with
      | none =>
        refine ⟨fun _ => s, rfl, ?_, ?_, ?_⟩
        · intro k o h; cases h
        · intro e h; cases h
        · intro _; exact ⟨by simp, by dsimp only; rw [hf]; exact ht⟩
      | some s' =>
        obtain ⟨traj, h0, h1, h2, h3⟩ := ih (i + 1) s'
        dsimp only
        refine ⟨fun k => match k with | 0 => s | k + 1 => traj k, rfl, ?_, ?_, ?_⟩
        · intro k o hk
          cases k with
          | zero =>
            rw [List.getElem?_cons_zero] at hk
            injection hk with hk
            subst hk
            refine ⟨rfl, rfl, hf, by dsimp only; rw [h0]; exact ht, h0.symm, ?_⟩
            dsimp only
            rw [h0]
            exact maxDiff_spec n s' s
          | succ k =>
            rw [List.getElem?_cons_succ] at hk
            have := h1 k o hk
            rw [show i + (k + 1) = i + 1 + k by omega]
            exact this
        · intro e he
          obtain ⟨a, b⟩ := h2 e he
          exact ⟨by rw [List.length_cons, a], b⟩
        · intro he
          obtain ⟨a, b⟩ := h3 he
          exact ⟨by rw [List.length_cons]; omega, b⟩

/-- C140. A run goes through states `traj 0, traj 1, …`: each is the result of the transport solver on the previous one, with the fluxes that belong to the previous one.
Step `k` writes `testsolution-k` and `saturation-k` with these fluxes and the new saturations and prints the largest change. The run makes all steps, or ends at the first
step in which a solver fails, with the files of the steps before. -/
theorem C140_run [IsStrictOrderedRing K] {F : Type} (flow : (Nat → K) → Option F) (transport : F → (Nat → K) → Option (Nat → K)) (n : Nat) (steps : Int) (init : Nat → K) :
    ∃ traj : Nat → Nat → K, traj 0 = init ∧
      (∀ k o, (run flow transport n steps init).1[k]? = some o → o.vtk = "testsolution-" ++ toString k ∧ o.field = "saturation-" ++ toString k ∧
        flow (traj k) = some o.solution ∧ transport o.solution (traj k) = some (traj (k + 1)) ∧ o.sat = traj (k + 1) ∧
        LargestChange n (traj (k + 1)) (traj k) o.change) ∧
      (∀ e, (run flow transport n steps init).2 = some e → (run flow transport n steps init).1.length = steps.toNat ∧ e = traj steps.toNat) ∧
      ((run flow transport n steps init).2 = none → (run flow transport n steps init).1.length < steps.toNat ∧
        (flow (traj (run flow transport n steps init).1.length)).bind (fun f => transport f (traj (run flow transport n steps init).1.length)) = none) := by
  obtain ⟨traj, h0, h1, h2, h3⟩ := loop_spec' flow transport n steps.toNat 0 init
  refine ⟨traj, h0, ?_, h2, h3⟩
  intro k o hk
  have := h1 k o hk
  rwa [Nat.zero_add] at this

/-! ### Water in place -/

open Verif.Euler Verif.Euler.Spec

section Water
variable {M F : Type} [IsStrictOrderedRing K]

/-- Bounds for one call of the explicit solver. -/
theorem step_water (E : Solver K M) (q : Nat) (hn : 0 < E.setup.grid.length) (hit : E.iters = itersAfter E.setup.grid.length (q + 1)) (hcl : E.clampSat = false)
    (lo hi : K) (hb : ∀ s, boundaryInflow E.setup s = 0) (hs : ∀ s, lo ≤ sources E.setup s ∧ sources E.setup s ≤ hi) (dt : K) (hdt : 0 ≤ dt) (N : Nat) (s t : Nat → K)
    (h : Runs (fun dt t => let q := smallTimeStep E dt t; (q.val, q.err.isNone)) dt N s t) :
    (N : K) * dt * lo ≤ waterVolume E.setup.grid.length E.porevol t - waterVolume E.setup.grid.length E.porevol s ∧
      waterVolume E.setup.grid.length E.porevol t - waterVolume E.setup.grid.length E.porevol s ≤ (N : K) * dt * hi := by
  induction h with
  | done s => simp
  | @step N s s' t hstep _ ih =>
    have h1 : smallTimeStep E dt s = ⟨s', none⟩ := by
      dsimp only at hstep
      rcases hr : smallTimeStep E dt s with ⟨v, e⟩
      rw [hr] at hstep
      rcases e with _ | e
      · simp only [Option.isNone_none, Prod.mk.injEq, and_true] at hstep; rw [hstep]
      · simp at hstep
    have hc := C10_conservation E q dt s s' hn hit hcl h1
    rw [hb, zero_add] at hc
    obtain ⟨h2, h3⟩ := hs s
    have h4 := mul_le_mul_of_nonneg_left h2 hdt
    have h5 := mul_le_mul_of_nonneg_left h3 hdt
    have e : ∀ x : K, ((N + 1 : Nat) : K) * dt * x = dt * x + (N : K) * dt * x := by intro x; push_cast; ring
    rw [e, e]
    constructor <;> linarith [ih.1, ih.2]

/-- C140. Explicit simulation in a closed reservoir: if nothing crosses the outer boundary, after all steps the water in place has changed by at most the
injected volume (rate of the injection block times duration) and at least the injected minus the produced volume. Without production it has grown by exactly
the injected volume. -/
theorem C140_water (asserts : Bool) (cells : List (Cell K)) (inj prod : Block K) (hdi : inj.present = some true → inj.density ≠ none)
    (hdp : prod.present = some true → prod.density ≠ none) (hord : ∀ i j, Covers inj cells i → Covers prod cells j → i < j)
    (hpi : ∀ i < cells.length, 0 ≤ blockRate inj cells i) (hpp : ∀ i < cells.length, 0 ≤ blockRate prod cells i)
    (src : Sources K) (hsrc : initSources asserts cells inj prod [] = .ok src)
    (flow : (Nat → K) → Option F) (E : F → Solver K M) (first : F → (Nat → K) → Nat) (pv : List K) (q : F → Nat) (hc : 0 < cells.length)
    (hg : ∀ f, (E f).setup.grid.length = cells.length) (hpv : ∀ f, (E f).porevol = pv) (hit : ∀ f, (E f).iters = itersAfter cells.length (q f + 1)) (hcl : ∀ f, (E f).clampSat = false)
    (hfirst : ∀ f s, first f s ≠ 0) (hff : ∀ f c s, 0 ≤ (E f).setup.rock.fracFlow c s ∧ (E f).setup.rock.fracFlow c s ≤ 1)
    (hb : ∀ f s, boundaryInflow (E f).setup s = 0) (stepsize : K) (hst : 0 ≤ stepsize) (steps : Int) (init fin : Nat → K)
    (hrun : (run flow (explicitStep (fun f => withRates (E f) src.rates.transport) first stepsize) cells.length steps init).2 = some fin) :
    (steps.toNat : K) * stepsize * (∑ i ∈ Finset.range cells.length, blockRate inj cells i - ∑ i ∈ Finset.range cells.length, blockRate prod cells i) ≤
        waterVolume cells.length pv fin - waterVolume cells.length pv init ∧
      waterVolume cells.length pv fin - waterVolume cells.length pv init ≤ (steps.toNat : K) * stepsize * ∑ i ∈ Finset.range cells.length, blockRate inj cells i := by
  obtain ⟨src', hs1, hs2, _⟩ := C140_blocks asserts cells inj prod hdi hdp hord
  rw [hsrc] at hs1
  injection hs1 with hs1
  subst hs1
  set I := ∑ i ∈ Finset.range cells.length, blockRate inj cells i with hI
  set P := ∑ i ∈ Finset.range cells.length, blockRate prod cells i with hP
  have hsb : ∀ f s, I - P ≤ sources (withRates (E f) src.rates.transport).setup s ∧ sources (withRates (E f) src.rates.transport).setup s ≤ I := by
    intro f s
    have hlen : (withRates (E f) src.rates.transport).setup.grid.length = cells.length := hg f
    have hterm : ∀ c < cells.length, blockRate inj cells c - blockRate prod cells c ≤
        (if (withRates (E f) src.rates.transport).setup.rate c < 0 then (withRates (E f) src.rates.transport).setup.rate c *
          (withRates (E f) src.rates.transport).setup.rock.fracFlow c (s c) else (withRates (E f) src.rates.transport).setup.rate c) ∧
        (if (withRates (E f) src.rates.transport).setup.rate c < 0 then (withRates (E f) src.rates.transport).setup.rate c *
          (withRates (E f) src.rates.transport).setup.rock.fracFlow c (s c) else (withRates (E f) src.rates.transport).setup.rate c) ≤ blockRate inj cells c := by
      intro c hc'
      have hr : (withRates (E f) src.rates.transport).setup.rate c = blockRate inj cells c - blockRate prod cells c := (hs2 c hc').1
      obtain ⟨f0, f1⟩ : 0 ≤ (withRates (E f) src.rates.transport).setup.rock.fracFlow c (s c) ∧ (withRates (E f) src.rates.transport).setup.rock.fracFlow c (s c) ≤ 1 := hff f c (s c)
      rw [hr]
      generalize (withRates (E f) src.rates.transport).setup.rock.fracFlow c (s c) = w at f0 f1
      have ha := hpi c hc'
      have hb' := hpp c hc'
      split
      · rename_i hneg
        constructor
        · nlinarith
        · nlinarith [mul_nonneg f0 (sub_nonneg.mpr hneg.le)]
      · exact ⟨le_rfl, by linarith⟩
    unfold sources
    rw [hlen]
    constructor
    · rw [hI, hP, ← Finset.sum_sub_distrib]
      exact Finset.sum_le_sum fun c hc' => (hterm c (Finset.mem_range.mp hc')).1
    · exact Finset.sum_le_sum fun c hc' => (hterm c (Finset.mem_range.mp hc')).2
  have hone : ∀ f s s', explicitStep (fun f => withRates (E f) src.rates.transport) first stepsize f s = some s' →
      stepsize * (I - P) ≤ waterVolume cells.length pv s' - waterVolume cells.length pv s ∧ waterVolume cells.length pv s' - waterVolume cells.length pv s ≤ stepsize * I := by
    intro f s s' h
    unfold explicitStep at h
    dsimp only at h
    split at h
    · rename_i hok
      injection h with h
      obtain ⟨k, dt, _, hR, hN, _⟩ := C12_result _ stepsize (first f s) (hfirst f s) s hok
      rw [h] at hR
      have hdt : 0 ≤ dt := by
        have hpos : (0 : K) < ((first f s * 2 ^ k : Nat) : K) := by
          have : 0 < first f s * 2 ^ k := Nat.mul_pos (Nat.pos_of_ne_zero (hfirst f s)) (by positivity)
          exact_mod_cast this
        rw [← hN] at hst
        exact nonneg_of_mul_nonneg_right hst hpos
      have hw := step_water (withRates (E f) src.rates.transport) (q f) (by show 0 < (E f).setup.grid.length; rw [hg]; exact hc)
        (by show (E f).iters = itersAfter (E f).setup.grid.length _; rw [hg]; exact hit f) (hcl f) (I - P) I (fun s => hb f s) (hsb f) dt hdt _ s s' hR
      rw [hN] at hw
      have e1 : (withRates (E f) src.rates.transport).setup.grid.length = cells.length := hg f
      have e2 : (withRates (E f) src.rates.transport).porevol = pv := hpv f
      rw [e1, e2] at hw
      exact hw
    · cases h
  obtain ⟨traj, h0, h1, h2, h3⟩ := C140_run flow (explicitStep (fun f => withRates (E f) src.rates.transport) first stepsize) cells.length steps init
  obtain ⟨hlen, hfin⟩ := h2 fin hrun
  generalize (run flow (explicitStep (fun f => withRates (E f) src.rates.transport) first stepsize) cells.length steps init).1 = outs at h1 hlen
  have key : ∀ k, k ≤ steps.toNat → (k : K) * stepsize * (I - P) ≤ waterVolume cells.length pv (traj k) - waterVolume cells.length pv init ∧
      waterVolume cells.length pv (traj k) - waterVolume cells.length pv init ≤ (k : K) * stepsize * I := by
    intro k hk
    induction k with
    | zero => rw [h0]; simp
    | succ k ih =>
      obtain ⟨i1, i2⟩ := ih (by omega)
      obtain ⟨_, _, _, ht, _⟩ := h1 k outs[k] (List.getElem?_eq_getElem (by omega))
      obtain ⟨w1, w2⟩ := hone _ _ _ ht
      have e : ∀ x : K, ((k + 1 : Nat) : K) * stepsize * x = stepsize * x + (k : K) * stepsize * x := by intro x; push_cast; ring
      rw [e, e]
      constructor <;> linarith
  rw [hfin]
  exact key _ le_rfl

end Water

/-- Without flux and with the cell itself on the other side no water crosses a face. -/
theorem waterFlux_self [IsStrictOrderedRing K] (S : Setup K K) (hops : S.ops = scalarMob) (s : Nat → K) (c : Nat) (f : Euler.Face K) (o : Other K) (hc : o.cell = c)
    (hf : f.flux = 0) (x : K) (h : waterFlux S s c f o = .ok x) : x = 0 := by
  have inner0 : ∀ u : Vec K, inner u (fun _ => (0 : K)) = 0 := by intro u; unfold inner; simp
  have scale0 : ∀ a : K, scale a (fun _ => (0 : K)) = fun _ => 0 := by intro a; funext i; unfold scale; simp
  have zero_scale : ∀ v : Vec K, scale 0 v = fun _ => 0 := by intro v; funext i; unfold scale; simp
  have mat0 : ∀ A : Mat K, matVec A (fun _ => (0 : K)) = fun _ => 0 := by intro A; funext i; unfold matVec; simp
  have hmul : ∀ (m : K) (v : Vec K), S.ops.mul m v = scale m v := by intro m v; rw [hops]; rfl
  have opt : ∀ (on : Bool) (t : Except Euler.Err K) (y : K), (∀ z, t = .ok z → z = 0) → optTerm on t = .ok y → y = 0 := by
    intro on t y ht hy
    unfold optTerm at hy
    split at hy
    · exact ht y hy
    · injection hy with hy; exact hy.symm
  unfold waterFlux at h
  cases hv : optTerm S.method.viscous (viscTerm S f (upstreamMobs S (s c) c f o)) with
  | error e => simp only [hv, bind, Except.bind] at h; cases h
  | ok v =>
    cases hg : optTerm S.method.gravity (gravTerm S c f o (upstreamMobs S (s c) c f o)) with
    | error e => simp only [hv, hg, bind, Except.bind] at h; cases h
    | ok g =>
      cases hp : optTerm S.method.capillary (capTerm S s (s c) c f o) with
      | error e => simp only [hv, hg, hp, bind, Except.bind] at h; cases h
      | ok p =>
        simp only [hv, hg, hp, bind, Except.bind, pure, Except.pure] at h
        injection h with h
        have v0 : v = 0 := by
          refine opt _ _ v ?_ hv
          intro z hz
          unfold viscTerm at hz
          split at hz
          · cases hz
          · injection hz with hz
            rw [← hz, hf, zero_scale, hmul, hmul, scale0, scale0, inner0]
        have g0 : g = 0 := by
          refine opt _ _ g ?_ hg
          intro z hz
          unfold gravTerm at hz
          rw [if_neg (by rw [hc]; simp)] at hz
          injection hz with hz
          exact hz.symm
        have gr0 : ∀ w, capGradient S s c f o = .ok w → w = fun _ => 0 := by
          intro w hw
          unfold capGradient at hw
          dsimp only at hw
          repeat' split at hw
          all_goals cases hw
          all_goals first | rfl | rw [hc, sub_self, zero_div, zero_scale]
        have p0 : p = 0 := by
          refine opt _ _ p ?_ hp
          intro z hz
          unfold capTerm at hz
          dsimp only at hz
          split at hz
          · cases hz
          · cases hgr : capGradient S s c f o with
            | error e => simp only [hgr, bind, Except.bind] at hz; cases hz
            | ok w =>
              simp only [hgr, bind, Except.bind, pure, Except.pure] at hz
              injection hz with hz
              rw [← hz, gr0 w hgr, mat0, hmul, hmul, hmul, scale0, scale0, scale0, inner0, mul_zero]
        rw [← h, v0, g0, p0]; simp

/-- C140. Nothing crosses the outer boundary if the fluxes through it are zero (scalar mobilities, any gravity and capillarity): the hypothesis of `C140_water`. -/
theorem C140_noflow [IsStrictOrderedRing K] (S : Setup K K) (hops : S.ops = scalarMob) (hz : ∀ c < S.grid.length, ∀ f ∈ facesOf S.grid c, neighbour S f = none → f.flux = 0)
    (s : Nat → K) : boundaryInflow S s = 0 := by
  unfold boundaryInflow
  rw [Finset.sum_eq_zero, neg_zero]
  intro c hc
  rw [Finset.mem_range] at hc
  apply List.sum_eq_zero
  intro x hx
  obtain ⟨f, hf, rfl⟩ := List.mem_map.mp hx
  rw [List.mem_filter] at hf
  have hn : neighbour S f = none := by simpa using hf.2
  unfold outFlux
  rw [hn]
  split
  · rename_i q hq
    exact waterFlux_self S hops s c f _ rfl (hz c hc f hf.1 hn) q hq
  · rfl

/-! ### Deviations -/

/-- Two cells side by side, of volume 1. -/
def exCells : List (Cell ℚ) := [⟨vec3 (1 / 4) (1 / 2) (1 / 2), 1⟩, ⟨vec3 (3 / 4) (1 / 2) (1 / 2), 1⟩]

/-- The left half and the right half of the box, and no block. -/
def exLeft : Block ℚ := ⟨some true, none, none, none, some (1 / 2), none, none, some 3⟩
def exRight : Block ℚ := ⟨some true, some (1 / 2), none, none, none, none, none, some 3⟩
def exNone : Block ℚ := ⟨none, none, none, none, none, none, none, none⟩

/-- The hypotheses of `C140_blocks` are met: injection in cell 0 and production in cell 1. -/
example : initSources true exCells exLeft exRight [] = .ok ⟨⟨⟨2, [0, 1], [3, -3]⟩, [3, -3]⟩, 3, -3⟩ := by decide +kernel

/-- A closed box of these two cells with flux 3 from the first to the second. -/
def exBox : Solver ℚ ℚ :=
  ⟨{ exRow with
      grid := [⟨[exFace (.boundary 1) 0, exFace (.interior 1) 3], ![0, 0, 0], 1⟩, ⟨[exFace (.interior 0) (-3), exFace (.boundary 2) 0], ![1, 0, 0], 1⟩]
      rock := ⟨fun _ _ _ => 1, fun p _ s => if p then 1 - s else s, fun _ s => max 0 (min 1 s), fun _ _ => 0, 0⟩ }, itersAfter 2 1, [1, 1], true, false⟩

/-- The hypotheses of `C140_water` are met: two steps of length 1/10 with water injected into cell 0. -/
example : (∀ s, boundaryInflow exBox.setup s = 0) ∧ (∀ c s, 0 ≤ exBox.setup.rock.fracFlow c s ∧ exBox.setup.rock.fracFlow c s ≤ 1) ∧
    (run (fun _ => some ()) (explicitStep (fun _ : Unit => withRates exBox ⟨2, [0, 1], [3, -3]⟩) (fun _ _ => 1) (1 / 10)) 2 2 (fun _ => 0)).2.map (fun s => (s 0, s 1)) =
      some (51 / 100, 9 / 100) := by
  refine ⟨fun s => C140_noflow exBox.setup rfl ?_ s, ?_, by decide +kernel⟩
  · intro c hc f hf hn
    have : c = 0 ∨ c = 1 := by simp [exBox] at hc; omega
    rcases this with rfl | rfl
    · simp [facesOf, exBox] at hf; rcases hf with rfl | rfl
      · rfl
      · simp [neighbour, exFace] at hn
    · simp [facesOf, exBox] at hf; rcases hf with rfl | rfl
      · simp [neighbour, exFace] at hn
      · rfl
  · intro c s
    exact ⟨le_max_left _ _, max_le (by norm_num) (min_le_left _ _)⟩

/-- C140. Injection on the right and production on the left: with assertions the program stops; without, the pressure solver gets the rates
and the transport solver finds none of them. -/
theorem C140_violated_order : initSources true exCells exRight exLeft [] = .error .ub ∧
    ∃ s, initSources false exCells exRight exLeft [] = .ok s ∧ s.rates.pressure = [-3, 3] ∧ s.rates.transport.get 0 = 0 ∧ s.rates.transport.get 1 = 0 :=
  ⟨by decide +kernel, ⟨⟨⟨2, [1, 0], [3, -3]⟩, [-3, 3]⟩, 3, -3⟩, by decide +kernel, by decide +kernel, by decide +kernel, by decide +kernel⟩

/-- C140. Blocks with a common cell: with assertions the program stops; without, the pressure solver produces in that cell and the transport solver injects,
while the printed totals count both. -/
theorem C140_violated_overlap : initSources true exCells exLeft exLeft [] = .error .ub ∧
    ∃ s, initSources false exCells exLeft exLeft [] = .ok s ∧ s.rates.pressure = [-3, 0] ∧ s.rates.transport.get 0 = 3 ∧ s.totalInj = 3 ∧ s.totalProd = -3 :=
  ⟨by decide +kernel, ⟨⟨⟨2, [0, 0], [3, -3]⟩, [-3, 0]⟩, 3, -3⟩, by decide +kernel, by decide +kernel, by decide +kernel, by decide +kernel, by decide +kernel⟩

/-- C140. A second initialisation without blocks keeps the rates of the first one for the pressure solver only: the member is resized, not cleared. -/
theorem C140_violated_again : ∃ s s', initSources true exCells exLeft exRight [] = .ok s ∧ initSources true exCells exNone exNone s.rates.pressure = .ok s' ∧
    s'.rates.pressure = [3, -3] ∧ s'.rates.transport.get 0 = 0 ∧ s'.rates.transport.get 1 = 0 :=
  ⟨⟨⟨⟨2, [0, 1], [3, -3]⟩, [3, -3]⟩, 3, -3⟩, ⟨⟨⟨2, [], []⟩, [3, -3]⟩, 0, 0⟩, by decide +kernel, by decide +kernel, by decide +kernel, by decide +kernel, by decide +kernel⟩

end Verif.SimRun
