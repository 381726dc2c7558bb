import Verif.Lemmas.Euler

/-! Cell ranges, pore-volume update and balance of a cell. -/

namespace Verif.Euler

open Spec
open scoped BigOperators

variable {K M : Type} [Field K] [LinearOrder K]

theorem initIters_last (prev : List Nat) (n : Nat) :
    (initIters prev n)[(initIters prev n).length - 1]? = some n := by
  unfold initIters
  rw [← List.getLast?_eq_getElem?]
  simp

theorem initIters_head_nil (n : Nat) (hn : 0 < n) : (initIters [] n)[0]? = some 0 := by
  unfold initIters
  obtain ⟨m, rfl⟩ := Nat.exists_eq_succ_of_ne_zero (Nat.pos_iff_ne_zero.1 hn)
  rw [List.range_succ_eq_map]
  simp

theorem itersAfter_head (n k : Nat) (hn : 0 < n) : (itersAfter n (k + 1))[0]? = some 0 := by
  induction k with
  | zero => exact initIters_head_nil n hn
  | succ k ih =>
    show (initIters (itersAfter n (k + 1)) n)[0]? = some 0
    unfold initIters
    rw [List.append_assoc, List.getElem?_append_left]
    · exact ih
    · rw [List.getElem?_eq_some_iff] at ih; exact ih.1

theorem itersAfter_len (n k : Nat) (hn : 0 < n) : 2 ≤ (itersAfter n (k + 1)).length := by
  have h1 := itersAfter_head n k hn
  have h2 := initIters_last (itersAfter n k) n
  change (itersAfter n (k+1))[(itersAfter n (k+1)).length - 1]? = some n at h2
  rcases Nat.lt_or_ge (itersAfter n (k + 1)).length 2 with h | h
  · have : (itersAfter n (k + 1)).length - 1 = 0 := by omega
    rw [this, h1] at h2
    simp at h2; omega
  · exact h

theorem cellsBetween_zero (n : Nat) : cellsBetween 0 n = .ok (List.range n) := by
  unfold cellsBetween
  simp

theorem computeResidual_eq (S : Setup K M) (sat : Nat → K) (k : Nat) (hn : 0 < S.grid.length) :
    computeResidual S (itersAfter S.grid.length (k + 1)) sat =
      updateCells S sat (fun _ => 0) (List.range S.grid.length) := by
  unfold computeResidual IRange.mk'
  rw [if_pos (itersAfter_len _ k hn)]
  simp only [bind, Except.bind, IRange.cells]
  rw [itersAfter_head _ k hn]
  have h2 := initIters_last (itersAfter S.grid.length k) S.grid.length
  change (itersAfter S.grid.length (k+1))[(itersAfter S.grid.length (k+1)).length - 1]? = some _ at h2
  rw [h2]
  simp only
  rw [cellsBetween_zero]

/-! ### Splitting -/

/-- Positions are in non-decreasing order. -/
def Mono (l : List Nat) : Prop := ∀ (a b x y : Nat), a ≤ b → l[a]? = some x → l[b]? = some y → x ≤ y

theorem mono_of_pairwise {l : List Nat} (h : l.Pairwise (· ≤ ·)) : Mono l := by
  intro a b x y hab hx hy
  rw [List.getElem?_eq_some_iff] at hx hy
  obtain ⟨ha, rfl⟩ := hx
  obtain ⟨hb, rfl⟩ := hy
  rcases Nat.eq_or_lt_of_le hab with h' | h'
  · subst h'; exact le_rfl
  · exact List.pairwise_iff_getElem.1 h a b ha hb h'

theorem initIters_mono (n : Nat) : Mono (initIters [] n) := by
  apply mono_of_pairwise
  unfold initIters
  rw [List.nil_append, List.pairwise_append]
  refine ⟨?_, by simp, ?_⟩
  · exact (List.pairwise_le_range).filter _
  · intro a ha b hb
    rw [List.mem_filter, List.mem_range] at ha
    simp at hb; omega

theorem cellsBetween_append (a b c : Nat) (h1 : a ≤ b) (h2 : b ≤ c) :
    (List.range (b - a)).map (· + a) ++ (List.range (c - b)).map (· + b) = (List.range (c - a)).map (· + a) := by
  have : c - a = (b - a) + (c - b) := by omega
  rw [this, List.range_add, List.map_append, List.map_map]
  congr 1
  apply List.map_congr_left
  intro x _
  simp only [Function.comp]
  omega

/-- The cells of the leaves of a splitting tree, in order, are the cells of the range. -/
theorem leaves_cells (iters : List Nat) (hm : Mono iters) (t : SplitTree) (r : IRange)
    (h1 : r.beg ≤ r.fin) (h2 : r.fin < iters.length) :
    ∃ ls cs, (leaves r t).mapM (fun q => q.cells iters) = .ok ls ∧ r.cells iters = .ok cs ∧ ls.flatten = cs := by
  have hcells : ∀ q : IRange, q.beg ≤ q.fin → q.fin < iters.length →
      ∃ b e, iters[q.beg]? = some b ∧ iters[q.fin]? = some e ∧ b ≤ e ∧
        q.cells iters = .ok ((List.range (e - b)).map (· + b)) := by
    intro q hq1 hq2
    have hb := List.getElem?_eq_getElem (show q.beg < iters.length by omega)
    have he := List.getElem?_eq_getElem hq2
    have hle := hm _ _ _ _ hq1 hb he
    refine ⟨_, _, hb, he, hle, ?_⟩
    unfold IRange.cells
    rw [hb, he]
    simp only [cellsBetween, hle, if_true]
  have hsingle : ∀ q : IRange, q.beg ≤ q.fin → q.fin < iters.length →
      ∃ ls cs, [q].mapM (fun q => q.cells iters) = .ok ls ∧ q.cells iters = .ok cs ∧ ls.flatten = cs := by
    intro q hq1 hq2
    obtain ⟨b, e, _, _, _, hq⟩ := hcells q hq1 hq2
    refine ⟨[(List.range (e - b)).map (· + b)], _, ?_, hq, ?_⟩
    · simp only [List.mapM_cons, List.mapM_nil, hq, bind, Except.bind, pure, Except.pure]
    · simp
  induction t generalizing r with
  | leaf => exact hsingle r h1 h2
  | node a b iha ihb =>
    unfold leaves
    by_cases hd : r.divisible
    · rw [if_pos hd]
      unfold IRange.divisible at hd
      simp only [decide_eq_true_eq] at hd
      obtain ⟨la, ca, ha1, ha2, ha3⟩ := iha r.split.1 (by simp [IRange.split]; omega) (by simp [IRange.split]; omega)
      obtain ⟨lb, cb, hb1, hb2, hb3⟩ := ihb r.split.2 (by simp [IRange.split]; omega) (by simp [IRange.split]; omega)
      obtain ⟨x, y, hx, hy, hxy, hr⟩ := hcells r h1 h2
      obtain ⟨x1, y1, hx1, hy1, hxy1, hr1⟩ := hcells r.split.1 (by simp [IRange.split]; omega) (by simp [IRange.split]; omega)
      obtain ⟨x2, y2, hx2, hy2, hxy2, hr2⟩ := hcells r.split.2 (by simp [IRange.split]; omega) (by simp [IRange.split]; omega)
      simp only [IRange.split] at hx1 hy1 hx2 hy2
      rw [hx] at hx1; rw [hy] at hy2; rw [hy1] at hx2
      simp only [Option.some.injEq] at hx1 hy2 hx2
      subst hx1 hy2 hx2
      refine ⟨la ++ lb, _, ?_, hr, ?_⟩
      · rw [List.mapM_append, ha1, hb1]; rfl
      · rw [List.flatten_append, ha3, hb3]
        rw [hr1] at ha2; rw [hr2] at hb2
        injection ha2 with ha2; injection hb2 with hb2
        rw [← ha2, ← hb2]
        exact cellsBetween_append x y1 y hxy1 hxy2
    · rw [if_neg hd]; exact hsingle r h1 h2

theorem runRanges_eq (S : Setup K M) (iters : List Nat) (sat : Nat → K) (rs : List IRange) (ls : List (List Nat))
    (h : rs.mapM (fun q => q.cells iters) = .ok ls) (r : Nat → K) :
    runRanges S iters sat r rs = updateCells S sat r ls.flatten := by
  induction rs generalizing ls r with
  | nil =>
    simp [pure, Except.pure] at h
    subst h; rfl
  | cons q rs ih =>
    rw [List.mapM_cons] at h
    cases hq : q.cells iters with
    | error x => simp [hq, bind, Except.bind] at h
    | ok cs =>
      cases hrs : rs.mapM (fun q => q.cells iters) with
      | error x => simp [hq, hrs, bind, Except.bind] at h
      | ok ls' =>
        simp [hq, hrs, bind, Except.bind, pure, Except.pure] at h
        subst h
        unfold runRanges at ih ⊢
        rw [List.foldlM_cons, hq]
        simp only [List.flatten_cons, bind, Except.bind]
        unfold updateCells
        rw [List.foldlM_append]
        cases hu : cs.foldlM (updateCell S sat) r with
        | error x => simp [bind, Except.bind]
        | ok r' =>
          simp only [bind, Except.bind]
          exact ih ls' hrs r'

/-! ### Balance of one cell -/

theorem netInflow_eq (S : Setup K M) (sat : Nat → K) (n i : Nat) (hi : i < n) :
    ((List.range n).map fun c => specCell S sat c i).sum = netInflow S sat i := by
  have hpoint : ∀ c, specCell S sat c i =
      (if c = i then
        ((if S.rate i < 0 then S.rate i * S.rock.fracFlow i (sat i) else S.rate i)
        - (((facesOf S.grid i).filter fun f => (neighbour S f).isNone).map (outFlux S sat i)).sum
        - (((facesOf S.grid i).filter fun f => (neighbour S f).any (fun j => decide (i < j))).map (outFlux S sat i)).sum)
       else 0) +
      (if c < i then (((facesOf S.grid c).filter fun f => neighbour S f = some i).map (outFlux S sat c)).sum else 0) := by
    intro c
    unfold specCell
    by_cases hc : c = i
    · subst hc
      simp only [if_true, Nat.lt_irrefl, if_false, add_zero]
      have : ∀ l : List (Face K), (l.map fun f => specEff S sat c f c).sum =
          - ((l.filter fun f => (neighbour S f).isNone).map (outFlux S sat c)).sum
          - ((l.filter fun f => (neighbour S f).any (fun j => decide (c < j))).map (outFlux S sat c)).sum := by
        intro l
        induction l with
        | nil => simp
        | cons f l ih =>
          rw [List.map_cons, List.sum_cons, ih]
          cases hf : neighbour S f with
          | none =>
            rw [List.filter_cons_of_pos (by simp [hf]), List.filter_cons_of_neg (by simp [hf])]
            simp only [specEff, hf, if_true, List.map_cons, List.sum_cons]; ring
          | some j =>
            rw [List.filter_cons_of_neg (by simp [hf])]
            by_cases hj : c < j
            · rw [List.filter_cons_of_pos (by simp [hf, hj])]
              have : ¬ c = j := by omega
              simp only [specEff, hf, if_true, hj, this, if_false, List.map_cons, List.sum_cons]; ring
            · rw [List.filter_cons_of_neg (by simp [hf, hj])]
              simp only [specEff, hf, hj, if_false]; ring
      rw [this]; unfold sourceTerm; ring
    · have hc' : ¬ i = c := fun h => hc h.symm
      simp only [hc, hc', if_false, add_zero, zero_add]
      have : ∀ l : List (Face K), (l.map fun f => specEff S sat c f i).sum =
          (if c < i then ((l.filter fun f => neighbour S f = some i).map (outFlux S sat c)).sum else 0) := by
        intro l
        induction l with
        | nil => simp
        | cons f l ih =>
          rw [List.map_cons, List.sum_cons, ih]
          cases hf : neighbour S f with
          | none =>
            rw [List.filter_cons_of_neg (by simp [hf])]
            simp [specEff, hf, hc']
          | some j =>
            by_cases hj : j = i
            · subst hj
              rw [List.filter_cons_of_pos (by simp [hf])]
              by_cases hcj : c < j
              · simp [specEff, hf, hcj, hc']
              · simp [specEff, hf, hcj]
            · rw [List.filter_cons_of_neg (by simp [hf, hj])]
              have : ¬ i = j := fun h => hj h.symm
              simp [specEff, hf, this, hc']
      exact this _
  rw [sum_range_map]
  simp only [hpoint]
  rw [Finset.sum_add_distrib, Finset.sum_ite_eq']
  simp only [Finset.mem_range, hi, if_true]
  unfold netInflow
  congr 1
  rw [← Finset.sum_filter]
  congr 1
  ext c
  simp only [Finset.mem_filter, Finset.mem_range]
  omega

/-- The residual computed for cell `i` is the net rate at which water enters it. -/
theorem residual_eq (S : Setup K M) (sat : Nat → K) (k : Nat) (hn : 0 < S.grid.length) (res : Nat → K)
    (h : computeResidual S (itersAfter S.grid.length (k + 1)) sat = .ok res) (i : Nat) (hi : i < S.grid.length) :
    res i = netInflow S sat i := by
  rw [computeResidual_eq S sat k hn] at h
  rw [updateCells_spec S sat _ _ _ h i, zero_add]
  exact netInflow_eq S sat _ i hi

theorem residual_total (S : Setup K M) (sat : Nat → K) (k : Nat) (hn : 0 < S.grid.length) (res : Nat → K)
    (h : computeResidual S (itersAfter S.grid.length (k + 1)) sat = .ok res) :
    ∑ i ∈ Finset.range S.grid.length, res i = boundaryInflow S sat + sources S sat := by
  rw [computeResidual_eq S sat k hn] at h
  have h1 : ∀ i, res i = ∑ c ∈ Finset.range S.grid.length, specCell S sat c i := by
    intro i
    rw [updateCells_spec S sat _ _ _ h i, zero_add, sum_range_map]
  simp only [h1]
  rw [Finset.sum_comm]
  have h2 := ((foldlM_additive (updateCell_additive S sat) _ _ _).1 h).1
  have h3 : ∀ c ∈ Finset.range S.grid.length, ∑ i ∈ Finset.range S.grid.length, specCell S sat c i =
      sourceTerm S sat c - (((facesOf S.grid c).filter fun f => (neighbour S f).isNone).map (outFlux S sat c)).sum := by
    intro c hc
    rw [Finset.mem_range] at hc
    obtain ⟨d, hd⟩ := h2 c (List.mem_range.2 hc)
    exact specCell_total S sat c _ hc (cellDelta_nb S sat c d hd).2
  rw [Finset.sum_congr rfl h3, Finset.sum_sub_distrib]
  unfold boundaryInflow sources sourceTerm
  ring

/-! ### The saturation update -/

theorem updateSat_spec (pv : List K) (dt : K) (res : Nat → K) (l : List Nat) (hl : l.Nodup) (s s' : Nat → K)
    (h : updateSat pv dt res l s = ⟨s', none⟩) :
    (∀ i ∈ l, ∃ p, pv[i]? = some p ∧ p ≠ 0 ∧ s' i = s i + dt * res i / p) ∧ ∀ i, i ∉ l → s' i = s i := by
  induction l generalizing s with
  | nil =>
    simp only [updateSat, InPlace.mk.injEq, and_true] at h
    subst h; simp
  | cons a l ih =>
    rw [List.nodup_cons] at hl
    unfold updateSat at h
    cases hp : pv[a]? with
    | none => simp [hp] at h
    | some p =>
      simp only [hp] at h
      by_cases hp0 : p = 0
      · simp [hp0] at h
      · rw [if_neg hp0] at h
        obtain ⟨i1, i2⟩ := ih hl.2 _ h
        refine ⟨?_, ?_⟩
        · intro i hi
          rw [List.mem_cons] at hi
          rcases hi with rfl | hi
          · refine ⟨p, hp, hp0, ?_⟩
            rw [i2 i hl.1]; simp
          · obtain ⟨q, hq, hq0, hqs⟩ := i1 i hi
            refine ⟨q, hq, hq0, ?_⟩
            have : i ≠ a := fun e => hl.1 (e ▸ hi)
            rw [hqs]; simp [this]
        · intro i hi
          rw [List.mem_cons, not_or] at hi
          rw [i2 i hi.2]; simp [hi.1]

theorem updateSat_ok (pv : List K) (dt : K) (res : Nat → K) (l : List Nat)
    (hp : ∀ i ∈ l, ∃ p, pv[i]? = some p ∧ p ≠ 0) (s : Nat → K) :
    (updateSat pv dt res l s).err = none := by
  induction l generalizing s with
  | nil => rfl
  | cons a l ih =>
    obtain ⟨p, h1, h2⟩ := hp a List.mem_cons_self
    unfold updateSat
    simp only [h1, h2, if_false]
    exact ih (fun i hi => hp i (List.mem_cons_of_mem _ hi)) _

/-! ### Clamping -/

theorem clampLoop_noclamp (l : List Nat) (s : Nat → K) : (clampLoop false l s).val = s := by
  induction l generalizing s with
  | nil => rfl
  | cons i l ih =>
    unfold clampLoop
    unfold clampCell
    have hs : (fun j => if j = i then s i else s j) = s := by funext j; by_cases h : j = i <;> simp [h]
    by_cases h : s i > 1 ∨ s i < 0
    · rw [if_pos h, if_neg (by simp)]
      by_cases h' : s i > 1 + 1 / 1000 ∨ s i < -(1 / 1000)
      · rw [if_pos h']
      · rw [if_neg h']; simp only [hs]; exact ih s
    · rw [if_neg h]; simp only [hs]; exact ih s

end Verif.Euler
