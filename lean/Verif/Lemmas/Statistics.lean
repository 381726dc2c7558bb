import Verif.Spec.Statistics
import Mathlib.Tactic.Linarith
import Mathlib.Tactic.FieldSimp
import Mathlib.Tactic.Ring
import Mathlib.Tactic.Positivity

/-! Lemmas for C100. -/

namespace Verif.Stat

variable {K : Type} [Field K] [LinearOrder K]

theorem arr_ok {α : Type} (l : List α) (i : Nat) (x : α) (h : i < l.length) : arr l i = .ok (l.getD i x) := by
  unfold arr
  rw [List.getD_eq_getElem?_getD, List.getElem?_eq_getElem h]
  rfl

theorem readOpt_ok (l : Option (List K)) (n i : Nat) (h : ∀ k, l = some k → k.length = n) (hi : i < n) :
    readOpt l i = .ok (l.map fun k => val k i) := by
  cases l with
  | none => rfl
  | some k =>
    change (arr k i).map some = _
    rw [arr_ok k i 0 (by rw [h k rfl]; exact hi)]
    rfl

theorem total_eq (n : Nat) (f : Nat → K) : total n f = ∑ i ∈ Finset.range n, f i := by
  unfold total
  induction n with
  | zero => simp
  | succ n ih => rw [List.range_succ, List.foldl_append, ih, Finset.sum_range_succ]; rfl

theorem filter_key (l : List (Nat × K)) (hn : (l.map Prod.fst).Nodup) (c : Nat × K) (hc : c ∈ l) : l.filter (fun e => e.1 = c.1) = [c] := by
  induction l with
  | nil => cases hc
  | cons e l ih =>
    rw [List.map_cons, List.nodup_cons] at hn
    rcases List.mem_cons.mp hc with rfl | hc
    · rw [List.filter_cons_of_pos (by simp)]
      congr 1
      rw [List.filter_eq_nil_iff]
      intro e he h
      exact hn.1 (List.mem_map.mpr ⟨e, he, by simpa using h⟩)
    · rw [List.filter_cons_of_neg, ih hn.2 hc]
      intro h
      exact hn.1 (List.mem_map.mpr ⟨c, hc, by simpa using Eq.symm (of_decide_eq_true h)⟩)

theorem filter_nokey (l : List (Nat × K)) (i : Nat) (h : i ∉ l.map Prod.fst) : l.filter (fun e => e.1 = i) = [] := by
  rw [List.filter_eq_nil_iff]
  intro e he h'
  exact h (List.mem_map.mpr ⟨e, he, by simpa using h'⟩)

theorem cellVol_nokey (use : Bool) (d : Deck K) (grid : List (Nat × K)) (i : Nat) (h : i ∉ grid.map Prod.fst) : cellVol use d grid i = 0 := by
  unfold cellVol
  rw [filter_nokey grid i h]
  simp

/-- The ACTNUM array that is used. -/
theorem actnums_ok {use : Bool} {d : Deck K} {grid : List (Nat × K)} (hG : Good use d grid) : ∃ act, actnums use d = .ok act ∧
    ∀ c ∈ grid, cellVolume act c = .ok (cellVol use d grid c.1) := by
  cases use with
  | false =>
    refine ⟨none, rfl, fun c hc => ?_⟩
    unfold cellVol cellVolume
    rw [filter_key grid hG.distinct c hc]
    simp
  | true =>
    obtain ⟨l, h1, h2, h3⟩ := hG.actnum rfl
    refine ⟨some l, ?_, fun c hc => ?_⟩
    · unfold actnums
      rw [if_pos rfl, h1]
      dsimp only
      rw [arr_ok l 0 0 (by omega)]
      change (arr l 1).bind _ = _
      rw [arr_ok l 1 0 (by omega)]
      rfl
    · unfold cellVol cellVolume
      rw [filter_key grid hG.distinct c hc, h1]
      dsimp only
      rw [arr_ok l c.1 0 (by rw [h2]; exact hG.inside c hc)]
      change Except.ok _ = _
      simp

theorem fill_spec (d : Deck K) (act : Option (List Int)) (v : Nat → K) (hp : ∀ l, d.poro = some l → l.length = d.n)
    (hg : ∀ l, d.ntg = some l → l.length = d.n) (l : List (Nat × K)) (a : Arrays K) (hn : (l.map Prod.fst).Nodup) (hin : ∀ c ∈ l, c.1 < d.n)
    (hv : ∀ c ∈ l, cellVolume act c = .ok (v c.1)) : ∃ a', l.foldlM (visit d act) a = .ok a' ∧
      (∀ i, a'.vol i = if i ∈ l.map Prod.fst then v i else a.vol i) ∧
      (∀ p, d.poro = some p → ∀ i, a'.pore i = if i ∈ l.map Prod.fst ∧ cutoff < v i then v i * val p i else a.pore i) ∧
      (∀ p g, d.poro = some p → d.ntg = some g → ∀ i,
        a'.net i = (if i ∈ l.map Prod.fst ∧ cutoff < v i then v i * val g i else a.net i) ∧
        a'.netPore i = if i ∈ l.map Prod.fst ∧ cutoff < v i then v i * val p i * val g i else a.netPore i) ∧
      a'.count = a.count + l.countP fun c => decide (cutoff < v c.1) := by
  induction l generalizing a with
  | nil => exact ⟨a, rfl, by simp, by simp, by simp, by simp⟩
  | cons c l ih =>
    rw [List.map_cons, List.nodup_cons] at hn
    have hc := hin c (by simp)
    have hvc := hv c (by simp)
    have hstep : ∃ a1, visit d act a c = .ok a1 ∧ a1.vol = Function.update a.vol c.1 (v c.1) ∧
        (∀ p, d.poro = some p → a1.pore = if cutoff < v c.1 then Function.update a.pore c.1 (v c.1 * val p c.1) else a.pore) ∧
        (∀ p g, d.poro = some p → d.ntg = some g →
          a1.net = (if cutoff < v c.1 then Function.update a.net c.1 (v c.1 * val g c.1) else a.net) ∧
          a1.netPore = if cutoff < v c.1 then Function.update a.netPore c.1 (v c.1 * val p c.1 * val g c.1) else a.netPore) ∧
        a1.count = a.count + if cutoff < v c.1 then 1 else 0 := by
      unfold visit
      rw [hvc]
      change ∃ a1, (if c.1 < d.n then _ else _) = _ ∧ _
      rw [if_pos hc]
      by_cases hk : cutoff < v c.1
      · have hk' : v c.1 > cutoff := hk
        rw [if_pos hk', readOpt_ok d.poro d.n c.1 hp hc]
        change ∃ a1, (readOpt _ c.1).map _ = _ ∧ _
        rw [readOpt_ok (d.poro.bind fun _ => d.ntg) d.n c.1 (fun k h => by
          obtain ⟨_, -, h⟩ := Option.bind_eq_some_iff.mp h
          exact hg k h) hc]
        refine ⟨_, rfl, rfl, fun p h => ?_, fun p g h1 h2 => ?_, ?_⟩
        · rw [if_pos hk, h]; rfl
        · rw [if_pos hk, if_pos hk, h1, h2]; exact ⟨rfl, rfl⟩
        · rw [if_pos hk]
      · have hk' : ¬ v c.1 > cutoff := hk
        rw [if_neg hk']
        refine ⟨_, rfl, rfl, fun p h => ?_, fun p g h1 h2 => ?_, ?_⟩
        · rw [if_neg hk]
        · rw [if_neg hk, if_neg hk]; exact ⟨rfl, rfl⟩
        · rw [if_neg hk]; rfl
    obtain ⟨a1, e1, v1, p1, n1, c1⟩ := hstep
    obtain ⟨a', e2, v2, p2, n2, c2⟩ := ih a1 hn.2 (fun c hc => hin c (by simp [hc])) (fun c hc => hv c (by simp [hc]))
    refine ⟨a', ?_, fun i => ?_, fun p h i => ?_, fun p g h h' i => ?_, ?_⟩
    · rw [List.foldlM_cons, e1]; exact e2
    · rw [v2 i, v1]
      simp only [List.map_cons, List.mem_cons]
      by_cases hi : i = c.1
      · subst hi; rw [if_neg hn.1, if_pos (Or.inl rfl), Function.update_self]
      · rw [Function.update_of_ne hi]
        simp only [hi, false_or]
    · rw [p2 p h i, p1 p h]
      simp only [List.map_cons, List.mem_cons]
      by_cases hi : i = c.1
      · subst hi
        rw [if_neg (fun h => hn.1 h.1)]
        simp only [true_or, true_and]
        split <;> simp
      · have : (if cutoff < v c.1 then Function.update a.pore c.1 (v c.1 * val p c.1) else a.pore) i = a.pore i := by
          split
          · rw [Function.update_of_ne hi]
          · rfl
        rw [this]
        simp only [hi, false_or]
    · obtain ⟨q1, q2⟩ := n2 p g h h' i
      obtain ⟨s1, s2⟩ := n1 p g h h'
      rw [q1, q2, s1, s2, List.map_cons]
      simp only [List.mem_cons]
      by_cases hi : i = c.1
      · subst hi
        simp only [hn.1, false_and, if_false, true_or, true_and]
        constructor <;> (split <;> simp)
      · constructor
        · have : (if cutoff < v c.1 then Function.update a.net c.1 (v c.1 * val g c.1) else a.net) i = a.net i := by
            split
            · rw [Function.update_of_ne hi]
            · rfl
          rw [this]
          simp only [hi, false_or]
        · have : (if cutoff < v c.1 then Function.update a.netPore c.1 (v c.1 * val p c.1 * val g c.1) else a.netPore) i = a.netPore i := by
            split
            · rw [Function.update_of_ne hi]
            · rfl
          rw [this]
          simp only [hi, false_or]
    · rw [c2, c1, List.countP_cons]
      simp only [decide_eq_true_eq]
      omega

/-- The sums over permeabilities. -/
theorem perm_spec (ln : K → K) (V : Nat → K) (k : List K) (n : Nat) (h : n ≤ k.length) :
    (List.range n).foldlM (permStep ln V k) ⟨0, 0, 0, 0, 0, 0⟩ = .ok
      ⟨∑ i ∈ (Finset.range n).filter (fun i => cutoff < V i), val k i, ∑ i ∈ (Finset.range n).filter (fun i => cutoff < V i), val k i * V i,
       ∑ i ∈ (Finset.range n).filter (fun i => cutoff < V i), 1 / val k i, ∑ i ∈ (Finset.range n).filter (fun i => cutoff < V i), V i / val k i,
       ∑ i ∈ (Finset.range n).filter (fun i => cutoff < V i), ln (val k i),
       ∑ i ∈ (Finset.range n).filter (fun i => cutoff < V i), ln (val k i) * V i⟩ := by
  induction n with
  | zero => simp; rfl
  | succ n ih =>
    rw [List.range_succ, List.foldlM_append, ih (by omega)]
    change (permStep ln V k _ n).bind _ = _
    unfold permStep
    by_cases hk : cutoff < V n
    · have hk' : V n > cutoff := hk
      rw [if_pos hk', arr_ok k n 0 (by omega), Finset.range_add_one, Finset.filter_insert, if_pos hk]
      have hni : n ∉ (Finset.range n).filter (fun i => cutoff < V i) := by simp
      simp only [Finset.sum_insert hni]
      change Except.ok _ = _
      simp only [val, add_comm]
    · have hk' : ¬ V n > cutoff := hk
      rw [if_neg hk', Finset.range_add_one, Finset.filter_insert, if_neg hk]
      rfl

/-- What is collected for the rock types. -/
def rockSpec (d : Deck K) (V : Nat → K) (s : Nat → Nat) (n r : Nat) : Rock K :=
  let A := (Finset.range n).filter fun i => cutoff < V i ∧ s i = r
  ⟨((Finset.range n).filter fun i => s i = r).card, A.card, ∑ i ∈ A, V i,
   d.permx.elim 0 fun k => ∑ i ∈ A, val k i, d.permx.elim 0 fun k => ∑ i ∈ A, 1 / val k i, d.permx.elim 0 fun k => ∑ i ∈ A, val k i * V i,
   d.permx.elim 0 fun k => ∑ i ∈ A, V i / val k i, d.poro.elim 0 fun p => ∑ i ∈ A, V i * val p i, 0⟩

theorem rock_spec (d : Deck K) (V : Nat → K) (sat : List Int) (n : Nat) (h : n ≤ sat.length) (hk : ∀ l, d.permx = some l → n ≤ l.length)
    (hp : ∀ l, d.poro = some l → n ≤ l.length) :
    (List.range n).foldlM (rockStep d V sat) (fun _ => ⟨0, 0, 0, 0, 0, 0, 0, 0, 0⟩) =
      .ok (rockSpec d V (fun i => (sat.getD i 0).toNat) n) := by
  induction n with
  | zero =>
    change Except.ok _ = _
    congr 1
    funext r
    unfold rockSpec
    cases d.permx <;> cases d.poro <;> simp
  | succ n ih =>
    rw [List.range_succ, List.foldlM_append, ih (by omega) (fun l e => by have := hk l e; omega) (fun l e => by have := hp l e; omega)]
    change (rockStep d V sat _ n).bind _ = _
    have hr : ∀ (l : Option (List K)), (∀ k, l = some k → n + 1 ≤ k.length) → readOpt l n = .ok (l.map fun k => val k n) := by
      intro l hl
      cases l with
      | none => rfl
      | some k => exact readOpt_ok (some k) k.length n (fun _ e => by rw [Option.some.inj e]) (by have := hl k rfl; omega)
    unfold rockStep
    rw [arr_ok sat n 0 (by omega)]
    change (if V n > cutoff then _ else _ : Except Err (Nat → Rock K)).bind _ = _
    have hni : ∀ p : Nat → Prop, ∀ [DecidablePred p], n ∉ (Finset.range n).filter p := by intro p _; simp
    by_cases hc : cutoff < V n
    · have hc' : V n > cutoff := hc
      rw [if_pos hc', hr _ hk]
      change ((readOpt d.poro n).map _ : Except Err (Nat → Rock K)).bind _ = _
      rw [hr _ hp]
      change Except.ok _ = _
      congr 1
      funext r
      beta_reduce
      by_cases hrr : r = (sat.getD n 0).toNat
      · subst hrr
        rw [Function.update_self]
        unfold rockSpec
        simp only [Finset.range_add_one, Finset.filter_insert, hc, true_and, if_true, Finset.card_insert_of_notMem (hni _),
          Finset.sum_insert (hni _)]
        cases d.permx <;> cases d.poro <;> simp [add_comm]
      · rw [Function.update_of_ne hrr]
        unfold rockSpec
        simp only [Finset.range_add_one, Finset.filter_insert, hc, true_and, Ne.symm hrr, if_false]
    · have hc' : ¬ V n > cutoff := hc
      rw [if_neg hc']
      change Except.ok _ = _
      congr 1
      funext r
      beta_reduce
      by_cases hrr : r = (sat.getD n 0).toNat
      · subst hrr
        rw [Function.update_self]
        unfold rockSpec
        simp only [Finset.range_add_one, Finset.filter_insert, hc, false_and, if_false, if_true, Finset.card_insert_of_notMem (hni _)]
      · rw [Function.update_of_ne hrr]
        unfold rockSpec
        simp only [Finset.range_add_one, Finset.filter_insert, hc, false_and, Ne.symm hrr, if_false]

theorem var_spec (V : Nat → K) (sat : List Int) (poro : List K) (t : Nat → Rock K) (n : Nat) (h : n ≤ sat.length) (hp : n ≤ poro.length) :
    (List.range n).foldlM (varStep V sat poro) t = .ok fun r =>
      { t r with var := (t r).var + (∑ i ∈ (Finset.range n).filter (fun i => cutoff < V i ∧ (sat.getD i 0).toNat = r),
        V i * (val poro i - (t r).pore / (t r).vol) ^ 2) } := by
  induction n with
  | zero =>
    change Except.ok _ = _
    congr 1
    funext r
    simp
  | succ n ih =>
    rw [List.range_succ, List.foldlM_append, ih (by omega) (by omega)]
    change (varStep V sat poro _ n).bind _ = _
    unfold varStep
    have hni : ∀ p : Nat → Prop, ∀ [DecidablePred p], n ∉ (Finset.range n).filter p := by intro p _; simp
    by_cases hc : cutoff < V n
    · have hc' : V n > cutoff := hc
      rw [if_pos hc', arr_ok sat n 0 (by omega)]
      change ((arr poro n).map _ : Except Err (Nat → Rock K)).bind _ = _
      rw [arr_ok poro n 0 (by omega)]
      change Except.ok _ = _
      congr 1
      funext r
      beta_reduce
      by_cases hrr : r = (sat.getD n 0).toNat
      · subst hrr
        rw [Function.update_self]
        simp only [Finset.range_add_one, Finset.filter_insert, hc, true_and, if_true, Finset.sum_insert (hni _)]
        congr 1
        rw [add_assoc]
        congr 1
        rw [add_comm]
        rfl
      · rw [Function.update_of_ne hrr]
        simp only [Finset.range_add_one, Finset.filter_insert, hc, true_and, Ne.symm hrr, if_false]
    · have hc' : ¬ V n > cutoff := hc
      rw [if_neg hc']
      change Except.ok _ = _
      simp only [Finset.range_add_one, Finset.filter_insert, hc, false_and, if_false]

theorem maxSat_ge (sat : List Int) (s : Int) (h : s ∈ sat) : s.toNat ≤ maxSat sat := by
  have mono : ∀ (l : List Int) (m : Nat), m ≤ l.foldl (fun (m : Nat) (s : Int) => if s > (m : Int) then s.toNat else m) m := by
    intro l
    induction l with
    | nil => intro m; exact le_rfl
    | cons x l ih =>
      intro m
      refine le_trans ?_ (ih _)
      beta_reduce
      split <;> omega
  have : ∀ (l : List Int) (m : Nat), s ∈ l → s.toNat ≤ l.foldl (fun (m : Nat) (s : Int) => if s > (m : Int) then s.toNat else m) m := by
    intro l
    induction l with
    | nil => intro m h; cases h
    | cons x l ih =>
      intro m h
      rcases List.mem_cons.mp h with rfl | h
      · refine le_trans ?_ (mono l _)
        beta_reduce
        split <;> omega
      · exact ih _ h
  exact this sat 0 h

end Verif.Stat
