import Verif.Spec.Asm
import Verif.Lemmas.Chopper
import Mathlib.Algebra.BigOperators.Group.List.Basic
import Mathlib.Data.List.Nodup
import Mathlib.Data.List.Range
import Mathlib.Algebra.Field.Rat
import Mathlib.Algebra.Order.Ring.Unbundled.Rat
import Mathlib.Tactic.Ring
import Mathlib.Tactic.Linarith

/-! C39 (elasticity unknowns) and C42 (prescribed values, constraints, expansion of solutions). -/

namespace Verif.Asm

variable {K : Type}

/-! ### Numbering -/

theorem fixedDof_iff (h : Handler K) (n i : Nat) : fixedDof h n i = true ↔ Prescribed h n i := by
  unfold fixedDof Prescribed
  cases h.fixed n <;> simp

/-- Prescribed or constrained, as a test. -/
def blocked (h : Handler K) (q : Nat × Nat) : Bool := fixedDof h q.1 q.2 || (h.mpcs (key h.dim q.1 q.2)).isSome

theorem blocked_iff (h : Handler K) (n i : Nat) : blocked h (n, i) = true ↔ Prescribed h n i ∨ Slave h n i := by
  unfold blocked Slave
  rw [Bool.or_eq_true, fixedDof_iff, Option.isSome_iff_exists]
  rfl

theorem eqnStep_eq (h : Handler K) (n i : Nat) (s : List (Option Nat) × Nat) :
    eqnStep h n s i = if blocked h (n, i) then (s.1 ++ [none], s.2) else (s.1 ++ [some s.2], s.2 + 1) := by
  unfold eqnStep blocked fixedDof
  cases h.fixed n with
  | none => cases h.mpcs (key h.dim n i) <;> simp
  | some f => cases f.dir.testBit i <;> cases h.mpcs (key h.dim n i) <;> simp

/-- All unknowns in order. -/
def allDofs (nodes dim : Nat) : List (Nat × Nat) := (List.range nodes).flatMap fun n => (List.range dim).map fun i => (n, i)

theorem allDofs_length (nodes dim : Nat) : (allDofs nodes dim).length = nodes * dim := by
  unfold allDofs
  rw [List.length_flatMap]
  simp

theorem allDofs_get {nodes dim n i : Nat} (hn : n < nodes) (hi : i < dim) :
    (allDofs nodes dim)[key dim n i]? = some (n, i) := by
  unfold allDofs key
  rw [Chopper.flatMap_get _ _ dim (fun _ _ => by simp) n i hi n (by simp [hn])]
  simp [hi]

theorem preprocess_fold (h : Handler K) :
    (List.range h.nodes).foldl (fun s node => (List.range h.dim).foldl (eqnStep h node) s) (([], h.maxeqn)) =
      (allDofs h.nodes h.dim).foldl (fun s q => if blocked h q then (s.1 ++ [none], s.2) else (s.1 ++ [some s.2], s.2 + 1))
        ([], h.maxeqn) := by
  unfold allDofs
  rw [List.foldl_flatMap]
  congr 1
  funext s n
  rw [List.foldl_map]
  congr 1
  funext s i
  exact eqnStep_eq h n i s

theorem number_fold {α : Type} (P : α → Bool) (l : List α) (s : List (Option Nat) × Nat) :
    let r := l.foldl (fun s q => if P q then (s.1 ++ [none], s.2) else (s.1 ++ [some s.2], s.2 + 1)) s
    r.1.length = s.1.length + l.length ∧ r.2 = s.2 + l.countP (fun q => !P q) ∧
      (∀ (i : Nat) q, l[i]? = some q →
        r.1[s.1.length + i]? = some (if P q then none else some (s.2 + (l.take i).countP fun q => !P q))) ∧
      ∀ i < s.1.length, r.1[i]? = s.1[i]? := by
  induction l using List.reverseRecOn with
  | nil => simp
  | append_singleton l a ih =>
    obtain ⟨h1, h2, h3, h4⟩ := ih
    simp only [List.foldl_append, List.foldl_cons, List.foldl_nil]
    generalize l.foldl _ s = r at h1 h2 h3 h4
    have get : ∀ (v : Option Nat), (∀ (i : Nat) q, (l ++ [a])[i]? = some q → i = l.length → q = a ∧
        v = if P q then none else some (s.2 + ((l ++ [a]).take i).countP fun q => !P q)) →
        (∀ (i : Nat) q, (l ++ [a])[i]? = some q →
          (r.1 ++ [v])[s.1.length + i]? = some (if P q then none else some (s.2 + ((l ++ [a]).take i).countP fun q => !P q))) := by
      intro v hv i q hq
      by_cases hi : i < l.length
      · rw [List.getElem?_append_left hi] at hq
        rw [List.getElem?_append_left (by omega), h3 i q hq, List.take_append_of_le_length (by omega)]
      · have hi' : i = l.length := by
          by_contra hc
          rw [List.getElem?_eq_none (by simp; omega)] at hq; cases hq
        rw [List.getElem?_append_right (by omega), ← (hv i q hq hi').2]
        have : s.1.length + i - r.1.length = 0 := by omega
        rw [this]; rfl
    have last : ∀ (i : Nat) q, (l ++ [a])[i]? = some q → i = l.length → q = a := by
      intro i q hq hi
      subst hi
      rw [List.getElem?_append_right le_rfl] at hq
      simpa using hq.symm
    by_cases hp : P a = true
    · rw [if_pos hp]
      refine ⟨by simp [h1]; omega, by simp [h2, hp], get none fun i q hq hi => ?_, fun i hi => ?_⟩
      · have := last i q hq hi
        subst this
        exact ⟨rfl, by rw [if_pos hp]⟩
      · rw [List.getElem?_append_left (by omega), h4 i hi]
    · rw [if_neg hp]
      refine ⟨by simp [h1]; omega, by simp [h2, hp]; omega, get _ fun i q hq hi => ?_, fun i hi => ?_⟩
      · have := last i q hq hi
        subst this
        refine ⟨rfl, ?_⟩
        rw [if_neg hp, hi, List.take_left, h2]
      · rw [List.getElem?_append_left (by omega), h4 i hi]

theorem eqn_preprocess (h : Handler K) {n i : Nat} (hu : Unknown h n i) :
    (preprocess h).eqn n i = if blocked h (n, i) then none else
      some (h.maxeqn + ((allDofs h.nodes h.dim).take (key h.dim n i)).countP fun q => !blocked h q) := by
  unfold Handler.eqn preprocess
  simp only
  rw [preprocess_fold]
  obtain ⟨_, _, h3, _⟩ := number_fold (blocked h) (allDofs h.nodes h.dim) ([], h.maxeqn)
  have := h3 _ _ (allDofs_get hu.1 hu.2)
  simp only [List.length_nil, Nat.zero_add] at this
  rw [this]
  rfl

theorem maxeqn_preprocess (h : Handler K) :
    (preprocess h).maxeqn = h.maxeqn + (allDofs h.nodes h.dim).countP fun q => !blocked h q := by
  unfold preprocess
  simp only
  rw [preprocess_fold]
  exact (number_fold (blocked h) (allDofs h.nodes h.dim) ([], h.maxeqn)).2.1

theorem countP_take_lt {α : Type} (P : α → Bool) (l : List α) {i : Nat} {q : α} (hq : l[i]? = some q) (hp : P q = true) {j : Nat}
    (hj : i < j) : (l.take i).countP P < (l.take j).countP P := by
  have h1 : (l.take (i + 1)).countP P = (l.take i).countP P + 1 := by
    rw [List.take_succ, hq]; simp [hp]
  have h2 : (l.take (i + 1)).countP P ≤ (l.take j).countP P :=
    (List.take_sublist_take_left (by omega)).countP_le
  omega

theorem countP_surj {α : Type} (P : α → Bool) (l : List α) : ∀ k < l.countP P, ∃ i q, l[i]? = some q ∧ P q = true ∧
    (l.take i).countP P = k := by
  induction l using List.reverseRecOn with
  | nil => intro k hk; simp at hk
  | append_singleton l a ih =>
    intro k hk
    by_cases hkl : k < l.countP P
    · obtain ⟨i, q, h1, h2, h3⟩ := ih k hkl
      have hi : i < l.length := (List.getElem?_eq_some_iff.mp h1).1
      exact ⟨i, q, by rw [List.getElem?_append_left hi, h1], h2, by rw [List.take_append_of_le_length (by omega), h3]⟩
    · rw [List.countP_append] at hk
      have hpa : P a = true := by
        by_contra hc
        simp [hc] at hk
        exact hkl hk
      refine ⟨l.length, a, by simp, hpa, ?_⟩
      rw [List.take_left]
      simp [hpa] at hk
      omega

theorem mem_allDofs {nodes dim : Nat} {k : Nat} {q : Nat × Nat} (h : (allDofs nodes dim)[k]? = some q) :
    q.1 < nodes ∧ q.2 < dim := by
  have := List.mem_of_getElem? h
  unfold allDofs at this
  simp only [List.mem_flatMap, List.mem_map, List.mem_range] at this
  obtain ⟨a, ha, b, hb, rfl⟩ := this
  exact ⟨ha, hb⟩

theorem key_inj {dim n i n' i' : Nat} (hi : i < dim) (hi' : i' < dim) (h : key dim n i = key dim n' i') : n = n' ∧ i = i' := by
  unfold key at h
  have h1 : (n * dim + i) / dim = n := by
    rw [Nat.add_comm, Nat.add_mul_div_right _ _ (by omega), Nat.div_eq_of_lt hi, Nat.zero_add]
  have h2 : (n' * dim + i') / dim = n' := by
    rw [Nat.add_comm, Nat.add_mul_div_right _ _ (by omega), Nat.div_eq_of_lt hi', Nat.zero_add]
  have : n = n' := by rw [← h1, ← h2, h]
  subst this
  exact ⟨rfl, by omega⟩

/-- C39 (elasticity): the numbering gives no number to prescribed and to constrained unknowns and distinct numbers to all
others, filling the range below the number of equations. -/
theorem C39_equations (h : Handler K) (h0 : h.maxeqn = 0) :
    (∀ n i, Unknown h n i → ((preprocess h).eqn n i = none ↔ Prescribed h n i ∨ Slave h n i)) ∧
      (∀ n i k, Unknown h n i → (preprocess h).eqn n i = some k → k < (preprocess h).maxeqn) ∧
      (∀ k < (preprocess h).maxeqn, ∃ n i, Unknown h n i ∧ (preprocess h).eqn n i = some k) ∧
      ∀ n i n' i' k, Unknown h n i → Unknown h n' i' → (preprocess h).eqn n i = some k →
        (preprocess h).eqn n' i' = some k → n = n' ∧ i = i' := by
  refine ⟨fun n i hu => ?_, fun n i k hu hk => ?_, fun k hk => ?_, fun n i n' i' k hu hu' hk hk' => ?_⟩
  · rw [eqn_preprocess h hu, ← blocked_iff]
    cases blocked h (n, i) <;> simp
  · rw [eqn_preprocess h hu] at hk
    rw [maxeqn_preprocess]
    cases hb : blocked h (n, i) with
    | true => rw [hb] at hk; cases hk
    | false =>
      rw [hb] at hk
      simp only [Bool.false_eq_true, if_false, Option.some.injEq] at hk
      have := countP_take_lt (fun q => !blocked h q) _ (allDofs_get hu.1 hu.2) (by simp [hb])
        (j := (allDofs h.nodes h.dim).length) (List.getElem?_eq_some_iff.mp (allDofs_get hu.1 hu.2)).1
      rw [List.take_length] at this
      omega
  · rw [maxeqn_preprocess, h0, Nat.zero_add] at hk
    obtain ⟨j, q, h1, h2, h3⟩ := countP_surj _ _ k hk
    obtain ⟨hq1, hq2⟩ := mem_allDofs h1
    have hkey : key h.dim q.1 q.2 = j := by
      have h4 := allDofs_get hq1 hq2
      obtain ⟨hj, h5⟩ := List.getElem?_eq_some_iff.mp h1
      obtain ⟨hj', h6⟩ := List.getElem?_eq_some_iff.mp h4
      have hnd : (allDofs h.nodes h.dim).Nodup := by
        unfold allDofs
        rw [List.nodup_flatMap]
        refine ⟨fun n _ => List.nodup_range.map fun a b e => by simpa using e, ?_⟩
        refine List.nodup_range.imp fun {a b} hab => ?_
        intro x hx hy
        simp only [List.mem_map] at hx hy
        obtain ⟨_, _, rfl⟩ := hx
        obtain ⟨_, _, e⟩ := hy
        simp at e
        exact hab e.1.symm
      exact hnd.getElem_inj_iff.mp (h6.trans h5.symm)
    refine ⟨q.1, q.2, ⟨hq1, hq2⟩, ?_⟩
    rw [eqn_preprocess h ⟨hq1, hq2⟩, hkey, h3, h0]
    have : blocked h (q.1, q.2) = false := by simpa using h2
    rw [this]; simp
  · rw [eqn_preprocess h hu] at hk
    rw [eqn_preprocess h hu'] at hk'
    cases hb : blocked h (n, i) with
    | true => rw [hb] at hk; cases hk
    | false =>
      cases hb' : blocked h (n', i') with
      | true => rw [hb'] at hk'; cases hk'
      | false =>
        rw [hb] at hk
        rw [hb'] at hk'
        simp only [Bool.false_eq_true, if_false, Option.some.injEq] at hk hk'
        refine key_inj hu.2 hu'.2 ?_
        by_contra hne
        rcases lt_or_gt_of_ne hne with hlt | hlt
        · have := countP_take_lt (fun q => !blocked h q) _ (allDofs_get hu.1 hu.2) (by simp [hb]) hlt
          omega
        · have := countP_take_lt (fun q => !blocked h q) _ (allDofs_get hu'.1 hu'.2) (by simp [hb']) hlt
          omega

/-- Two nodes in three directions; node 0 fixed in directions 0 and 2, direction 1 of node 1 constrained. -/
def small : Handler ℚ :=
  addMPC (updateFixedNode (Handler.new 3 2) 0 ⟨5, fun i => i + 1⟩) ⟨1, 1, 0, [⟨0, 1, 2⟩]⟩

example : small.maxeqn = 0 ∧ ((preprocess small).meqn = [none, some 0, none, some 1, none, some 2]) ∧
    (preprocess small).maxeqn = 3 := by decide +kernel

/-- C39 fails if the numbering is done twice: the counter is not reset, so numbers start at the old number of equations. -/
theorem C39_violated_twice : ∃ h : Handler ℚ, h.maxeqn = 0 ∧ (preprocess (preprocess h)).maxeqn = 4 ∧
    (preprocess (preprocess h)).meqn = [some 2, some 3] := ⟨Handler.new 2 1, by decide +kernel⟩

/-! ### Prescribed values -/

theorem update_fold (dim : Nat) (n i : Nat) (hi : i < dim) (calls : List (Nat × Fixed K)) (h : Handler K) (hd : h.dim = dim) :
    let r := calls.foldl (fun h c => updateFixedNode h c.1 c.2) h
    (Prescribed r n i ↔ Prescribed h n i ∨ prescriptions n i calls ≠ []) ∧
      ∀ f, r.fixed n = some f → f.dir.testBit i = true →
        (∀ e, (prescriptions n i calls).getLast? = some e → f.val i = e.val i) ∧
        (prescriptions n i calls = [] → ∃ f0, h.fixed n = some f0 ∧ f0.dir.testBit i = true ∧ f.val i = f0.val i) := by
  induction calls using List.reverseRecOn with
  | nil => simpa [prescriptions] using fun f hf hb => ⟨f, hf, hb, rfl⟩
  | append_singleton calls c ih =>
    have hdim : ∀ (l : List (Nat × Fixed K)) (h : Handler K), (l.foldl (fun h c => updateFixedNode h c.1 c.2) h).dim = h.dim := by
      intro l
      induction l with
      | nil => exact fun _ => rfl
      | cons a l ih => intro h; rw [List.foldl_cons, ih]; rfl
    simp only [List.foldl_append, List.foldl_cons, List.foldl_nil]
    have hrd := hdim calls h
    simp only at ih
    generalize calls.foldl (fun h c => updateFixedNode h c.1 c.2) h = r at ih hrd
    obtain ⟨ih1, ih2⟩ := ih
    have hp : prescriptions n i (calls ++ [c]) = prescriptions n i calls ++
        if c.1 = n ∧ c.2.dir.testBit i = true then [c.2] else [] := by
      unfold prescriptions
      rw [List.filter_append, List.map_append]
      by_cases h1 : c.1 = n <;> cases h2 : c.2.dir.testBit i <;> simp [h1, h2, List.filter_cons]
    rw [hp]
    by_cases hcn : c.1 = n
    · obtain ⟨cn, e⟩ := c
      simp only at hcn
      subst hcn
      have hfix : (updateFixedNode r cn e).fixed cn = some (mergeFixed r.dim (r.fixed cn) e) := by
        simp [updateFixedNode]
      cases hr : r.fixed cn with
      | none =>
        rw [hr] at hfix
        simp only [mergeFixed] at hfix
        have hno : ¬ Prescribed r cn i := by rintro ⟨f, hf, _⟩; rw [hr] at hf; cases hf
        cases hb : e.dir.testBit i with
        | true =>
          simp only [hb, and_self, if_true]
          refine ⟨⟨fun _ => .inr (by simp), fun _ => ⟨e, hfix, hb⟩⟩, fun f hf _ => ?_⟩
          rw [hfix] at hf
          cases hf
          exact ⟨fun x hx => by simp at hx; rw [hx], fun hx => by simp at hx⟩
        | false =>
          simp only [hb, Bool.false_eq_true, and_false, if_false, List.append_nil]
          refine ⟨?_, fun f hf hfb => ?_⟩
          · rw [← ih1]
            constructor
            · rintro ⟨f, hf, hfb⟩; rw [hfix] at hf; cases hf; rw [hb] at hfb; cases hfb
            · exact fun hx => absurd hx hno
          · rw [hfix] at hf; cases hf; rw [hb] at hfb; cases hfb
      | some f0 =>
        rw [hr] at hfix
        simp only [mergeFixed] at hfix
        by_cases hsame : f0.dir = e.dir
        · rw [if_pos hsame] at hfix
          cases hb : e.dir.testBit i with
          | true =>
            simp only [hb, and_self, if_true]
            refine ⟨⟨fun _ => .inr (by simp), fun _ => ⟨e, hfix, hb⟩⟩, fun f hf _ => ?_⟩
            rw [hfix] at hf
            cases hf
            exact ⟨fun x hx => by simp at hx; rw [hx], fun hx => by simp at hx⟩
          | false =>
            simp only [hb, Bool.false_eq_true, and_false, if_false, List.append_nil]
            refine ⟨?_, fun f hf hfb => ?_⟩
            · rw [← ih1]
              constructor
              · rintro ⟨f, hf, hfb⟩; rw [hfix] at hf; cases hf; rw [hb] at hfb; cases hfb
              · rintro ⟨f, hf, hfb⟩; rw [hr] at hf; cases hf; rw [hsame, hb] at hfb; cases hfb
            · rw [hfix] at hf; cases hf; rw [hb] at hfb; cases hfb
        · rw [if_neg hsame] at hfix
          cases hb : e.dir.testBit i with
          | true =>
            simp only [hb, and_self, if_true]
            refine ⟨⟨fun _ => .inr (by simp), fun _ => ⟨_, hfix, by simp [Nat.testBit_or, hb]⟩⟩, fun f hf _ => ?_⟩
            rw [hfix] at hf
            cases hf
            refine ⟨fun x hx => ?_, fun hx => by simp at hx⟩
            simp at hx
            rw [← hx]
            simp only [hb, hrd, hd, hi, and_self, if_true]
          | false =>
            simp only [hb, Bool.false_eq_true, and_false, if_false, List.append_nil]
            refine ⟨?_, fun f hf hfb => ?_⟩
            · rw [← ih1]
              constructor
              · rintro ⟨f, hf, hfb⟩
                rw [hfix] at hf; cases hf
                simp only [Nat.testBit_or, hb, Bool.or_false] at hfb
                exact ⟨f0, hr, hfb⟩
              · rintro ⟨f, hf, hfb⟩
                rw [hr] at hf; cases hf
                exact ⟨_, hfix, by simp [Nat.testBit_or, hfb]⟩
            · rw [hfix] at hf; cases hf
              simp only [Nat.testBit_or, hb, Bool.or_false] at hfb
              simpa [hb] using ih2 f0 hr hfb
    · have hfix : (updateFixedNode r c.1 c.2).fixed n = r.fixed n := by
        unfold updateFixedNode
        exact if_neg fun e => hcn e.symm
      have hpr : Prescribed (updateFixedNode r c.1 c.2) n i ↔ Prescribed r n i := by
        unfold Prescribed; rw [hfix]
      rw [if_neg (fun hx => hcn hx.1), List.append_nil, hpr, hfix]
      exact ⟨ih1, ih2⟩

/-- C42: after any sequence of prescriptions on a new handler a direction of a node is prescribed exactly when some call
prescribed it, with the value of the last such call. -/
theorem C42_prescribed (dim nodes : Nat) (calls : List (Nat × Fixed K)) (n i : Nat) (hi : i < dim) :
    let h := calls.foldl (fun h c => updateFixedNode h c.1 c.2) (Handler.new dim nodes)
    (Prescribed h n i ↔ prescriptions n i calls ≠ []) ∧
      ∀ e, (prescriptions n i calls).getLast? = some e → ∃ f, h.fixed n = some f ∧ f.dir.testBit i = true ∧ f.val i = e.val i := by
  obtain ⟨h1, h2⟩ := update_fold dim n i hi calls (Handler.new dim nodes) rfl
  have hiff : Prescribed (calls.foldl (fun h c => updateFixedNode h c.1 c.2) (Handler.new dim nodes)) n i ↔
      prescriptions n i calls ≠ [] := by
    rw [h1]
    constructor
    · rintro (⟨f, hf, _⟩ | hx)
      · cases hf
      · exact hx
    · exact .inr
  refine ⟨hiff, fun e he => ?_⟩
  obtain ⟨f, hf, hb⟩ := hiff.mpr (by rintro hx; rw [hx] at he; cases he)
  exact ⟨f, hf, hb, (h2 f hf hb).1 e he⟩

example : ((runCalls (Handler.new 3 5 : Handler ℚ) [.fix 4 ⟨1, fun _ => 7⟩, .fix 4 ⟨2, fun _ => 8⟩, .fix 4 ⟨3, fun _ => 9⟩,
    .fix 4 ⟨2, fun _ => 6⟩]).fixed 4).map (fun f => (f.dir, f.val 0, f.val 1)) = some (3, 9, 6) := by decide +kernel

/-- C42: a constraint is kept exactly when its slave is not prescribed at the time and has no constraint yet. -/
theorem C42_add (h : Handler K) (m : Mpc K) :
    (Prescribed h m.node m.dof ∨ Slave h m.node m.dof → (addMPC h m).mpcs = h.mpcs) ∧
      (¬ Prescribed h m.node m.dof → ¬ Slave h m.node m.dof → (addMPC h m).mpcs (m.node * h.dim + m.dof) = some m ∧
        ∀ k, k ≠ m.node * h.dim + m.dof → (addMPC h m).mpcs k = h.mpcs k) := by
  unfold addMPC
  refine ⟨fun hx => ?_, fun h1 h2 => ?_⟩
  · by_cases hp : fixedDof h m.node m.dof = true
    · rw [if_pos hp]
    · rw [if_neg hp]
      rcases hx with hx | ⟨m0, hx⟩
      · exact absurd ((fixedDof_iff ..).mpr hx) hp
      · funext k
        by_cases hk : k = key h.dim m.node m.dof
        · have : h.mpcs k = some m0 := by rw [hk]; exact hx
          simp [this]
        · simp [hk]
  · rw [if_neg fun hp => h1 ((fixedDof_iff ..).mp hp)]
    have hn : h.mpcs (key h.dim m.node m.dof) = none := by
      cases hc : h.mpcs (key h.dim m.node m.dof) with
      | none => rfl
      | some m0 => exact absurd ⟨m0, hc⟩ h2
    refine ⟨?_, fun k hk => ?_⟩
    · exact if_pos ⟨rfl, hn⟩
    · exact if_neg fun hx => hk hx.1

/-! ### Expansion -/

variable [Field K]

theorem masterSum_eq (h : Handler K) (u : Nat → K) (init : K) (m : Mpc K) :
    masterSum h u init m = init + (m.masters.map fun a => eqnValue h u a.node a.dof * a.coeff).sum := by
  unfold masterSum
  generalize m.masters = l
  induction l generalizing init with
  | nil => simp
  | cons a l ih =>
    rw [List.foldl_cons, ih, List.map_cons, List.sum_cons]
    unfold eqnValue
    cases h.eqn a.node a.dof <;> simp <;> ring

/-- Constraints as they are when the expansion is exact: no unknown is both prescribed and constrained, masters are unknowns of
the grid that are not constrained themselves, and prescribed masters have the value zero. -/
structure Clean (h : Handler K) : Prop where
  apart : ∀ n i, Prescribed h n i → ¬ Slave h n i
  inside : ∀ n i m, h.mpcs (n * h.dim + i) = some m → ∀ a ∈ m.masters, Unknown h a.node a.dof
  unchained : ∀ n i m, h.mpcs (n * h.dim + i) = some m → ∀ a ∈ m.masters, ¬ Slave h a.node a.dof
  zero : ∀ n i m, h.mpcs (n * h.dim + i) = some m → ∀ a ∈ m.masters, ∀ f, h.fixed a.node = some f →
    f.dir.testBit a.dof = true → f.val a.dof = 0

theorem expand_free (h : Handler K) (u : Nat → K) (n i : Nat) (hp : ¬ Prescribed h n i) (hs : ¬ Slave h n i) :
    expandSolution (preprocess h) u n i = eqnValue (preprocess h) u n i := by
  unfold expandSolution
  have hm : (preprocess h).mpcs (key (preprocess h).dim n i) = none := by
    cases hc : (preprocess h).mpcs (key (preprocess h).dim n i) with
    | none => rfl
    | some m => exact absurd ⟨m, hc⟩ hs
  rw [hm]
  simp only [expand1]
  cases hf : (preprocess h).fixed n with
  | none => rfl
  | some f =>
    have : f.dir.testBit i = false := by
      cases hb : f.dir.testBit i with
      | false => rfl
      | true => exact absurd ⟨f, hf, hb⟩ hp
    simp [this]

theorem expand_prescribed (h : Handler K) (u : Nat → K) (n i : Nat) (hs : ¬ Slave h n i) (f : Fixed K)
    (hf : h.fixed n = some f) (hb : f.dir.testBit i = true) : expandSolution (preprocess h) u n i = f.val i := by
  unfold expandSolution
  have hm : (preprocess h).mpcs (key (preprocess h).dim n i) = none := by
    cases hc : (preprocess h).mpcs (key (preprocess h).dim n i) with
    | none => rfl
    | some m => exact absurd ⟨m, hc⟩ hs
  rw [hm]
  have hf' : (preprocess h).fixed n = some f := hf
  simp [expand1, hf', hb]

/-- C42 (expansion): on clean constraints every free unknown gets the value of its own equation, every prescribed unknown its
prescribed value and every constrained unknown the weighted sum of the values of its masters. Partial: prescribed masters must
be prescribed zero and the constant of a constraint is ignored, see the violations below. -/
theorem C42_expand_partial (h : Handler K) (hc : Clean h) (u : Nat → K) (n i : Nat) (hu : Unknown h n i) :
    (¬ Prescribed h n i → ¬ Slave h n i → ∃ e, (preprocess h).eqn n i = some e ∧ expandSolution (preprocess h) u n i = u e) ∧
      (∀ f, h.fixed n = some f → f.dir.testBit i = true → expandSolution (preprocess h) u n i = f.val i) ∧
      (∀ m, h.mpcs (n * h.dim + i) = some m → expandSolution (preprocess h) u n i =
        (m.masters.map fun a => a.coeff * expandSolution (preprocess h) u a.node a.dof).sum) := by
  refine ⟨fun hp hs => ?_, fun f hf hb => ?_, fun m hm => ?_⟩
  · rw [expand_free h u n i hp hs]
    unfold eqnValue
    have hb : blocked h (n, i) = false := by
      cases hb : blocked h (n, i) with
      | false => rfl
      | true =>
        rcases (blocked_iff h n i).mp hb with hx | hx
        · exact absurd hx hp
        · exact absurd hx hs
    rw [eqn_preprocess h hu, hb]
    exact ⟨_, rfl, rfl⟩
  · exact expand_prescribed h u n i (hc.apart n i ⟨f, hf, hb⟩) f hf hb
  · have hslave : Slave h n i := ⟨m, hm⟩
    have hnp : ¬ Prescribed h n i := fun hp => hc.apart n i hp hslave
    have hm' : (preprocess h).mpcs (key (preprocess h).dim n i) = some m := hm
    have h1 : expand1 (preprocess h) u n i = 0 := by
      have he : (preprocess h).eqn n i = none := by
        rw [eqn_preprocess h hu, if_pos ((blocked_iff h n i).mpr (.inr hslave))]
      unfold expand1 eqnValue
      rw [he]
      cases hf : (preprocess h).fixed n with
      | none => rfl
      | some f =>
        have : f.dir.testBit i = false := by
          cases hb : f.dir.testBit i with
          | false => rfl
          | true => exact absurd ⟨f, hf, hb⟩ hnp
        simp [this]
    unfold expandSolution
    rw [hm']
    simp only
    rw [masterSum_eq, h1, zero_add]
    congr 1
    refine List.map_congr_left fun a ha => ?_
    rw [mul_comm]
    congr 1
    have hau := hc.inside n i m hm a ha
    have hns := hc.unchained n i m hm a ha
    change _ = expandSolution (preprocess h) u a.node a.dof
    by_cases hap : Prescribed h a.node a.dof
    · obtain ⟨f, hf, hb⟩ := hap
      rw [expand_prescribed h u a.node a.dof hns f hf hb, hc.zero n i m hm a ha f hf hb]
      unfold eqnValue
      rw [eqn_preprocess h hau, if_pos ((blocked_iff h _ _).mpr (.inl ⟨f, hf, hb⟩))]
    · rw [expand_free h u a.node a.dof hap hns]

/-- C42: the values handed to an element are those of the expanded solution. -/
theorem C42_extract (h : Handler K) (hapart : ∀ n i, Prescribed h n i → ¬ Slave h n i) (u : Nat → K) (n i : Nat)
    (hu : Unknown h n i) : extractValue (preprocess h) u n i = some (expandSolution (preprocess h) u n i) := by
  unfold extractValue
  by_cases hp : Prescribed h n i
  · have hx := hp
    obtain ⟨f, hf, hb⟩ := hx
    rw [if_pos ((fixedDof_iff (preprocess h) n i).mpr hp), expand_prescribed h u n i (hapart n i hp) f hf hb]
    have hf' : (preprocess h).fixed n = some f := hf
    rw [hf']; rfl
  · rw [if_neg fun hx => hp ((fixedDof_iff (preprocess h) n i).mp hx)]
    by_cases hs : Slave h n i
    · have hx := hs
      obtain ⟨m, hm⟩ := hx
      have hm' : (preprocess h).mpcs (key (preprocess h).dim n i) = some m := hm
      have he : (preprocess h).eqn n i = none := by
        rw [eqn_preprocess h hu, if_pos ((blocked_iff h n i).mpr (.inr hs))]
      unfold expandSolution
      rw [hm']
      simp only
      congr 2
      unfold expand1 eqnValue
      rw [he]
      cases hf : (preprocess h).fixed n with
      | none => rfl
      | some f =>
        have : f.dir.testBit i = false := by
          cases hb : f.dir.testBit i with
          | false => rfl
          | true => exact absurd ⟨f, hf, hb⟩ hp
        simp [this]
    · rw [expand_free h u n i hp hs]
      unfold eqnValue
      have hm : (preprocess h).mpcs (key (preprocess h).dim n i) = none := by
        cases hc : (preprocess h).mpcs (key (preprocess h).dim n i) with
        | none => rfl
        | some m => exact absurd ⟨m, hc⟩ hs
      rw [hm]
      have hb : blocked h (n, i) = false := by
        cases hb : blocked h (n, i) with
        | false => rfl
        | true =>
          rcases (blocked_iff h n i).mp hb with hx | hx
          · exact absurd hx hp
          · exact absurd hx hs
      rw [eqn_preprocess h hu, hb]
      rfl

/-- Node 0 is fixed to zero in direction 0, direction 0 of node 2 is half of node 0 and twice node 1. -/
def clean : Handler ℚ :=
  addMPC (updateFixedNode (Handler.new 1 3) 0 ⟨1, fun _ => 0⟩) ⟨2, 0, 0, [⟨0, 0, 1/2⟩, ⟨1, 0, 2⟩]⟩

theorem clean_mpcs {k : Nat} {m : Mpc ℚ} (h : clean.mpcs k = some m) :
    k = 2 ∧ m = ⟨2, 0, 0, [⟨0, 0, 1/2⟩, ⟨1, 0, 2⟩]⟩ := by
  have hred : clean.mpcs k = if k = 2 ∧ (none : Option (Mpc ℚ)) = none then some ⟨2, 0, 0, [⟨0, 0, 1/2⟩, ⟨1, 0, 2⟩]⟩ else none := rfl
  rw [hred] at h
  by_cases hk : k = 2
  · rw [if_pos ⟨hk, rfl⟩] at h; exact ⟨hk, (Option.some.inj h).symm⟩
  · rw [if_neg fun hx => hk hx.1] at h; cases h

example : Clean clean where
  apart := by
    rintro n i ⟨f, hf, _⟩ ⟨m, hm⟩
    have h1 : clean.fixed n = if n = 0 then some ⟨1, fun _ => 0⟩ else none := rfl
    have h2 := (clean_mpcs hm).1
    have h3 : clean.dim = 1 := rfl
    by_cases hn : n = 0
    · subst hn
      have h4 : i = 2 := by omega
      subst h4
      rw [h1] at hf
      simp at hf
      subst hf
      rename_i hb
      exact absurd hb (by decide)
    · rw [h1] at hf; simp [hn] at hf
  inside := by
    intro n i m hm a ha
    rw [(clean_mpcs hm).2] at ha
    simp at ha
    rcases ha with rfl | rfl <;> exact ⟨by decide, by decide⟩
  unchained := by
    intro n i m hm a ha
    rw [(clean_mpcs hm).2] at ha
    rintro ⟨m', hm'⟩
    have h2 := (clean_mpcs hm').1
    simp at ha
    rcases ha with rfl | rfl <;> revert h2 <;> decide
  zero := by
    intro n i m hm a ha f hf hb
    have h1 : clean.fixed a.node = if a.node = 0 then some ⟨1, fun _ => 0⟩ else none := rfl
    rw [h1] at hf
    split at hf
    · cases hf; rfl
    · cases hf

example : (preprocess clean).eqn 1 0 = some 0 ∧ expandSolution (preprocess clean) (fun _ => 5) 2 0 = 10 := by decide +kernel

/-- C42 fails for a prescribed master that is not zero: the slave should be twice the prescribed value 3 but is zero. -/
theorem C42_violated_master : ∃ (h : Handler ℚ), h = runCalls (Handler.new 1 2) [.fix 0 ⟨1, fun _ => 3⟩, .constrain ⟨1, 0, 0, [⟨0, 0, 2⟩]⟩] ∧
    ∀ u, expandSolution (preprocess h) u 0 0 = 3 ∧ expandSolution (preprocess h) u 1 0 = 0 :=
  ⟨_, rfl, fun u => ⟨rfl, rfl⟩⟩

/-- C42 fails for the constant of a constraint: `x = 3` without masters gives zero. -/
theorem C42_violated_offset : ∃ (h : Handler ℚ), h = runCalls (Handler.new 1 2) [.constrain ⟨1, 0, 3, []⟩] ∧
    ∀ u, expandSolution (preprocess h) u 1 0 = 0 := ⟨_, rfl, fun u => rfl⟩

/-- C42 fails when an unknown is first constrained and then prescribed: both are added up. -/
theorem C42_violated_order : ∃ (h : Handler ℚ),
    h = runCalls (Handler.new 1 2) [.constrain ⟨1, 0, 0, [⟨0, 0, 1⟩]⟩, .fix 1 ⟨1, fun _ => 3⟩] ∧
      expandSolution (preprocess h) (fun _ => 4) 1 0 = 7 := ⟨_, rfl, by decide +kernel⟩

end Verif.Asm
