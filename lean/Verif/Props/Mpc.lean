import Verif.Spec.Mpc
import Mathlib.Tactic.Linarith
import Mathlib.Tactic.Ring
import Mathlib.Tactic.Tauto
import Mathlib.Data.List.Induction

/-!
C137: constraint equations: order and sets, changes, text.
-/

namespace Verif.Mpc

open Verif.Compare Spec

section order

variable {K : Type} [Field K] [LinearOrder K]

theorem dbl_irrefl (a : Dbl K) : a.lt a = false := by
  cases a with
  | fin x => simp [Dbl.lt]
  | inf b => cases b <;> rfl
  | nan => rfl

theorem dbl_trans (a b c : Dbl K) (h1 : a.lt b = true) (h2 : b.lt c = true) : a.lt c = true := by
  cases a with
  | fin x =>
    cases b with
    | fin y =>
      cases c with
      | fin z =>
        simp only [Dbl.lt, decide_eq_true_eq] at *
        exact lt_trans h1 h2
      | inf _ => exact h2
      | nan => exact h2
    | inf p =>
      cases c with
      | fin z => simp_all [Dbl.lt]
      | inf q => simp_all [Dbl.lt]
      | nan => exact h2
    | nan => simp [Dbl.lt] at h1
  | inf p =>
    cases b with
    | fin y =>
      cases c with
      | fin z => exact h1
      | inf q => simp_all [Dbl.lt]
      | nan => exact h2
    | inf r =>
      cases c with
      | fin z => simp_all [Dbl.lt]
      | inf q => simp_all [Dbl.lt]
      | nan => exact h2
    | nan => simp [Dbl.lt] at h1
  | nan => simp [Dbl.lt] at h1

theorem dbl_total (a b : Dbl K) (ha : a ≠ .nan) (hb : b ≠ .nan) (h1 : a.lt b = false) (h2 : b.lt a = false) : a = b := by
  cases a with
  | fin x =>
    cases b with
    | fin y =>
      simp only [Dbl.lt, decide_eq_false_iff_not, not_lt] at h1 h2
      rw [le_antisymm h2 h1]
    | inf q => simp_all [Dbl.lt]
    | nan => exact absurd rfl hb
  | inf p =>
    cases b with
    | fin y => simp_all [Dbl.lt]
    | inf q => cases p <;> cases q <;> simp_all [Dbl.lt]
    | nan => exact absurd rfl hb
  | nan => exact absurd rfl ha

end order

section lists

variable {C : Type}

/-- `a.less b`, unfolded. -/
theorem dof_less_iff (only : Bool) (lt : C → C → Bool) (a b : Dof C) :
    a.less only lt b = true ↔ a.node < b.node ∨ a.node = b.node ∧ (a.dof < b.dof ∨ a.dof = b.dof ∧ only = false ∧ lt a.coeff b.coeff = true) := by
  unfold Dof.less
  split
  · exact iff_of_true rfl (Or.inl ‹_›)
  · split
    · exact iff_of_false (by simp) (by omega)
    · split
      · exact iff_of_true rfl (Or.inr ⟨by omega, Or.inl ‹_›⟩)
      · split
        · exact iff_of_false (by simp) (by omega)
        · have h1 : a.node = b.node := by omega
          have h2 : a.dof = b.dof := by omega
          cases only with
          | true => simp [h1, h2]
          | false => simp [h1, h2]

theorem dof_irrefl (only : Bool) (lt : C → C → Bool) (hi : ∀ a, lt a a = false) (a : Dof C) : a.less only lt a = false := by
  rw [Bool.eq_false_iff]
  intro h
  rw [dof_less_iff] at h
  rcases h with h | ⟨_, h | ⟨_, _, h⟩⟩
  · omega
  · omega
  · rw [hi] at h
    cases h

theorem dof_trans (only : Bool) (lt : C → C → Bool) (ht : ∀ a b c, lt a b = true → lt b c = true → lt a c = true) (a b c : Dof C)
    (h1 : a.less only lt b = true) (h2 : b.less only lt c = true) : a.less only lt c = true := by
  rw [dof_less_iff] at *
  rcases h1 with h1 | ⟨h1, h1' | ⟨h1', h3, h4⟩⟩ <;> rcases h2 with h2 | ⟨h2, h2' | ⟨h2', h5, h6⟩⟩
  all_goals first
    | exact Or.inl (by omega)
    | exact Or.inr ⟨by omega, Or.inl (by omega)⟩
    | exact Or.inr ⟨by omega, Or.inr ⟨by omega, h3, ht _ _ _ h4 h6⟩⟩

theorem dof_same (lt : C → C → Bool) (a b : Dof C) (hc : lt a.coeff b.coeff = false → lt b.coeff a.coeff = false → a.coeff = b.coeff)
    (h1 : a.less false lt b = false) (h2 : b.less false lt a = false) : a = b := by
  have h1' := mt (dof_less_iff false lt a b).mpr (by simp [h1])
  have h2' := mt (dof_less_iff false lt b a).mpr (by simp [h2])
  obtain ⟨n, d, c⟩ := a
  obtain ⟨n', d', c'⟩ := b
  simp only [not_or, not_and, true_and, forall_true_left] at h1' h2' hc
  obtain rfl : n = n' := by omega
  obtain rfl : d = d' := by
    have := (h1'.2 rfl).1
    have := (h2'.2 rfl).1
    omega
  have ha : lt c c' = false := by
    have := (h1'.2 rfl).2 rfl
    simpa using this
  have hb : lt c' c = false := by
    have := (h2'.2 rfl).2 rfl
    simpa using this
  rw [hc ha hb]

theorem dof_slave (lt : C → C → Bool) (a b : Dof C) :
    a.less true lt b = false ∧ b.less true lt a = false ↔ a.node = b.node ∧ a.dof = b.dof := by
  rw [Bool.eq_false_iff, Bool.eq_false_iff, Ne, Ne, dof_less_iff, dof_less_iff]
  simp only [Bool.true_eq_false, false_and, and_false, or_false]
  omega

/-- An asymmetric order on what `P` holds for. -/
theorem asymm_of {α : Type} (before : α → α → Bool) (hi : ∀ a, before a a = false)
    (ht : ∀ a b c, before a b = true → before b c = true → before a c = true) (a b : α) (h : before a b = true) : before b a = false := by
  rw [Bool.eq_false_iff]
  intro h'
  have := ht a b a h h'
  rw [hi] at this
  cases this

theorem masters_irrefl (lt : C → C → Bool) (hi : ∀ a, lt a a = false) (l : List (Dof C)) : mastersLess false lt l l = false := by
  induction l with
  | nil => rfl
  | cons a l ih =>
    unfold mastersLess
    rw [dof_irrefl _ _ hi]
    simpa using ih

theorem masters_same (lt : C → C → Bool) (P : C → Prop) (hs : ∀ a b, P a → P b → lt a b = false → lt b a = false → a = b) (l r : List (Dof C))
    (hl : ∀ d ∈ l, P d.coeff) (hr : ∀ d ∈ r, P d.coeff) (h1 : mastersLess false lt l r = false) (h2 : mastersLess false lt r l = false) : l = r := by
  induction l generalizing r with
  | nil =>
    cases r with
    | nil => rfl
    | cons b r => simp [mastersLess] at h1
  | cons a l ih =>
    cases r with
    | nil => simp [mastersLess] at h2
    | cons b r =>
      unfold mastersLess at h1 h2
      by_cases hab : a.less false lt b = true
      · rw [if_pos hab] at h1
        cases h1
      · by_cases hba : b.less false lt a = true
        · rw [if_pos hba] at h2
          cases h2
        · rw [if_neg hab, if_neg hba] at h1
          rw [if_neg hba, if_neg hab] at h2
          rw [dof_same lt a b (hs _ _ (hl a (by simp)) (hr b (by simp))) (by simpa using hab) (by simpa using hba),
            ih r (fun d hd => hl d (by simp [hd])) (fun d hd => hr d (by simp [hd])) h1 h2]

theorem masters_trans (lt : C → C → Bool) (P : C → Prop) (hi : ∀ a, lt a a = false)
    (ht : ∀ a b c, lt a b = true → lt b c = true → lt a c = true)
    (hs : ∀ a b, P a → P b → lt a b = false → lt b a = false → a = b) (l m r : List (Dof C))
    (hl : ∀ d ∈ l, P d.coeff) (hm : ∀ d ∈ m, P d.coeff) (hr : ∀ d ∈ r, P d.coeff)
    (h1 : mastersLess false lt l m = true) (h2 : mastersLess false lt m r = true) : mastersLess false lt l r = true := by
  induction l generalizing m r with
  | nil =>
    cases m with
    | nil => simp [mastersLess] at h1
    | cons b m =>
      cases r with
      | nil => simp [mastersLess] at h2
      | cons c r => simp [mastersLess]
  | cons a l ih =>
    cases m with
    | nil => simp [mastersLess] at h1
    | cons b m =>
      cases r with
      | nil => simp [mastersLess] at h2
      | cons c r =>
        have T := dof_trans false lt ht
        have A := asymm_of (Dof.less false lt) (dof_irrefl false lt hi) T
        have S := fun x y (hx : P x.coeff) (hy : P y.coeff) => dof_same lt x y (hs _ _ hx hy)
        have pa := hl a (by simp)
        have pb := hm b (by simp)
        have pc := hr c (by simp)
        unfold mastersLess at h1 h2 ⊢
        by_cases hac : a.less false lt c = true
        · rw [if_pos hac]
        rw [if_neg hac]
        by_cases hab : a.less false lt b = true
        · by_cases hbc : b.less false lt c = true
          · exact absurd (T _ _ _ hab hbc) hac
          · rw [if_neg hbc] at h2
            by_cases hcb : c.less false lt b = true
            · rw [if_pos hcb] at h2
              cases h2
            · obtain rfl := S b c pb pc (by simpa using hbc) (by simpa using hcb)
              exact absurd hab hac
        · rw [if_neg hab] at h1
          by_cases hba : b.less false lt a = true
          · rw [if_pos hba] at h1
            cases h1
          · obtain rfl := S a b pa pb (by simpa using hab) (by simpa using hba)
            rw [if_neg hba] at h1
            by_cases hca : c.less false lt a = true
            · rw [if_neg hac, if_pos hca] at h2
              cases h2
            · rw [if_neg hac, if_neg hca] at h2
              rw [if_neg hca]
              exact ih m r (fun d hd => hl d (by simp [hd])) (fun d hd => hm d (by simp [hd])) (fun d hd => hr d (by simp [hd])) h1 h2

end lists

section sets

variable {K : Type} [Field K] [LinearOrder K]

/-- Constraints without `nan` are ordered by `MPC::Less`, and only equal constraints have no order between them. -/
theorem C137_order : Orders (less (C := Dbl K) false Dbl.lt) Numbers Eq := by
  have hi := dbl_irrefl (K := K)
  have ht := dbl_trans (K := K)
  have hs : ∀ a b : Dbl K, a ≠ .nan → b ≠ .nan → a.lt b = false → b.lt a = false → a = b := dbl_total
  have T := dof_trans false (Dbl.lt (K := K)) ht
  have I := dof_irrefl false (Dbl.lt (K := K)) hi
  refine ⟨?_, ?_, ?_⟩
  · intro a _
    cases a with
    | none => rfl
    | some a =>
      simp only [less, I]
      simpa using masters_irrefl _ hi a.master
  · intro a b c ha hb hc h1 h2
    cases c with
    | none => cases h2
    | some c =>
      cases b with
      | none => cases h1
      | some b =>
        cases a with
        | none => rfl
        | some a =>
          obtain ⟨ha, ha'⟩ := ha a rfl
          obtain ⟨hb, hb'⟩ := hb b rfl
          obtain ⟨hc, hc'⟩ := hc c rfl
          simp only [less] at h1 h2 ⊢
          by_cases hac : a.slave.less false Dbl.lt c.slave = true
          · rw [if_pos hac]
          rw [if_neg hac]
          have S := fun x y (hx : x.coeff ≠ Dbl.nan) (hy : y.coeff ≠ Dbl.nan) => dof_same (Dbl.lt (K := K)) x y (hs _ _ hx hy)
          by_cases hab : a.slave.less false Dbl.lt b.slave = true
          · by_cases hbc : b.slave.less false Dbl.lt c.slave = true
            · exact absurd (T _ _ _ hab hbc) hac
            · rw [if_neg hbc] at h2
              by_cases hcb : c.slave.less false Dbl.lt b.slave = true
              · rw [if_pos hcb] at h2
                cases h2
              · rw [S _ _ hb hc (by simpa using hbc) (by simpa using hcb)] at hab
                exact absurd hab hac
          · rw [if_neg hab] at h1
            by_cases hba : b.slave.less false Dbl.lt a.slave = true
            · rw [if_pos hba] at h1
              cases h1
            · have e := S _ _ ha hb (by simpa using hab) (by simpa using hba)
              rw [← e] at h2
              rw [if_neg hba] at h1
              by_cases hca : c.slave.less false Dbl.lt a.slave = true
              · rw [if_neg hac, if_pos hca] at h2
                cases h2
              · rw [if_neg hac, if_neg hca] at h2
                rw [if_neg hca]
                exact masters_trans _ (· ≠ .nan) hi ht hs _ _ _ ha' hb' hc' h1 h2
  · intro a b ha hb
    constructor
    · rintro ⟨h1, h2⟩
      cases b with
      | none =>
        cases a with
        | none => rfl
        | some a => cases h2
      | some b =>
        cases a with
        | none => cases h1
        | some a =>
          obtain ⟨ha, ha'⟩ := ha a rfl
          obtain ⟨hb, hb'⟩ := hb b rfl
          simp only [less] at h1 h2
          by_cases hab : a.slave.less false Dbl.lt b.slave = true
          · rw [if_pos hab] at h1
            cases h1
          · by_cases hba : b.slave.less false Dbl.lt a.slave = true
            · rw [if_pos hba] at h2
              cases h2
            · rw [if_neg hab, if_neg hba] at h1
              rw [if_neg hba, if_neg hab] at h2
              have e1 := dof_same _ _ _ (hs _ _ ha hb) (by simpa using hab) (by simpa using hba)
              have e2 := masters_same _ (· ≠ Dbl.nan) hs _ _ ha' hb' h1 h2
              obtain ⟨x, y⟩ := a
              obtain ⟨x', y'⟩ := b
              simp only at e1 e2
              rw [e1, e2]
    · rintro rfl
      have : less false Dbl.lt a a = false := by
        cases a with
        | none => rfl
        | some a =>
          simp only [less, I]
          simpa using masters_irrefl _ hi a.master
      exact ⟨this, this⟩

/-- With `compareSlaveDofOnly` constraints are ordered by their slave, whatever their coefficients are, and constraints with the same slave have no
order between them. -/
theorem C137_order_slave : Orders (less (C := Dbl K) true Dbl.lt) (fun _ => True) fun a b => unknown a = unknown b := by
  have hi := dbl_irrefl (K := K)
  have ht := dbl_trans (K := K)
  have T := dof_trans true (Dbl.lt (K := K)) ht
  have I := dof_irrefl true (Dbl.lt (K := K)) hi
  have E : ∀ a b : Constraint (Dbl K), less true Dbl.lt (some a) (some b) = a.slave.less true Dbl.lt b.slave := by
    intro a b
    simp only [less]
    by_cases h : a.slave.less true Dbl.lt b.slave = true
    · rw [if_pos h, h]
    · rw [if_neg h]
      simp only [Bool.not_eq_true] at h
      rw [h]
      by_cases h' : b.slave.less true Dbl.lt a.slave = true
      · rw [if_pos h']
      · rw [if_neg h']
        simp
  refine ⟨?_, ?_, ?_⟩
  · intro a _
    cases a with
    | none => rfl
    | some a => rw [E, I]
  · intro a b c _ _ _ h1 h2
    cases c with
    | none => cases h2
    | some c =>
      cases b with
      | none => cases h1
      | some b =>
        cases a with
        | none => rfl
        | some a =>
          rw [E] at *
          exact T _ _ _ h1 h2
  · intro a b _ _
    cases a with
    | none =>
      cases b with
      | none => exact iff_of_true ⟨rfl, rfl⟩ rfl
      | some b => exact iff_of_false (by rintro ⟨h, _⟩; cases h) (by simp [unknown])
    | some a =>
      cases b with
      | none => exact iff_of_false (by rintro ⟨_, h⟩; cases h) (by simp [unknown])
      | some b =>
        rw [E, E, dof_slave]
        simp [unknown]

/-! ### sets -/

theorem mem_insert {α : Type} (before : α → α → Bool) (s : List α) (x y : α) (h : (s.any fun z => !before x z && !before z x) = false) :
    y ∈ insert before s x ↔ y = x ∨ y ∈ s := by
  unfold insert
  rw [if_neg (by simp [h])]
  rw [List.mem_append, List.mem_cons]
  conv_rhs => rw [← List.takeWhile_append_dropWhile (p := fun z => before z x) (l := s), List.mem_append]
  tauto

theorem mem_takeWhile_imp {α : Type} (p : α → Bool) (s : List α) (x : α) (h : x ∈ s.takeWhile p) : p x = true := by
  induction s with
  | nil => cases h
  | cons a s ih =>
    rw [List.takeWhile_cons] at h
    by_cases ha : p a = true
    · rw [if_pos ha] at h
      rcases List.mem_cons.mp h with rfl | h
      · exact ha
      · exact ih h
    · rw [if_neg ha] at h
      cases h

/-- A set in order: what `insert` keeps. -/
theorem insert_sorted {α : Type} (before : α → α → Bool) (P : α → Prop) (same : α → α → Prop) (ho : Orders before P same) (s : List α) (x : α)
    (hP : ∀ y ∈ s, P y) (hx : P x) (h : s.Pairwise fun a b => before a b = true) : (insert before s x).Pairwise fun a b => before a b = true := by
  by_cases hin : (s.any fun z => !before x z && !before z x) = true
  · unfold insert
    rw [if_pos hin]
    exact h
  · unfold insert
    rw [if_neg hin]
    simp only [List.any_eq_true, Bool.and_eq_true, Bool.not_eq_true', not_exists, not_and] at hin
    rw [List.pairwise_append]
    have hd : ∀ y ∈ s.dropWhile fun z => before z x, before x y = true := by
      induction s with
      | nil => intro y hy; cases hy
      | cons a s ih =>
        intro y hy
        rw [List.dropWhile_cons] at hy
        by_cases ha : before a x = true
        · rw [if_pos ha] at hy
          exact ih (fun z hz => hP z (by simp [hz])) (List.pairwise_cons.mp h).2 (fun z hz => hin z (by simp [hz])) y hy
        · rw [if_neg ha] at hy
          have hxa : before x a = true := by
            by_contra hc
            exact hin a (by simp) (by simpa using hc) (by simpa using ha)
          rcases List.mem_cons.mp hy with rfl | hy'
          · exact hxa
          · exact ho.trans x a y hx (hP a (by simp)) (hP y (by simp [hy'])) hxa ((List.pairwise_cons.mp h).1 y hy')
    refine ⟨h.sublist (List.takeWhile_sublist _), List.pairwise_cons.mpr ⟨hd, h.sublist (List.dropWhile_sublist _)⟩, ?_⟩
    intro a ha b hb
    have hax : before a x = true := by
      exact mem_takeWhile_imp (fun y => before y x) _ _ ha
    have has : a ∈ s := (List.takeWhile_sublist _).subset ha
    rcases List.mem_cons.mp hb with rfl | hb
    · exact hax
    · exact ho.trans a x b (hP a has) hx (hP b ((List.dropWhile_sublist _).subset hb)) hax (hd b hb)

/-- The set after insertions: in order, and with the first of every group of elements that are the same. -/
theorem set_spec {α : Type} (before : α → α → Bool) (P : α → Prop) (same : α → α → Prop) (hr : ∀ a, same a a) (hsy : ∀ a b, same a b → same b a)
    (htr : ∀ a b c, same a b → same b c → same a c) (ho : Orders before P same) (l : List α) (hP : ∀ x ∈ l, P x) :
    ((l.foldl (insert before) []).Pairwise fun a b => before a b = true) ∧
      (∀ x, x ∈ l.foldl (insert before) [] ↔ ∃ i : Nat, l[i]? = some x ∧ ∀ (j : Nat) y, j < i → l[j]? = some y → ¬ same y x) ∧
      ∀ y ∈ l, ∃ z ∈ l.foldl (insert before) [], same z y := by
  induction l using List.reverseRecOn with
  | nil =>
    refine ⟨List.Pairwise.nil, fun x => ?_, fun y hy => by cases hy⟩
    exact iff_of_false (by simp) (by simp)
  | append_singleton l z ih =>
    obtain ⟨h1, h2, h3⟩ := ih fun x hx => hP x (by simp [hx])
    rw [List.foldl_append, List.foldl_cons, List.foldl_nil]
    obtain ⟨s, hs⟩ : ∃ s, s = l.foldl (insert before) [] := ⟨_, rfl⟩
    rw [← hs] at h1 h2 h3 ⊢
    have hsl : ∀ x ∈ s, x ∈ l := by
      intro x hx
      obtain ⟨i, hi, -⟩ := (h2 x).mp hx
      exact List.mem_of_getElem? hi
    have hz : P z := hP z (by simp)
    have hPs : ∀ x ∈ s, P x := fun x hx => hP x (by simp [hsl x hx])
    have hold : ∀ x, (∃ i : Nat, i < l.length ∧ (l ++ [z])[i]? = some x ∧ ∀ (j : Nat) y, j < i → (l ++ [z])[j]? = some y → ¬ same y x) ↔ x ∈ s := by
      intro x
      rw [h2]
      constructor
      · rintro ⟨i, hi, h, h'⟩
        rw [List.getElem?_append_left hi] at h
        refine ⟨i, h, fun j y hj hy => h' j y hj ?_⟩
        rw [List.getElem?_append_left (by omega)]
        exact hy
      · rintro ⟨i, h, h'⟩
        have hi := (List.getElem?_eq_some_iff.mp h).1
        refine ⟨i, hi, by rw [List.getElem?_append_left hi]; exact h, fun j y hj hy => h' j y hj ?_⟩
        rw [List.getElem?_append_left (by omega)] at hy
        exact hy
    have hsplit : ∀ x, (∃ i : Nat, (l ++ [z])[i]? = some x ∧ ∀ (j : Nat) y, j < i → (l ++ [z])[j]? = some y → ¬ same y x) ↔
        x ∈ s ∨ (x = z ∧ ∀ y ∈ l, ¬ same y z) := by
      intro x
      rw [← hold]
      constructor
      · rintro ⟨i, h, h'⟩
        by_cases hi : i < l.length
        · exact Or.inl ⟨i, hi, h, h'⟩
        · have hi2 := (List.getElem?_eq_some_iff.mp h).1
          rw [List.length_append, List.length_singleton] at hi2
          obtain rfl : i = l.length := by omega
          rw [List.getElem?_append_right le_rfl, Nat.sub_self] at h
          obtain rfl : z = x := by simpa using h
          refine Or.inr ⟨rfl, fun y hy => ?_⟩
          obtain ⟨j, hj, e⟩ := List.mem_iff_getElem.mp hy
          refine h' j y hj ?_
          rw [List.getElem?_append_left hj, List.getElem?_eq_getElem hj, e]
      · rintro (⟨i, _, h, h'⟩ | ⟨rfl, h⟩)
        · exact ⟨i, h, h'⟩
        · refine ⟨l.length, by simp, fun j y hj hy => ?_⟩
          rw [List.getElem?_append_left hj] at hy
          exact h y (List.mem_of_getElem? hy)
    refine ⟨insert_sorted before P same ho s z hPs hz h1, ?_, ?_⟩
    · intro x
      rw [hsplit]
      by_cases hin : (s.any fun y => !before z y && !before y z) = true
      · unfold insert
        rw [if_pos hin]
        refine ⟨Or.inl, ?_⟩
        rintro (h | ⟨rfl, h⟩)
        · exact h
        · obtain ⟨y, hy, h'⟩ := List.any_eq_true.mp hin
          simp only [Bool.and_eq_true, Bool.not_eq_true'] at h'
          exact absurd (hsy _ _ ((ho.same_iff _ _ hz (hPs y hy)).mp h')) (h y (hsl y hy))
      · rw [mem_insert before s z x (by simpa using hin), or_comm]
        refine or_congr Iff.rfl ⟨fun h => ⟨h, fun y hy hc => ?_⟩, fun h => h.1⟩
        obtain ⟨w, hw, hwy⟩ := h3 y hy
        have := (ho.same_iff z w hz (hPs w hw)).mpr (hsy _ _ (htr _ _ _ hwy hc))
        exact hin (List.any_eq_true.mpr ⟨w, hw, by simp [this.1, this.2]⟩)
    · intro y hy
      by_cases hin : (s.any fun y => !before z y && !before y z) = true
      · have e : insert before s z = s := by
          unfold insert
          rw [if_pos hin]
        rw [e]
        rcases List.mem_append.mp hy with hy | hy
        · exact h3 y hy
        · obtain rfl := List.mem_singleton.mp hy
          obtain ⟨w, hw, h'⟩ := List.any_eq_true.mp hin
          simp only [Bool.and_eq_true, Bool.not_eq_true'] at h'
          exact ⟨w, hw, hsy _ _ ((ho.same_iff _ _ hz (hPs w hw)).mp h')⟩
      · have m := fun x => mem_insert before s z x (by simpa using hin)
        rcases List.mem_append.mp hy with hy | hy
        · obtain ⟨w, hw, h⟩ := h3 y hy
          exact ⟨w, (m w).mpr (Or.inr hw), h⟩
        · obtain rfl := List.mem_singleton.mp hy
          exact ⟨y, (m y).mpr (Or.inl rfl), hr y⟩

/-- A set of constraints without `nan` holds each constraint that was inserted exactly once, in order. -/
theorem C137_set (l : List (Option (Constraint (Dbl K)))) (h : ∀ x ∈ l, Numbers x) :
    (setOf false Dbl.lt l).Nodup ∧ ((setOf false Dbl.lt l).Pairwise fun a b => less false Dbl.lt a b = true) ∧ ∀ x, x ∈ setOf false Dbl.lt l ↔ x ∈ l := by
  obtain ⟨h1, h2, h3⟩ := set_spec _ _ _ (fun _ => rfl) (fun _ _ h => h.symm) (fun _ _ _ h h' => h.trans h') (C137_order (K := K)) l h
  have hm : ∀ x, x ∈ setOf false Dbl.lt l ↔ x ∈ l := by
    intro x
    constructor
    · intro hx
      obtain ⟨i, hi, _⟩ := (h2 x).mp hx
      exact List.mem_of_getElem? hi
    · intro hx
      obtain ⟨z, hz, rfl⟩ := h3 x hx
      exact hz
  refine ⟨?_, h1, hm⟩
  refine List.Pairwise.imp_of_mem ?_ h1
  rintro a b ha _ hab rfl
  rw [C137_order.irrefl a (h a ((hm a).mp ha))] at hab
  cases hab

/-- With `compareSlaveDofOnly` a set holds for every slave exactly the constraint that was inserted first. -/
theorem C137_set_slave (l : List (Option (Constraint (Dbl K)))) :
    ((setOf true Dbl.lt l).Pairwise fun a b => unknown a ≠ unknown b) ∧
      ∀ x, x ∈ setOf true Dbl.lt l ↔ ∃ i : Nat, l[i]? = some x ∧ ∀ (j : Nat) y, j < i → l[j]? = some y → unknown y ≠ unknown x := by
  obtain ⟨h1, h2, -⟩ := set_spec _ _ (fun a b => unknown a = unknown b) (fun _ => rfl) (fun _ _ h => h.symm) (fun _ _ _ h h' => h.trans h')
    (C137_order_slave (K := K)) l
    fun _ _ => trivial
  refine ⟨h1.imp ?_, h2⟩
  intro a b hab hc
  have := ((C137_order_slave (K := K)).same_iff a b trivial trivial).mpr hc
  rw [this.1] at hab
  cases hab

end sets

/-- A constraint of the examples: slave 1,1 with a constant and one master. -/
def exMpc (c m : Dbl Rat) : Option (Constraint (Dbl Rat)) := some ⟨⟨1, 1, c⟩, [⟨2, 1, m⟩]⟩

example : setOf false Dbl.lt [exMpc (.fin 0) (.fin 2), exMpc (.fin 0) (.fin 1), exMpc (.fin 0) (.fin 2), none] =
    [none, exMpc (.fin 0) (.fin 1), exMpc (.fin 0) (.fin 2)] ∧
    setOf true Dbl.lt [exMpc (.fin 0) (.fin 2), exMpc (.fin 0) (.fin 1), none] = [none, exMpc (.fin 0) (.fin 2)] := by
  decide +kernel

/-- A coefficient that is `nan` breaks the order: the constraint is the same as two others that differ, and a constraint that was inserted is not in
the set. -/
theorem C137_violated_nan : ∃ a b c : Option (Constraint (Dbl Rat)), Numbers a ∧ Numbers c ∧ less false Dbl.lt a c = true ∧
    (less false Dbl.lt a b = false ∧ less false Dbl.lt b a = false) ∧ (less false Dbl.lt b c = false ∧ less false Dbl.lt c b = false) ∧
    c ∉ setOf false Dbl.lt [b, c] := by
  refine ⟨exMpc (.fin 0) (.fin 1), exMpc (.fin 0) .nan, exMpc (.fin 0) (.fin 2), ?_, ?_, by decide +kernel, by decide +kernel, by decide +kernel,
    by decide +kernel⟩
  · intro c hc
    cases hc
    exact ⟨by decide, by decide⟩
  · intro c hc
    cases hc
    exact ⟨by decide, by decide⟩

section edit

variable {K : Type} [Field K] [LinearOrder K] [IsStrictOrderedRing K]

theorem value_master (u : Int → Int → K) (m : Constraint K) (l : List (Dof K)) :
    value u { m with master := l } = m.slave.coeff + (l.map fun d => d.coeff * u d.node d.dof).sum := rfl

/-- Changing a constraint: a master is added with its coefficient, or left out if the coefficient is within the tolerance, which changes the slave by at
most the tolerance times the master. -/
theorem C137_add (u : Int → Int → K) (m : Constraint K) (n d : Int) (c tol : K) (ht : 0 ≤ tol) :
    (tol < |c| → value u (m.addMaster n d c tol) = value u m + c * u n d) ∧
      (|c| ≤ tol → m.addMaster n d c tol = m) ∧ |value u (m.addMaster n d c tol) - (value u m + c * u n d)| ≤ tol * |u n d| := by
  have h1 : tol < |c| → value u (m.addMaster n d c tol) = value u m + c * u n d := by
    intro h
    unfold Constraint.addMaster
    have : c < -tol ∨ c > tol := by
      rcases lt_abs.mp h with h | h
      · exact Or.inr h
      · exact Or.inl (by linarith)
    rw [if_pos this, value_master, List.map_append, List.sum_append]
    unfold value
    simp [add_assoc]
  have h2 : |c| ≤ tol → m.addMaster n d c tol = m := by
    intro h
    unfold Constraint.addMaster
    obtain ⟨ha, hb⟩ := abs_le.mp h
    rw [if_neg]
    rintro (h | h) <;> linarith
  refine ⟨h1, h2, ?_⟩
  rcases le_or_gt |c| tol with h | h
  · rw [h2 h, show value u m - (value u m + c * u n d) = -(c * u n d) by ring, abs_neg, abs_mul]
    exact mul_le_mul_of_nonneg_right h (abs_nonneg _)
  · rw [h1 h, sub_self, abs_zero]
    exact mul_nonneg ht (abs_nonneg _)

theorem update_sum (f : Dof K → K) (l : List (Dof K)) (c : K) (pos k : Nat) (d : Dof K) (hd : l[pos]? = some d) :
    (((l.zipIdx k).map fun e => if e.2 = pos + k then { e.1 with coeff := c } else e.1).map f).sum = (l.map f).sum - f d + f { d with coeff := c } := by
  induction l generalizing pos k with
  | nil => simp at hd
  | cons a l ih =>
    rw [List.zipIdx_cons, List.map_cons, List.map_cons, List.sum_cons, List.map_cons, List.sum_cons]
    cases pos with
    | zero =>
      obtain rfl : a = d := by simpa using hd
      rw [if_pos (by simp)]
      have : (l.zipIdx (k + 1)).map (fun e => if e.2 = 0 + k then { e.1 with coeff := c } else e.1) = l := by
        apply List.ext_getElem
        · simp
        · intro i h1 h2
          simp only [List.getElem_map, List.getElem_zipIdx]
          rw [if_neg (by omega)]
      rw [this]
      ring
    | succ pos =>
      rw [if_neg (by simp only; omega)]
      have := ih pos (k + 1) (by simpa using hd)
      rw [show pos + 1 + k = pos + (k + 1) by omega, this]
      ring

/-- The coefficient of a master is replaced, a master is removed, the constant is shifted or replaced; positions that do not exist change nothing. -/
theorem C137_change (u : Int → Int → K) (m : Constraint K) (pos : Nat) (c : K) :
    (∀ d, m.master[pos]? = some d → value u (m.updateMaster pos c) = value u m + (c - d.coeff) * u d.node d.dof ∧
      value u (m.removeMaster pos) = value u m - d.coeff * u d.node d.dof) ∧
      (m.master.length ≤ pos → m.updateMaster pos c = m ∧ m.removeMaster pos = m) ∧
      value u (m.addOffset c) = value u m + c ∧ value u (m.setSlaveCoeff c) = value u m - m.slave.coeff + c ∧
      ((m.updateMaster pos c).slave = m.slave ∧ (m.removeMaster pos).slave = m.slave) := by
  refine ⟨fun d hd => ⟨?_, ?_⟩, fun h => ⟨?_, ?_⟩, ?_, ?_, rfl, rfl⟩
  · have := update_sum (fun d => d.coeff * u d.node d.dof) m.master c pos 0 d hd
    unfold Constraint.updateMaster
    rw [value_master]
    simp only [Nat.add_zero] at this
    rw [this]
    unfold value
    ring
  · unfold Constraint.removeMaster
    rw [value_master]
    have hp := (List.getElem?_eq_some_iff.mp hd).1
    have e := (List.getElem?_eq_some_iff.mp hd).2
    have : (m.master.map fun d => d.coeff * u d.node d.dof).sum =
        d.coeff * u d.node d.dof + ((m.master.eraseIdx pos).map fun d => d.coeff * u d.node d.dof).sum := by
      have hperm := (List.getElem_cons_eraseIdx_perm hp).map fun d : Dof K => d.coeff * u d.node d.dof
      rw [← hperm.sum_eq, List.map_cons, List.sum_cons, e]
    unfold value
    rw [this]
    ring
  · unfold Constraint.updateMaster
    have : (m.master.zipIdx.map fun e => if e.2 = pos then { e.1 with coeff := c } else e.1) = m.master := by
      apply List.ext_getElem
      · simp
      · intro i h1 h2
        simp only [List.getElem_map, List.getElem_zipIdx]
        rw [if_neg (by omega)]
    rw [this]
  · unfold Constraint.removeMaster
    rw [List.eraseIdx_of_length_le h]
  · unfold Constraint.addOffset value
    simp only
    ring
  · unfold Constraint.setSlaveCoeff value
    simp only
    ring

theorem sum_terms (u : Int → Int → K) (l : List (Dof K)) (t : List (Piece K)) (x : K) (k : Nat) (h : Sum u t x) :
    Sum u (t ++ ((l.zipIdx k).map fun e => printTerm false e.1).flatten) (x + (l.map fun d => d.coeff * u d.node d.dof).sum) := by
  induction l generalizing t x k with
  | nil => simpa using h
  | cons a l ih =>
    rw [List.zipIdx_cons, List.map_cons, List.flatten_cons, List.map_cons, List.sum_cons, ← List.append_assoc, ← add_assoc]
    refine ih _ _ _ ?_
    by_cases ha : a.coeff ≥ 0
    · have := Sum.plus t x a.coeff a.node a.dof h
      simpa [printTerm, ha] using this
    · have := Sum.minus t x (-a.coeff) a.node a.dof h
      rw [neg_mul, sub_neg_eq_add] at this
      simpa [printTerm, ha] using this

/-- The text of a constraint is the equation of its slave, and its right hand side has the value that the constraint gives. -/
theorem C137_print (u : Int → Int → K) (m : Constraint K) : Equation u (print m) m.slave.node m.slave.dof (value u m) := by
  obtain ⟨⟨n, d, c⟩, l⟩ := m
  unfold print value
  by_cases hc : c = 0
  · subst hc
    cases l with
    | nil => simpa using Equation.zero (u := u) n d
    | cons a l =>
      have h0 := Sum.term (u := u) a.coeff a.node a.dof
      have h1 := sum_terms u l _ _ 1 h0
      have h2 := Equation.sum n d _ _ h1
      have e : ((l.zipIdx 1).map fun e => printTerm (decide (e.2 = 0)) e.1) = (l.zipIdx 1).map fun e => printTerm false e.1 := by
        refine List.map_congr_left fun e he => ?_
        have : e.2 ≠ 0 := by
          have := List.le_snd_of_mem_zipIdx he
          omega
        simp [this]
      simp only [ne_eq, not_true_eq_false, if_false, reduceCtorEq, List.zipIdx_cons, List.map_cons, List.flatten_cons, zero_add, e, List.sum_cons]
      simpa [printTerm] using h2
  · have h1 := sum_terms u l _ _ 0 (Sum.const (u := u) c)
    have h2 := Equation.sum n d _ _ h1
    simpa [hc] using h2

/-- The text of an unknown names its direction. -/
theorem C137_print_dof (n : Int) (c : K) :
    printDof ⟨n, 1, c⟩ = [.text "u_", .text "x", .text " in node ", .int n] ∧ printDof ⟨n, 2, c⟩ = [.text "u_", .text "y", .text " in node ", .int n] ∧
      printDof ⟨n, 3, c⟩ = [.text "u_", .text "z", .text " in node ", .int n] := ⟨rfl, rfl, rfl⟩

end edit

example : print (((Constraint.new 3 1 (0 : Rat)).addMaster 5 2 (-2) (1/100)).addMaster 7 3 (-1/2) (1/100)) =
    [.text "Slave ", .int 3, .text ",", .int 1, .text " = ", .num (-2), .text "*(", .int 5, .text ",", .int 2, .text ")",
      .text " - ", .num (1/2), .text "*(", .int 7, .text ",", .int 3, .text ")", .text "\n"] := by
  decide +kernel

end Verif.Mpc
