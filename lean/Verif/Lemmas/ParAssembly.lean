import Verif.Spec.ParAssembly
import Verif.Props.Coloring
import Verif.Props.Asm
import Mathlib.Algebra.BigOperators.Group.List.Basic
import Mathlib.Tactic.Ring

/-! Helper lemmas for C98. -/

namespace Verif.Asm

variable {K : Type} [Field K]

/-- Sum of the additions to a location. -/
def total (l : List (Loc × K)) (a : Loc) : K := ((l.filter fun x => decide (x.1 = a)).map (·.2)).sum

@[simp] theorem total_nil (a : Loc) : total ([] : List (Loc × K)) a = 0 := rfl

theorem total_cons (x : Loc × K) (l : List (Loc × K)) (a : Loc) :
    total (x :: l) a = (if x.1 = a then x.2 else 0) + total l a := by
  unfold total
  by_cases h : x.1 = a <;> simp [h]

theorem total_append (l l' : List (Loc × K)) (a : Loc) : total (l ++ l') a = total l a + total l' a := by
  simp [total]

theorem total_flatMap {α : Type} (l : List α) (g : α → List (Loc × K)) (a : Loc) :
    total (l.flatMap g) a = (l.map fun x => total (g x) a).sum := by
  induction l with
  | nil => rfl
  | cons x l ih => rw [List.flatMap_cons, total_append, ih, List.map_cons, List.sum_cons]

/-! ### The additions of an element -/

/-- Value at a location. -/
def Sys.val (s : Sys K) : Loc → K
  | .mat r c => s.A r c
  | .load r => s.b r

theorem val_fold {α : Type} (f : Sys K → α → Sys K) (g : α → List (Loc × K)) (a : Loc)
    (hf : ∀ s x, (f s x).val a = s.val a + total (g x) a) (l : List α) (s : Sys K) :
    (l.foldl f s).val a = s.val a + total (l.flatMap g) a := by
  induction l generalizing s with
  | nil => simp
  | cons x l ih => rw [List.foldl_cons, ih, hf, List.flatMap_cons, total_append, add_assoc]

theorem val_add (s : Sys K) (r c : Nat) (v : K) (a : Loc) : (s.add r c v).val a = s.val a + total [(Loc.mat r c, v)] a := by
  rw [total_cons, total_nil, add_zero]
  cases a with
  | load r' => simp [Sys.add, Sys.val]
  | mat r' c' =>
    by_cases h : r' = r ∧ c' = c
    · obtain ⟨rfl, rfl⟩ := h
      simp [Sys.add, Sys.val]
    · have h' : ¬ (r = r' ∧ c = c') := fun e => h ⟨e.1.symm, e.2.symm⟩
      simp [Sys.add, Sys.val, h, h']

theorem val_addCol (h : Handler K) (e : Element K) (row erow : Nat) (scale : K) (a : Loc) (s : Sys K) (q : Nat × Nat × Nat) :
    (addCol h e row erow scale s q).val a = s.val a + total (opsCol h e row erow scale q) a := by
  unfold addCol opsCol
  cases hm : h.mpcs (key h.dim q.2.1 q.2.2) with
  | some m =>
    dsimp only
    rw [List.filterMap_eq_flatMap_toList]
    refine val_fold _ _ a (fun s x => ?_) _ _
    cases h.eqn x.node x.dof with
    | none => simp
    | some c => exact val_add s row c _ a
  | none =>
    dsimp only
    cases h.eqn q.2.1 q.2.2 with
    | none => simp
    | some c => exact val_add s row c _ a

theorem val_addDOF (h : Handler K) (e : Element K) (row : Option Nat) (erow : Nat) (scale : K) (a : Loc) (s : Sys K) :
    (addDOF h e row erow scale s).val a = s.val a + total (opsDOF h e row erow scale) a := by
  unfold addDOF opsDOF
  cases row with
  | none => simp
  | some r =>
    dsimp only
    rw [total_append, ← add_assoc, ← val_fold _ _ a (val_addCol h e r erow scale a), total_cons, total_nil, add_zero]
    cases a with
    | mat r' c' => simp [Sys.val]
    | load r' =>
      by_cases hr : r' = r
      · subst hr; simp [Sys.val]
      · have hr' : ¬ r = r' := fun e => hr e.symm
        simp [Sys.val, hr, hr']

theorem val_addRow (h : Handler K) (e : Element K) (a : Loc) (s : Sys K) (q : Nat × Nat × Nat) :
    (addRow h e s q).val a = s.val a + total (opsRow h e q) a := by
  have hgo : (addRow.go h e s q).val a = s.val a + total (opsRow.go h e q) a := by
    unfold addRow.go opsRow.go
    cases h.mpcs (key h.dim q.2.1 q.2.2) with
    | some m => exact val_fold _ _ a (fun s x => val_addDOF h e (h.eqn x.node x.dof) (q.1 * h.dim + q.2.2) x.coeff a s) _ _
    | none => exact val_addDOF h e _ _ _ a s
  unfold addRow opsRow
  cases h.fixed q.2.1 with
  | none => exact hgo
  | some f =>
    dsimp only
    split
    · simp
    · exact hgo

theorem val_addElement (h : Handler K) (e : Element K) (a : Loc) (s : Sys K) :
    (addElement h s e).val a = s.val a + total (opsElement h e) a := val_fold _ _ a (val_addRow h e a) _ _

theorem val_assemble (h : Handler K) (es : List (Element K)) (a : Loc) :
    (assemble h es).val a = total (es.flatMap (opsElement h)) a := by
  unfold assemble
  rw [val_fold _ _ a (fun s e => val_addElement h e a s)]
  cases a <;> simp [Sys.val]

/-! ### Threads -/

theorem sum_set {α : Type} (f : α → K) (l : List α) (t : Nat) (x y : α) (hx : l[t]? = some x) :
    ((l.set t y).map f).sum = (l.map f).sum - f x + f y := by
  induction l generalizing t with
  | nil => simp at hx
  | cons z l ih =>
    cases t with
    | zero =>
      simp only [List.getElem?_cons_zero, Option.some.injEq] at hx
      subst hx
      simp only [List.set_cons_zero, List.map_cons, List.sum_cons]; ring
    | succ t =>
      simp only [List.getElem?_cons_succ] at hx
      simp only [List.set_cons_succ, List.map_cons, List.sum_cons, ih t hx]; ring

/-- What holds at any time: what has been added and what is to be added have the sum `C`, a loaded value is still that in the
memory, and threads write to different locations. -/
structure MInv (C : Loc → K) (m : Machine K) : Prop where
  sum : ∀ a, m.mem a + (m.threads.map fun th => total th.todo a).sum = C a
  loaded : ∀ (t : Nat) (th : Thread K) (x : K), m.threads[t]? = some th → th.loaded = some x →
    ∀ op rest, th.todo = op :: rest → x = m.mem op.1
  apart : ∀ (t u : Nat) (th uh : Thread K), t ≠ u → m.threads[t]? = some th → m.threads[u]? = some uh → Apart th.todo uh.todo

theorem inv_step {C : Loc → K} {m : Machine K} (hm : MInv C m) (t : Nat) : MInv C (m.step t) := by
  unfold Machine.step
  cases ht : m.threads[t]? with
  | none => exact hm
  | some th =>
    dsimp only
    cases htodo : th.todo with
    | nil => exact hm
    | cons op rest =>
      dsimp only
      cases hl : th.loaded with
      | none =>
        dsimp only
        have hsub : ∀ (u : Nat) (uh : Thread K), (m.threads.set t ⟨op :: rest, some (m.mem op.1)⟩)[u]? = some uh →
            ∃ uh', m.threads[u]? = some uh' ∧ uh'.todo = uh.todo := by
          intro u uh hu
          rw [List.getElem?_set] at hu
          split at hu
          · next h => subst h; split at hu
                      · cases hu; exact ⟨th, ht, htodo⟩
                      · cases hu
          · exact ⟨uh, hu, rfl⟩
        refine ⟨fun a => ?_, fun u uh x hu hx op' rest' hto => ?_, fun u v uh vh huv hu hv => ?_⟩
        · rw [← hm.sum a]
          dsimp only
          rw [sum_set _ _ _ _ _ ht, htodo]; ring
        · dsimp only at hu ⊢
          rw [List.getElem?_set] at hu
          split at hu
          · split at hu
            · cases hu
              simp only at hx hto
              cases hto
              exact (Option.some.inj hx).symm
            · cases hu
          · exact hm.loaded u uh x hu hx op' rest' hto
        · dsimp only at hu hv
          obtain ⟨uh', h1, h2⟩ := hsub u uh hu
          obtain ⟨vh', h3, h4⟩ := hsub v vh hv
          rw [← h2, ← h4]
          exact hm.apart u v uh' vh' huv h1 h3
      | some x =>
        dsimp only
        have hx := hm.loaded t th x ht hl op rest htodo
        have hsub : ∀ (u : Nat) (uh : Thread K), (m.threads.set t ⟨rest, none⟩)[u]? = some uh →
            ∃ uh', m.threads[u]? = some uh' ∧ ∀ o ∈ uh.todo, o ∈ uh'.todo := by
          intro u uh hu
          rw [List.getElem?_set] at hu
          split at hu
          · next h => subst h; split at hu
                      · cases hu; exact ⟨th, ht, fun o ho => by rw [htodo]; exact List.mem_cons_of_mem _ ho⟩
                      · cases hu
          · exact ⟨uh, hu, fun o ho => ho⟩
        refine ⟨fun a => ?_, fun u uh y hu hy op' rest' hto => ?_, fun u v uh vh huv hu hv => ?_⟩
        · rw [← hm.sum a]
          dsimp only
          rw [sum_set _ _ _ _ _ ht, htodo, total_cons, hx]
          by_cases h : a = op.1
          · subst h; simp; ring
          · have h' : ¬ op.1 = a := fun e => h e.symm
            simp [h, h']
        · dsimp only at hu ⊢
          rw [List.getElem?_set] at hu
          split at hu
          · split at hu
            · cases hu; simp at hy
            · cases hu
          · next hne =>
            have hne' : op'.1 ≠ op.1 := by
              refine hm.apart u t uh th (fun e => hne e.symm) hu ht op' ?_ op ?_
              · rw [hto]; simp
              · rw [htodo]; simp
            rw [if_neg hne']
            exact hm.loaded u uh y hu hy op' rest' hto
        · dsimp only at hu hv
          obtain ⟨uh', h1, h2⟩ := hsub u uh hu
          obtain ⟨vh', h3, h4⟩ := hsub v vh hv
          intro o ho o' ho'
          exact hm.apart u v uh' vh' huv h1 h3 o (h2 o ho) o' (h4 o' ho')

theorem inv_run {C : Loc → K} (schedule : List Nat) {m : Machine K} (hm : MInv C m) : MInv C (m.run schedule) := by
  unfold Machine.run
  induction schedule generalizing m with
  | nil => exact hm
  | cons t l ih => exact ih (inv_step hm t)

/-- Threads that write to different locations: every schedule that ends has the effect of all additions, one after the other. -/
theorem run_total {mem : Loc → K} {ops : List (List (Loc × K))} {schedule : List Nat}
    (hap : ∀ (t u : Nat) (l l' : List (Loc × K)), t ≠ u → ops[t]? = some l → ops[u]? = some l' → Apart l l')
    (hd : (Machine.run ⟨mem, ops.map fun l => ⟨l, none⟩⟩ schedule).done = true) (a : Loc) :
    (Machine.run ⟨mem, ops.map fun l => ⟨l, none⟩⟩ schedule).mem a = mem a + total ops.flatten a := by
  have h0 : MInv (fun a => mem a + total ops.flatten a) ⟨mem, ops.map fun l => ⟨l, none⟩⟩ := by
    refine ⟨fun a => ?_, fun t th x ht hx => ?_, fun t u th uh htu ht hu => ?_⟩
    · dsimp only
      rw [← List.flatMap_id, total_flatMap, List.map_map]
      rfl
    · rw [List.getElem?_map] at ht
      obtain ⟨l, _, rfl⟩ := Option.map_eq_some_iff.mp ht
      cases hx
    · rw [List.getElem?_map] at ht hu
      obtain ⟨l, h1, rfl⟩ := Option.map_eq_some_iff.mp ht
      obtain ⟨l', h2, rfl⟩ := Option.map_eq_some_iff.mp hu
      exact hap t u l l' htu h1 h2
  have h1 := (inv_run schedule h0).sum a
  have h2 : ∀ (L : List (Thread K)), (L.all fun th => th.todo.isEmpty) = true → (L.map fun th => total th.todo a).sum = 0 := by
    intro L hL
    refine List.sum_eq_zero fun x hx => ?_
    obtain ⟨th, hth, rfl⟩ := List.mem_map.mp hx
    have := List.all_eq_true.mp hL th hth
    rw [List.isEmpty_iff.mp this, total_nil]
  rw [h2 _ hd, add_zero] at h1
  exact h1

/-! ### Progress -/

/-- Accesses a thread still has to make. -/
def Thread.left (th : Thread K) : Nat := 2 * th.todo.length - (if th.loaded.isSome then 1 else 0)

theorem left_step (m : Machine K) (t u : Nat) : ((m.step t).threads[u]?).map Thread.left =
    (m.threads[u]?).map fun th => if u = t then th.left - 1 else th.left := by
  unfold Machine.step
  cases ht : m.threads[t]? with
  | none =>
    dsimp only
    by_cases h : u = t
    · subst h; rw [ht]; rfl
    · simp only [h, if_false]
  | some th =>
    dsimp only
    have hlt : t < m.threads.length := (List.getElem?_eq_some_iff.mp ht).1
    cases htodo : th.todo with
    | nil =>
      dsimp only
      by_cases h : u = t
      · subst h; rw [ht]; simp [Thread.left, htodo]
      · simp only [h, if_false]
    | cons op rest =>
      dsimp only
      cases hl : th.loaded with
      | none =>
        dsimp only
        rw [List.getElem?_set]
        by_cases h : u = t
        · subst h; rw [ht]; simp [Thread.left, htodo, hl, hlt]
        · rw [if_neg fun e => h e.symm]; simp only [h, if_false]
      | some x =>
        dsimp only
        rw [List.getElem?_set]
        by_cases h : u = t
        · subst h; rw [ht]; simp [Thread.left, htodo, hl, hlt]; omega
        · rw [if_neg fun e => h e.symm]; simp only [h, if_false]

theorem left_run (schedule : List Nat) (m : Machine K) (u : Nat) : ((m.run schedule).threads[u]?).map Thread.left =
    (m.threads[u]?).map fun th => th.left - schedule.count u := by
  unfold Machine.run
  induction schedule generalizing m with
  | nil => simp
  | cons t l ih =>
    rw [List.foldl_cons, ih]
    have h1 : ∀ (o : Option (Thread K)) (n : Nat), (o.map fun th => th.left - n) = (o.map Thread.left).map fun k => k - n := by
      intro o n; cases o <;> rfl
    rw [h1, left_step, Option.map_map]
    congr 1
    funext th
    simp only [Function.comp, List.count_cons]
    by_cases h : u = t
    · subst h; simp; omega
    · have h' : ¬ t = u := fun e => h e.symm
      simp [h, h']

/-- A schedule in which every thread has two turns for each of its additions ends. -/
theorem run_done {mem : Loc → K} {ops : List (List (Loc × K))} {schedule : List Nat}
    (hs : ∀ (t : Nat) (l : List (Loc × K)), ops[t]? = some l → 2 * l.length ≤ schedule.count t) :
    (Machine.run ⟨mem, ops.map fun l => ⟨l, none⟩⟩ schedule).done = true := by
  unfold Machine.done
  rw [List.all_eq_true]
  intro th hth
  obtain ⟨t, ht, rfl⟩ := List.mem_iff_getElem.mp hth
  have h1 := left_run schedule (⟨mem, ops.map fun l => ⟨l, none⟩⟩ : Machine K) t
  rw [List.getElem?_eq_getElem ht] at h1
  dsimp only at h1
  rw [List.getElem?_map] at h1
  cases ho : ops[t]? with
  | none => rw [ho] at h1; cases h1
  | some l =>
    rw [ho] at h1
    have h2 := hs t l ho
    simp only [Option.map_some, Option.some.injEq, Thread.left] at h1
    rw [List.isEmpty_iff_length_eq_zero]
    simp at h1
    split at h1 <;> omega

end Verif.Asm
