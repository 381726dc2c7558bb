import Verif.Spec.ElasticSolvers
import Verif.Props.Chunks
import Mathlib.Data.List.Range
import Mathlib.Tactic.Ring

/-!
C130: set-up of the linear solvers of elasticity upscaling.
-/

namespace Verif.ElasticSolvers

open Spec Verif.ElasticTool

variable {K : Type}

/-! ### Objects -/

theorem range'_snoc (a n : Nat) : List.range' a (n + 1) = List.range' a n ++ [a + n] := by
  rw [List.range'_concat]; simp

theorem prepare_copy (own : Nat) (s : State) (f : Family) (hc : s.copy = true) (hf : s.heap[own]? = some f) (n : Nat) :
    (List.range n).foldlM (prepareStep own) (s, [own], []) =
      some (⟨s.heap ++ List.replicate (n - 1) f, true⟩, own :: List.range' s.heap.length (n - 1), (own :: List.range' s.heap.length (n - 1)).take n) := by
  induction n with
  | zero => obtain ⟨h, c⟩ := s; simp at hc; subst hc; simp
  | succ n ih =>
    rw [List.range_succ, List.foldlM_append, ih]
    simp only [Option.bind_eq_bind, Option.bind_some, List.foldlM_cons, List.foldlM_nil]
    unfold prepareStep
    rcases n with _ | n
    · simp
    · have hlt : own < s.heap.length := by
        by_contra hh
        rw [List.getElem?_eq_none (by omega)] at hf
        cases hf
      have hcl : clone own ⟨s.heap ++ List.replicate n f, true⟩ = some (⟨s.heap ++ List.replicate (n + 1) f, true⟩, s.heap.length + n) := by
        unfold clone
        rw [List.getElem?_append_left hlt, hf]
        simp [List.replicate_succ']
      simp only [Nat.add_sub_cancel]
      rw [hcl]
      have e1 : (own :: List.range' s.heap.length n) ++ [s.heap.length + n] = own :: List.range' s.heap.length (n + 1) := by
        rw [range'_snoc]; rfl
      simp only [bne_iff_ne, ne_eq, Nat.add_eq_zero_iff, one_ne_zero, and_false, not_false_eq_true, decide_true, Bool.and_true, if_true, Option.map_some, e1, Option.bind_some]
      have e2 : (own :: List.range' s.heap.length (n + 1))[n + 1]? = some (s.heap.length + n) := by
        simp [List.getElem?_range']
      have e0 : (n + 1 != 0) = true := by simp
      simp only [e0, Bool.and_self, if_true, Option.map_some, Option.bind_some, e2]
      have e3 : (own :: List.range' s.heap.length n).take (n + 1) = own :: List.range' s.heap.length n := List.take_of_length_le (by simp)
      have e4 : (own :: List.range' s.heap.length (n + 1)).take (n + 1 + 1) = own :: List.range' s.heap.length (n + 1) := List.take_of_length_le (by simp)
      simp only [e1, e2, e3, e4, Option.map_some]
      rfl

theorem prepare_share (own : Nat) (s : State) (hc : s.copy = false) (n : Nat) :
    (List.range n).foldlM (prepareStep own) (s, [own], []) = some (s, [own], List.replicate n own) := by
  induction n with
  | zero => rfl
  | succ n ih =>
    rw [List.range_succ, List.foldlM_append, ih]
    simp [prepareStep, hc, List.replicate_succ']

theorem fill_clones (o : Nat) (s : State) (f : Family) (hf : s.heap[o]? = some f) (M k : Nat) (hk : k ≤ M - 1) (hM : 0 < M) :
    (List.range' 1 k).foldlM (fun (st : State × List (Option Nat)) i => (clone o st.1).map fun r => (r.1, st.2.set i (some r.2))) (s, (List.replicate M none).set 0 (some o)) =
      some (⟨s.heap ++ List.replicate k f, s.copy⟩, some o :: (List.range' s.heap.length k).map some ++ List.replicate (M - 1 - k) none) := by
  induction k with
  | zero =>
    obtain ⟨m, rfl⟩ : ∃ m, M = m + 1 := ⟨M - 1, by omega⟩
    simp [List.replicate_succ]
  | succ k ih =>
    rw [range'_snoc, List.foldlM_append, ih (by omega)]
    have hlt : o < s.heap.length := by
      by_contra hh
      rw [List.getElem?_eq_none (by omega)] at hf
      cases hf
    have hcl : clone o ⟨s.heap ++ List.replicate k f, s.copy⟩ = some (⟨s.heap ++ List.replicate (k + 1) f, s.copy⟩, s.heap.length + k) := by
      unfold clone
      rw [List.getElem?_append_left hlt, hf]
      simp [List.replicate_succ']
    simp only [Option.bind_eq_bind, Option.bind_some, List.foldlM_cons, List.foldlM_nil, hcl, Option.map_some, Option.pure_def, Option.some.injEq, Prod.mk.injEq, true_and]
    obtain ⟨q, hq⟩ : ∃ q, M - 1 - k = q + 1 := ⟨M - 1 - k - 1, by omega⟩
    rw [hq, show M - 1 - (k + 1) = q by omega, range'_snoc, List.map_append]
    have : 1 + k = k + 1 := by omega
    rw [this, List.cons_append, List.set_cons_succ, List.set_append_right _ _ (by simp)]
    simp [List.replicate_succ]

/-- The result of the choice of objects for the columns. -/
theorem schurObjects_spec (mp : MortarPre) (pre : Pre) (fam : Family) (own M : Nat) (s : State) (hmp : mp ≠ .simple) (hM : 0 < M) (hf : s.heap[own]? = some fam) (hc : s.copy = cloned fam) :
    ∃ s' pc, ∃ f : Nat → Nat, schurObjects mp pre own M s = some (s', pc) ∧ (∀ i < M, pc[if s'.copy then i else 0]? = some (some (f i))) ∧
      (∀ i < M, s'.heap[f i]? = some (schurType mp pre fam)) ∧ (∀ i < M, ∀ j < M, i ≠ j → f i = f j → schurType mp pre fam = .schwarz) ∧
      s'.copy = cloned (schurType mp pre fam) ∧ ∀ (o : Nat) (x : Family), s.heap[o]? = some x → s'.heap[o]? = some x := by
  have clones : ∀ (s : State) (o : Nat) (t : Family), s.heap[o]? = some t → s.copy = true → ∃ s' pc, ∃ f : Nat → Nat, fillClones o M s = some (s', pc) ∧
      (∀ i < M, pc[if s'.copy then i else 0]? = some (some (f i))) ∧ (∀ i < M, s'.heap[f i]? = some t) ∧ (∀ i < M, ∀ j < M, i ≠ j → f i ≠ f j) ∧ s'.copy = true ∧
      ∀ (o : Nat) (x : Family), s.heap[o]? = some x → s'.heap[o]? = some x := by
    intro s o t ht hcopy
    have hlt : o < s.heap.length := by
      by_contra hh
      rw [List.getElem?_eq_none (by omega)] at ht
      cases ht
    refine ⟨⟨s.heap ++ List.replicate (M - 1) t, s.copy⟩, some o :: (List.range' s.heap.length (M - 1)).map some ++ List.replicate (M - 1 - (M - 1)) none, fun i => if i = 0 then o else s.heap.length + (i - 1), by unfold fillClones; rw [if_pos hM]; exact fill_clones o s t ht M (M - 1) le_rfl hM, ?_, ?_, ?_, hcopy, ?_⟩
    · intro i hi
      simp only [hcopy, if_true]
      rcases i with _ | i
      · simp
      · simp [List.getElem?_append, List.getElem?_range', show i < M - 1 by omega]
    · intro i hi
      rcases i with _ | i
      · simp only [if_true]
        rw [List.getElem?_append_left hlt, ht]
      · simp [List.getElem?_append, show i < M - 1 by omega]
    · intro i hi j hj hij
      show ¬ (if i = 0 then o else s.heap.length + (i - 1)) = (if j = 0 then o else s.heap.length + (j - 1))
      split <;> split <;> omega
    · intro o' x hx
      have : o' < s.heap.length := by
        by_contra hh
        rw [List.getElem?_eq_none (by omega)] at hx
        cases hx
      simp only
      rw [List.getElem?_append_left this, hx]
  have one : ∀ (s : State) (o : Nat), s.heap[o]? = some .schwarz → s.copy = false → ∃ s' pc, ∃ f : Nat → Nat, fillOne o M s = some (s', pc) ∧
      (∀ i < M, pc[if s'.copy then i else 0]? = some (some (f i))) ∧ (∀ i < M, s'.heap[f i]? = some .schwarz) ∧ s'.copy = false ∧
      ∀ (o : Nat) (x : Family), s.heap[o]? = some x → s'.heap[o]? = some x := by
    intro s o ho hcopy
    refine ⟨_, _, fun _ => o, by unfold fillOne; rw [if_pos hM], ?_, fun _ _ => ho, hcopy, fun _ _ h => h⟩
    intro i hi
    obtain ⟨m, rfl⟩ : ∃ m, M = m + 1 := ⟨M - 1, by omega⟩
    simp [hcopy, List.replicate_succ]
  have new : ∀ t : Family, (create t s).1.heap[(create t s).2]? = some t ∧ (create t s).1.copy = cloned t ∧ ∀ (o : Nat) (x : Family), s.heap[o]? = some x → (create t s).1.heap[o]? = some x := by
    intro t
    refine ⟨by simp [create], rfl, fun o x hx => ?_⟩
    have : o < s.heap.length := by
      by_contra hh
      rw [List.getElem?_eq_none (by omega)] at hx
      cases hx
    simp only [create]
    rw [List.getElem?_append_left this, hx]
  have own' : schurType mp pre fam = fam → (mp = .schur ∨ (mp = .schurAmg ∧ pre = .amg) ∨ (mp = .schurSchwarz ∧ pre = .schwarz) ∨ (mp = .schurTwolevel ∧ pre = .twolevel)) →
      ∃ s' pc, ∃ f : Nat → Nat, schurObjects mp pre own M s = some (s', pc) ∧ (∀ i < M, pc[if s'.copy then i else 0]? = some (some (f i))) ∧
      (∀ i < M, s'.heap[f i]? = some (schurType mp pre fam)) ∧ (∀ i < M, ∀ j < M, i ≠ j → f i = f j → schurType mp pre fam = .schwarz) ∧
      s'.copy = cloned (schurType mp pre fam) ∧ ∀ (o : Nat) (x : Family), s.heap[o]? = some x → s'.heap[o]? = some x := by
    intro ht hcond
    unfold schurObjects
    rw [if_pos hcond, ht]
    by_cases hcp : s.copy = true
    · obtain ⟨s', pc, f, h1, h2, h3, h4, h5, h6⟩ := clones s own fam hf hcp
      exact ⟨s', pc, f, by rw [if_pos hcp]; exact h1, h2, h3, fun i hi j hj hij he => absurd he (h4 i hi j hj hij), by rw [h5, ← hc, hcp], h6⟩
    · have hfam : fam = .schwarz := by
        rw [hc] at hcp
        cases fam <;> simp [cloned] at hcp ⊢
      subst hfam
      obtain ⟨s', pc, f, h1, h2, h3, h5, h6⟩ := one s own hf (by simpa using hcp)
      exact ⟨s', pc, f, by rw [if_neg hcp]; exact h1, h2, h3, fun i hi j hj hij he => rfl, by rw [h5]; rfl, h6⟩
  have amg : ∀ t : Family, cloned t = true → ∃ s' pc, ∃ f : Nat → Nat, fillClones (create t s).2 M (create t s).1 = some (s', pc) ∧ (∀ i < M, pc[if s'.copy then i else 0]? = some (some (f i))) ∧
      (∀ i < M, s'.heap[f i]? = some t) ∧ (∀ i < M, ∀ j < M, i ≠ j → f i = f j → t = .schwarz) ∧ s'.copy = cloned t ∧ ∀ (o : Nat) (x : Family), s.heap[o]? = some x → s'.heap[o]? = some x := by
    intro t ht
    obtain ⟨s', pc, f, h1, h2, h3, h4, h5, h6⟩ := clones (create t s).1 (create t s).2 t (new t).1 (by rw [(new t).2.1, ht])
    exact ⟨s', pc, f, h1, h2, h3, fun i hi j hj hij he => absurd he (h4 i hi j hj hij), by rw [h5, ht], fun o x hx => h6 o x ((new t).2.2 o x hx)⟩
  have sch : ∃ s' pc, ∃ f : Nat → Nat, fillOne (create .schwarz s).2 M (create .schwarz s).1 = some (s', pc) ∧ (∀ i < M, pc[if s'.copy then i else 0]? = some (some (f i))) ∧
      (∀ i < M, s'.heap[f i]? = some Family.schwarz) ∧ (∀ i < M, ∀ j < M, i ≠ j → f i = f j → Family.schwarz = .schwarz) ∧ s'.copy = cloned .schwarz ∧ ∀ (o : Nat) (x : Family), s.heap[o]? = some x → s'.heap[o]? = some x := by
    obtain ⟨s', pc, f, h1, h2, h3, h5, h6⟩ := one (create .schwarz s).1 (create .schwarz s).2 (new .schwarz).1 rfl
    exact ⟨s', pc, f, h1, h2, h3, fun _ _ _ _ _ _ => rfl, h5, fun o x hx => h6 o x ((new .schwarz).2.2 o x hx)⟩
  cases mp with
  | simple => exact absurd rfl hmp
  | schur => exact own' (by cases pre <;> rfl) (Or.inl rfl)
  | schurAmg =>
    cases pre with
    | amg => exact own' rfl (Or.inr (Or.inl ⟨rfl, rfl⟩))
    | _ => exact amg (.amg1 .ssor) rfl
  | schurSchwarz =>
    cases pre with
    | schwarz => exact own' rfl (Or.inr (Or.inr (Or.inl ⟨rfl, rfl⟩)))
    | _ => exact sch
  | schurTwolevel =>
    cases pre with
    | twolevel => exact own' rfl (Or.inr (Or.inr (Or.inr ⟨rfl, rfl⟩)))
    | _ => exact amg (.amg2 .ssor) rfl

theorem columns_spec (M : Nat) (copy : Bool) (pc : List (Option Nat)) (f : Nat → Nat) (h : ∀ i < M, pc[if copy then i else 0]? = some (some (f i))) :
    columns M copy pc = some ((List.range M).map fun i => (i, f i)) := by
  obtain ⟨gs, h1, h2, _⟩ := Coloring.C41_cover M 5 (by decide)
  unfold columns
  rw [h1]
  simp only [Option.bind_some]
  have h3 : (gs.flatMap fun p => List.range' p.1 (p.2 - p.1)) = List.range M := h2
  rw [h3]
  have : ∀ l : List Nat, (∀ i ∈ l, i < M) → (l.mapM fun i => (pc[if copy then i else 0]?).bind fun o => o.map fun o => (i, o)) = some (l.map fun i => (i, f i)) := by
    intro l
    induction l with
    | nil => intro _; rfl
    | cons a l ih =>
      intro hl
      rw [List.mapM_cons, h a (hl a List.mem_cons_self), ih fun i hi => hl i (List.mem_cons_of_mem _ hi)]
      rfl
  exact this _ fun i hi => List.mem_range.mp hi

theorem schur_spec (l : LinSol K) (fam : Family) (own M : Nat) (s : State) (hM : 0 < M) (hf : s.heap[own]? = some fam) (hc : s.copy = cloned fam) :
    ∃ s' cols, schur l M own s = some (s', cols) ∧ (l.mortarpre = .simple → s' = s ∧ cols = []) ∧
      (l.mortarpre ≠ .simple → cols.map Prod.fst = List.range M ∧ (∀ c ∈ cols, s'.heap[c.2]? = some (schurType l.mortarpre l.precond fam)) ∧ Private s'.heap (cols.map Prod.snd) ∧
        s'.copy = cloned (schurType l.mortarpre l.precond fam)) ∧ ∀ (o : Nat) (x : Family), s.heap[o]? = some x → s'.heap[o]? = some x := by
  unfold schur
  by_cases hs : l.mortarpre = .simple
  · exact ⟨s, [], by rw [if_pos hs], fun _ => ⟨rfl, rfl⟩, fun h => absurd hs h, fun _ _ h => h⟩
  · obtain ⟨s', pc, f, h1, h2, h3, h4, h5, h6⟩ := schurObjects_spec l.mortarpre l.precond fam own M s hs hM hf hc
    refine ⟨s', (List.range M).map fun i => (i, f i), by rw [if_neg hs, h1]; simp only [Option.bind_some]; rw [columns_spec M _ pc f h2]; rfl, fun h => absurd h hs, fun _ => ⟨?_, ?_, ?_, h5⟩, h6⟩
    · rw [List.map_map]; exact List.map_id _
    · intro c hcm
      obtain ⟨i, hi, rfl⟩ := List.mem_map.mp hcm
      exact h3 i (List.mem_range.mp hi)
    · intro i j o hij hi hj
      rw [List.map_map] at hi hj
      rw [List.getElem?_map] at hi hj
      have bi : i < M := by
        by_contra hh
        rw [List.getElem?_eq_none (by simpa using hh)] at hi
        cases hi
      have bj : j < M := by
        by_contra hh
        rw [List.getElem?_eq_none (by simpa using hh)] at hj
        cases hj
      rw [List.getElem?_range bi] at hi
      rw [List.getElem?_range bj] at hj
      simp only [Option.map_some, Function.comp, Option.some.injEq] at hi hj
      have ht := h4 i bi j bj hij (by rw [hi, hj])
      have := h3 i bi
      rw [ht, hi] at this
      exact this

theorem prepare_spec (threads own : Nat) (s : State) (fam : Family) (hf : s.heap[own]? = some fam) :
    ∃ s' objs, prepare threads own s = some (s', objs) ∧ objs.length = threads ∧ (∀ o ∈ objs, s'.heap[o]? = some fam) ∧ (s.copy = true ∨ fam = .schwarz → Private s'.heap objs) ∧
      (s.copy = false → objs = List.replicate threads own ∧ s' = s) ∧ ∀ (o : Nat) (x : Family), s.heap[o]? = some x → s'.heap[o]? = some x := by
  unfold prepare
  by_cases hc : s.copy = true
  · rw [prepare_copy own s fam hc hf threads]
    have hlt : own < s.heap.length := by
      by_contra hh
      rw [List.getElem?_eq_none (by omega)] at hf
      cases hf
    refine ⟨_, _, rfl, by simp; omega, ?_, fun _ => ?_, fun h => (by rw [hc] at h; cases h), ?_⟩
    · intro o ho
      have := List.mem_of_mem_take ho
      rcases List.mem_cons.mp this with rfl | hm
      · simp only; rw [List.getElem?_append_left hlt, hf]
      · obtain ⟨h1, h2⟩ := List.mem_range'_1.mp hm
        simp only
        rw [List.getElem?_append_right h1, List.getElem?_replicate, if_pos (by omega)]
    · intro i j o hij hi hj
      exfalso
      replace hi : ((own :: List.range' s.heap.length (threads - 1)).take threads)[i]? = some o := hi
      replace hj : ((own :: List.range' s.heap.length (threads - 1)).take threads)[j]? = some o := hj
      have hn : ((own :: List.range' s.heap.length (threads - 1)).take threads).Nodup := by
        apply List.Nodup.sublist (List.take_sublist _ _)
        rw [List.nodup_cons]
        refine ⟨fun hm => ?_, List.nodup_range'⟩
        have := (List.mem_range'_1.mp hm).1
        omega
      exact hij ((List.getElem?_inj (by
        by_contra hh
        rw [List.getElem?_eq_none (by omega)] at hi
        cases hi) hn).mp (hi.trans hj.symm))
    · intro o x hx
      have : o < s.heap.length := by
        by_contra hh
        rw [List.getElem?_eq_none (by omega)] at hx
        cases hx
      simp only
      rw [List.getElem?_append_left this, hx]
  · have hc' : s.copy = false := by simpa using hc
    rw [prepare_share own s hc' threads]
    refine ⟨_, _, rfl, by simp, ?_, ?_, fun _ => ⟨rfl, rfl⟩, fun _ _ h => h⟩
    · intro o ho
      rw [List.eq_of_mem_replicate ho]
      exact hf
    · rintro (h | rfl)
      · exact absurd h hc
      · intro i j o hij hi hj
        have := List.eq_of_mem_replicate (List.mem_of_getElem? hi)
        rw [this]
        exact hf

theorem objects_cg (l : List Nat) : objects (l.map .cg) = l := by
  induction l with
  | nil => rfl
  | cons a l ih => simp [objects, ih]

theorem objects_mortar (b : Bool) (l : List Nat) : objects (l.map fun o => if b then .minres o else .gmres o) = l := by
  induction l with
  | nil => rfl
  | cons a l ih => cases b <;> simp_all [objects]

/-! ### Theorems -/

/-- C130. The set-up succeeds for every choice of options (with at least one multiplier if mortar couplings are used), and the right-hand sides have one entry for every equation and every multiplier. -/
theorem C130_total (fam : Family) (l : LinSol K) (threads N rows M : Nat) (hM : rows ≠ 0 → 0 < M) (hr : rows ≤ N) :
    ∃ r, setupSolvers fam l threads N rows M = some r ∧ r.size = if rows = 0 then N else N + M := by
  unfold setupSolvers
  cases ht : l.type with
  | direct =>
    refine ⟨_, rfl, ?_⟩
    by_cases h : rows = 0
    · simp [h]
    · simp only [ne_eq, h, not_false_eq_true, if_true, if_false]
      split <;> split <;> omega
  | iterative =>
    have hf : (create fam ⟨[], false⟩).1.heap[(create fam ⟨[], false⟩).2]? = some fam := rfl
    by_cases h : rows = 0
    · obtain ⟨s', objs, h1, _⟩ := prepare_spec threads (create fam ⟨[], false⟩).2 (create fam ⟨[], false⟩).1 fam hf
      simp only [h, ne_eq, not_true_eq_false, if_false, if_true, h1, Option.map_some]
      exact ⟨_, rfl, rfl⟩
    · obtain ⟨s1, cols, h1, _, _, h4⟩ := schur_spec l fam (create fam ⟨[], false⟩).2 M (create fam ⟨[], false⟩).1 (hM h) hf rfl
      simp only [h, ne_eq, not_false_eq_true, if_true, setupMortar, h1, Option.bind_some, if_false]
      by_cases hu : l.uzawa = true
      · exact ⟨_, by rw [if_pos hu], rfl⟩
      · obtain ⟨s', objs, h5, _⟩ := prepare_spec threads (create fam ⟨[], false⟩).2 s1 fam (h4 _ _ hf)
        rw [if_neg hu, h5]
        exact ⟨_, rfl, rfl⟩

/-- C130. There is one solver for each thread, except with the Uzawa method: conjugate gradients without multipliers, with them MINRES for symmetric and GMRES for other preconditioning. All use a preconditioner of the chosen type. -/
theorem C130_solvers (fam : Family) (l : LinSol K) (threads N rows M : Nat) (hM : rows ≠ 0 → 0 < M) (r : Setup) (h : setupSolvers fam l threads N rows M = some r) :
    (l.type = .direct → r.solvers = List.replicate threads .lu) ∧
    (l.type = .iterative → (∀ o ∈ objects r.solvers, r.heap[o]? = some fam) ∧
      (rows = 0 → r.solvers.length = threads ∧ ∀ s ∈ r.solvers, ∃ o, s = .cg o) ∧
      (rows ≠ 0 → l.uzawa = false → r.solvers.length = threads ∧ ∀ s ∈ r.solvers, ∃ o, s = if l.symmetric then .minres o else .gmres o) ∧
      (rows ≠ 0 → l.uzawa = true → ∃ o, r.solvers = [.uzawa o])) := by
  unfold setupSolvers at h
  refine ⟨fun ht => by rw [ht] at h; cases h; rfl, fun ht => ?_⟩
  rw [ht] at h
  simp only at h
  have hf : (create fam ⟨[], false⟩).1.heap[(create fam ⟨[], false⟩).2]? = some fam := rfl
  by_cases hr : rows = 0
  · obtain ⟨s', objs, h1, h2, h3, _⟩ := prepare_spec threads (create fam ⟨[], false⟩).2 (create fam ⟨[], false⟩).1 fam hf
    rw [if_neg (by simpa using hr), h1] at h
    cases h
    refine ⟨by rw [objects_cg]; exact h3, fun _ => ⟨by simpa using h2, fun s hs => ?_⟩, fun h => absurd hr h, fun h => absurd hr h⟩
    obtain ⟨o, _, rfl⟩ := List.mem_map.mp hs
    exact ⟨o, rfl⟩
  · obtain ⟨s1, cols, h1, _, _, h4⟩ := schur_spec l fam (create fam ⟨[], false⟩).2 M (create fam ⟨[], false⟩).1 (hM hr) hf rfl
    rw [if_pos hr] at h
    unfold setupMortar at h
    rw [h1] at h
    simp only [Option.bind_some] at h
    by_cases hu : l.uzawa = true
    · rw [if_pos hu] at h
      cases h
      refine ⟨fun o ho => ?_, fun h => absurd h hr, fun _ h => (by rw [hu] at h; cases h), fun _ _ => ⟨_, rfl⟩⟩
      simp only [objects, List.mem_singleton] at ho
      rw [ho]
      exact h4 _ _ hf
    · obtain ⟨s', objs, h5, h6, h7, _⟩ := prepare_spec threads (create fam ⟨[], false⟩).2 s1 fam (h4 _ _ hf)
      rw [if_neg hu, h5] at h
      cases h
      refine ⟨by rw [objects_mortar]; exact h7, fun h => absurd h hr, fun _ _ => ⟨by simpa using h6, fun s hs => ?_⟩, fun _ h => absurd h hu⟩
      obtain ⟨o, _, rfl⟩ := List.mem_map.mp hs
      exact ⟨o, rfl⟩

/-- C130. Every column of the Schur complement is computed exactly once, with an existing preconditioner of the asked type, and columns that are computed at the same time do not disturb each other. -/
theorem C130_schur (fam : Family) (l : LinSol K) (threads N rows M : Nat) (hM : 0 < M) (r : Setup) (h : setupSolvers fam l threads N rows M = some r)
    (ht : l.type = .iterative) (hr : rows ≠ 0) :
    (l.mortarpre = .simple → r.columns = []) ∧
    (l.mortarpre ≠ .simple → r.columns.map Prod.fst = List.range M ∧ (∀ c ∈ r.columns, r.heap[c.2]? = some (schurType l.mortarpre l.precond fam)) ∧ Private r.heap (r.columns.map Prod.snd)) := by
  unfold setupSolvers at h
  rw [ht] at h
  simp only at h
  have hf : (create fam ⟨[], false⟩).1.heap[(create fam ⟨[], false⟩).2]? = some fam := rfl
  obtain ⟨s1, cols, h1, h2, h3, h4⟩ := schur_spec l fam (create fam ⟨[], false⟩).2 M (create fam ⟨[], false⟩).1 hM hf rfl
  rw [if_pos hr] at h
  unfold setupMortar at h
  rw [h1] at h
  simp only [Option.bind_some] at h
  by_cases hu : l.uzawa = true
  · rw [if_pos hu] at h
    cases h
    exact ⟨fun hs => (h2 hs).2, fun hs => ⟨(h3 hs).1, (h3 hs).2.1, (h3 hs).2.2.1⟩⟩
  · obtain ⟨s', objs, h5, _, _, _, _, h6⟩ := prepare_spec threads (create fam ⟨[], false⟩).2 s1 fam (h4 _ _ hf)
    rw [if_neg hu, h5] at h
    cases h
    refine ⟨fun hs => (h2 hs).2, fun hs => ⟨(h3 hs).1, fun c hc => h6 _ _ ((h3 hs).2.1 c hc), fun i j o hij hi hj => h6 _ _ ((h3 hs).2.2.1 i j o hij hi hj)⟩⟩

/-- C130. Solvers of different threads do not disturb each other — if the Schur complement is not asked for with a Schwarz preconditioner while another is used for the elasticity block. -/
theorem C130_private_partial (fam : Family) (l : LinSol K) (threads N rows M : Nat) (hM : rows ≠ 0 → 0 < M) (r : Setup) (h : setupSolvers fam l threads N rows M = some r)
    (hx : rows ≠ 0 → l.mortarpre = .schurSchwarz → l.precond = .schwarz) : Private r.heap (objects r.solvers) := by
  unfold setupSolvers at h
  cases ht : l.type with
  | direct =>
    rw [ht] at h
    cases h
    have : ∀ n, objects (List.replicate n .lu) = [] := by
      intro n
      induction n with
      | zero => rfl
      | succ n ih => simp [List.replicate_succ, objects, ih]
    intro i j o _ hi _
    rw [this] at hi
    simp at hi
  | iterative =>
    rw [ht] at h
    simp only at h
    have hf : (create fam ⟨[], false⟩).1.heap[(create fam ⟨[], false⟩).2]? = some fam := rfl
    have hcf : ∀ t : Family, cloned t = true ∨ t = .schwarz := by intro t; cases t <;> simp [cloned]
    by_cases hr : rows = 0
    · obtain ⟨s', objs, h1, _, _, h2, _⟩ := prepare_spec threads (create fam ⟨[], false⟩).2 (create fam ⟨[], false⟩).1 fam hf
      rw [if_neg (by simpa using hr), h1] at h
      cases h
      rw [objects_cg]
      exact h2 (hcf fam)
    · obtain ⟨s1, cols, h1, h2, h3, h4⟩ := schur_spec l fam (create fam ⟨[], false⟩).2 M (create fam ⟨[], false⟩).1 (hM hr) hf rfl
      rw [if_pos hr] at h
      unfold setupMortar at h
      rw [h1] at h
      simp only [Option.bind_some] at h
      by_cases hu : l.uzawa = true
      · rw [if_pos hu] at h
        cases h
        intro i j o hij hi hj
        exfalso
        have : ∀ k, [(create fam ⟨[], false⟩).2][k]? = some o → k = 0 := by
          intro k hk
          by_contra hne
          rw [List.getElem?_eq_none (by simp; omega)] at hk
          cases hk
        exact hij ((this i hi).trans (this j hj).symm)
      · obtain ⟨s', objs, h5, _, _, h6, _⟩ := prepare_spec threads (create fam ⟨[], false⟩).2 s1 fam (h4 _ _ hf)
        rw [if_neg hu, h5] at h
        cases h
        rw [objects_mortar]
        apply h6
        by_cases hs : l.mortarpre = .simple
        · rw [(h2 hs).1]; exact hcf fam
        · rw [(h3 hs).2.2.2]
          cases hm : l.mortarpre with
          | simple => exact absurd hm hs
          | schur => cases l.precond <;> exact hcf fam
          | schurAmg => cases l.precond <;> first | exact hcf fam | exact Or.inl rfl
          | schurSchwarz => rw [hx hr hm]; exact hcf fam
          | schurTwolevel => cases l.precond <;> first | exact hcf fam | exact Or.inl rfl

/-- C130. In the excepted case all threads share one multigrid preconditioner, which must be cloned for threads: the second set-up has changed the flag of the first. -/
theorem C130_violated_shared (l : LinSol K) (sm : Smoother) (threads N rows M : Nat) (hM : 0 < M) (hr : rows ≠ 0) (ht : l.type = .iterative) (hu : l.uzawa = false)
    (hm : l.mortarpre = .schurSchwarz) (hp : l.precond = .amg) (h2 : 2 ≤ threads) :
    ∃ r, setupSolvers (.amg1 sm) l threads N rows M = some r ∧ objects r.solvers = List.replicate threads 0 ∧ r.heap[0]? = some (.amg1 sm) ∧ ¬ Private r.heap (objects r.solvers) := by
  have hf : (create (.amg1 sm) ⟨[], false⟩).1.heap[(create (.amg1 sm) ⟨[], false⟩).2]? = some (.amg1 sm) := rfl
  obtain ⟨s1, cols, h1, _, h3, h4⟩ := schur_spec l (.amg1 sm) (create (.amg1 sm) ⟨[], false⟩).2 M (create (.amg1 sm) ⟨[], false⟩).1 hM hf rfl
  have hc : s1.copy = false := by
    rw [(h3 (by rw [hm]; decide)).2.2.2, hm, hp]; rfl
  obtain ⟨s', objs, h5, _, _, _, h7, _⟩ := prepare_spec threads (create (.amg1 sm) ⟨[], false⟩).2 s1 (.amg1 sm) (h4 _ _ hf)
  obtain ⟨ho, hs⟩ := h7 hc
  subst ho; subst hs
  refine ⟨⟨s'.heap, cols, (List.replicate threads (create (.amg1 sm) ⟨[], false⟩).2).map fun o => if l.symmetric then .minres o else .gmres o, N + M⟩, ?_, ?_, h4 _ _ hf, ?_⟩
  · unfold setupSolvers setupMortar
    rw [ht]
    simp only [if_pos hr, h1, Option.bind_some, hu, Bool.false_eq_true, if_false, h5, Option.map_some]
  · rw [objects_mortar]; rfl
  · intro hpriv
    rw [objects_mortar] at hpriv
    have e : ∀ k < threads, (List.replicate threads (create (.amg1 sm) ⟨[], false⟩).2)[k]? = some 0 := by
      intro k hk
      rw [List.getElem?_replicate, if_pos hk]; rfl
    have := hpriv 0 1 0 (by decide) (e 0 (by omega)) (e 1 (by omega))
    have h0 : s'.heap[0]? = some (.amg1 sm) := h4 _ _ hf
    rw [h0] at this
    cases this

/-- C130. With the heuristic choice of C129 (two-level announced, multigrid used) a Schur complement that is asked for with the two-level method is computed with multigrid. -/
theorem C130_violated_twolevel (l : LinSol K) (sm : Smoother) (threads N rows M : Nat) (hM : 0 < M) (hr : rows ≠ 0) (ht : l.type = .iterative) (hm : l.mortarpre = .schurTwolevel)
    (hp : l.precond = .twolevel) (r : Setup) (h : setupSolvers (.amg1 sm) l threads N rows M = some r) : ∀ c ∈ r.columns, r.heap[c.2]? = some (.amg1 sm) := by
  have := ((C130_schur (.amg1 sm) l threads N rows M hM r h ht hr).2 (by rw [hm]; decide)).2.1
  rw [hm, hp] at this
  exact this

/-- C130. A load case is solved by the solver of the thread, starting from zero, if there is one; an exception of the solver library gives a message and the vector as it is. -/
theorem C130_solve {V : Type} (tsolver : List (V → V → Applied V)) (zero : V) (thread : Nat) (b : V) :
    (solve tsolver zero thread b = none ↔ tsolver.length ≤ thread) ∧
    ∀ f, tsolver[thread]? = some f → (∀ x c, f zero b = .done x c → solve tsolver zero thread b = some (x, false)) ∧ ∀ x, f zero b = .error x → solve tsolver zero thread b = some (x, true) := by
  unfold solve
  refine ⟨by simp, fun f hf => ⟨fun x c h => by simp [hf, h], fun x h => by simp [hf, h]⟩⟩

/-- C130. Whether the solver has converged is not looked at: a vector that is no solution is taken without a message. -/
theorem C130_violated_converged {V : Type} (zero b x : V) : solve [fun _ _ => Applied.done x false] zero 0 b = some (x, false) ∧ solve [fun _ _ => Applied.done x true] zero 0 b = some (x, false) := ⟨rfl, rfl⟩

/-! ### Hypotheses are met -/

/-- Options of the solver: multigrid, Schur complement with Schwarz. -/
def someSolver (mp : MortarPre) (pre : Pre) : LinSol Nat :=
  { type := .iterative, restart := 1000, maxit := 10000, tol := 0, symmetric := true, uzawa := false, pre := 2, post := 2, coarsen := 5000, zcells := 2, report := false, smoother := .ssor, precond := pre, mortarpre := mp }

example : setupSolvers (.amg1 .ssor) (someSolver .schurSchwarz .amg) 2 9 9 3 =
    some ⟨[.amg1 .ssor, .schwarz], [(0, 1), (1, 1), (2, 1)], [.minres 0, .minres 0], 12⟩ := by decide +kernel

example : setupSolvers (.amg1 .ssor) (someSolver .schur .amg) 2 9 9 3 =
    some ⟨[.amg1 .ssor, .amg1 .ssor, .amg1 .ssor, .amg1 .ssor], [(0, 0), (1, 1), (2, 2)], [.minres 0, .minres 3], 12⟩ := by decide +kernel

end Verif.ElasticSolvers
