import Verif.Lemmas.EulerRange

/-! Interleavings of unsynchronised additions. -/

namespace Verif.Euler

open Spec

variable {K M : Type} [Field K] [LinearOrder K]

/-- Total of the additions to entry `i` in a list of additions. -/
def pend (l : List (Nat × K)) (i : Nat) : K := (l.map fun e => if e.1 = i then e.2 else 0).sum

theorem pend_append (a b : List (Nat × K)) (i : Nat) : pend (a ++ b) i = pend a i + pend b i := by
  simp [pend]

theorem pend_cons (e : Nat × K) (b : List (Nat × K)) (i : Nat) :
    pend (e :: b) i = (if e.1 = i then e.2 else 0) + pend b i := by
  simp [pend]

theorem pend_nil (i : Nat) : pend ([] : List (Nat × K)) i = 0 := rfl

/-- A thread's loaded value is still current. -/
def RegOk (mem : Nat → K) (t : Thread K) : Prop :=
  ∀ v i x rest, t.reg = some v → t.todo = (i, x) :: rest → v = mem i

/-- The entries a thread still writes. -/
def Touches (t : Thread K) (i : Nat) : Prop := ∃ e ∈ t.todo, e.1 = i

theorem threadStep_inv (mem : Nat → K) (a b : Thread K) (hd : ∀ i, Touches a i → ¬ Touches b i)
    (ha : RegOk mem a) (hb : RegOk mem b) :
    (∀ i, (threadStep mem a).1 i + pend (threadStep mem a).2.todo i = mem i + pend a.todo i) ∧
    RegOk (threadStep mem a).1 (threadStep mem a).2 ∧ RegOk (threadStep mem a).1 b ∧
    (∀ i, Touches (threadStep mem a).2 i → Touches a i) := by
  obtain ⟨todo, reg⟩ := a
  cases todo with
  | nil => exact ⟨fun _ => rfl, ha, hb, fun _ h => h⟩
  | cons e rest =>
    obtain ⟨i, x⟩ := e
    cases reg with
    | none =>
      refine ⟨fun _ => rfl, ?_, hb, fun _ h => h⟩
      intro v j y r h1 h2
      simp only [threadStep, Option.some.injEq, List.cons.injEq, Prod.mk.injEq] at h1 h2
      rw [← h1, h2.1.1]; rfl
    | some v =>
      have hv : v = mem i := ha v i x rest rfl rfl
      refine ⟨?_, ?_, ?_, ?_⟩
      · intro j
        simp only [threadStep, pend_cons]
        by_cases h : j = i
        · subst h; simp [hv, add_assoc]
        · have : ¬ i = j := fun e => h e.symm
          simp [h, this]
      · intro w j y r h1 _; simp [threadStep] at h1
      · intro w j y r h1 h2
        have h3 := hb w j y r h1 h2
        have h4 : j ≠ i := by
          intro e
          exact hd i ⟨(i, x), List.mem_cons_self, rfl⟩ ⟨(j, y), by rw [h2]; exact List.mem_cons_self, e⟩
        simp [threadStep, h4, h3]
      · rintro j ⟨e, he, hj⟩
        exact ⟨e, List.mem_cons_of_mem _ he, hj⟩

theorem runSchedule_inv (sch : List Bool) (mem : Nat → K) (a b : Thread K)
    (hd : ∀ i, Touches a i → ¬ Touches b i) (ha : RegOk mem a) (hb : RegOk mem b) (i : Nat) :
    (runSchedule sch (mem, a, b)).1 i + pend (runSchedule sch (mem, a, b)).2.1.todo i
      + pend (runSchedule sch (mem, a, b)).2.2.todo i = mem i + pend a.todo i + pend b.todo i := by
  induction sch generalizing mem a b with
  | nil => rfl
  | cons s sch ih =>
    cases s with
    | false =>
      obtain ⟨h1, h2, h3, h4⟩ := threadStep_inv mem a b hd ha hb
      have := ih (threadStep mem a).1 (threadStep mem a).2 b (fun j hj => hd j (h4 j hj)) h2 h3
      simp only [runSchedule]
      rw [this, h1 i]
    | true =>
      obtain ⟨h1, h2, h3, h4⟩ := threadStep_inv mem b a (fun j hj hj' => hd j hj' hj) hb ha
      have := ih (threadStep mem b).1 a (threadStep mem b).2 (fun j hj hj' => hd j hj (h4 j hj')) h3 h2
      simp only [runSchedule]
      rw [this, add_right_comm, h1 i, add_right_comm]

theorem runSchedule_append (s1 s2 : List Bool) (st : (Nat → K) × Thread K × Thread K) :
    runSchedule (s1 ++ s2) st = runSchedule s2 (runSchedule s1 st) := by
  induction s1 generalizing st with
  | nil => rfl
  | cons s s1 ih =>
    obtain ⟨m, a, b⟩ := st
    cases s <;> simp only [List.cons_append, runSchedule, ih]

theorem solo_first (l rest : List (Nat × K)) (mem : Nat → K) (b : Thread K) :
    runSchedule (List.replicate (2 * l.length) false) (mem, ⟨l ++ rest, none⟩, b) =
      (fun j => mem j + pend l j, ⟨rest, none⟩, b) := by
  induction l generalizing mem with
  | nil => simp [runSchedule, pend]
  | cons e l ih =>
    obtain ⟨i, x⟩ := e
    rw [List.length_cons, show 2 * (l.length + 1) = 2 * l.length + 2 by ring, List.replicate_succ, List.replicate_succ]
    simp only [runSchedule, threadStep, List.cons_append, ih, pend_cons]
    congr 1
    funext j
    by_cases h : j = i
    · subst h; simp [add_assoc]
    · have : ¬ i = j := fun e => h e.symm
      simp [h, this]

theorem solo_second (l rest : List (Nat × K)) (mem : Nat → K) (a : Thread K) :
    runSchedule (List.replicate (2 * l.length) true) (mem, a, ⟨l ++ rest, none⟩) =
      (fun j => mem j + pend l j, a, ⟨rest, none⟩) := by
  induction l generalizing mem with
  | nil => simp [runSchedule, pend]
  | cons e l ih =>
    obtain ⟨i, x⟩ := e
    rw [List.length_cons, show 2 * (l.length + 1) = 2 * l.length + 2 by ring, List.replicate_succ, List.replicate_succ]
    simp only [runSchedule, threadStep, List.cons_append, ih, pend_cons]
    congr 1
    funext j
    by_cases h : j = i
    · subst h; simp [add_assoc]
    · have : ¬ i = j := fun e => h e.symm
      simp [h, this]

/-- A schedule under which an addition is lost. -/
theorem lost_update (a1 a2 b1 b2 : List (Nat × K)) (i : Nat) (x y : K) (mem : Nat → K) :
    ∃ sch, runSchedule sch (mem, ⟨a1 ++ (i, x) :: a2, none⟩, ⟨b1 ++ (i, y) :: b2, none⟩) =
      (fun j => mem j + pend (a1 ++ (i, x) :: a2) j + pend (b1 ++ (i, y) :: b2) j - (if j = i then x else 0),
        ⟨[], none⟩, ⟨[], none⟩) := by
  refine ⟨List.replicate (2 * a1.length) false ++ (List.replicate (2 * b1.length) true ++
    ([false, true, false, true] ++ (List.replicate (2 * a2.length) false ++
      List.replicate (2 * b2.length) true))), ?_⟩
  rw [runSchedule_append, solo_first, runSchedule_append, solo_second, runSchedule_append]
  simp only [runSchedule, threadStep]
  rw [runSchedule_append]
  have e1 := solo_first a2 [] (fun j => if j = i then mem i + pend a1 i + pend b1 i + y else
    if j = i then mem i + pend a1 i + pend b1 i + x else mem j + pend a1 j + pend b1 j) ⟨b2, none⟩
  rw [List.append_nil] at e1
  rw [e1]
  have e2 := fun m : Nat → K => solo_second b2 [] m ⟨[], none⟩
  simp only [List.append_nil] at e2
  rw [e2]
  congr 1
  funext j
  simp only [pend_append, pend_cons]
  by_cases h : j = i
  · subst h; simp; ring
  · have : ¬ i = j := fun e => h e.symm
    simp [h, this]; ring

/-! ### The additions of the code -/

theorem faceEvents_spec (S : Setup K M) (sat : Nat → K) (c : Nat) (e : Face K × Nat) (d : Nat → K)
    (h : faceDelta S sat c e = .ok d) : ∃ l, faceEvents S sat c e = .ok l ∧ ∀ i, d i = pend l i := by
  unfold faceDelta at h
  unfold faceEvents
  cases ho : otherSide S sat c e.2 e.1 with
  | error x => simp [ho] at h
  | ok o =>
    cases o with
    | none =>
      simp only [ho, Except.ok.injEq] at h
      exact ⟨[], rfl, fun i => by rw [← h]; rfl⟩
    | some o =>
      simp only [ho] at h
      simp only [bind, Except.bind]
      cases hq : waterFlux S sat c e.1 o with
      | error x => simp [hq] at h
      | ok q =>
        simp only [hq] at h
        refine ⟨_, rfl, fun i => ?_⟩
        unfold fluxDelta at h
        split at h
        · injection h with h
          rw [← h]
          by_cases hc : c = o.cell
          · have hs : (c = i) = (i = c) := propext eq_comm
            simp [← hc, pend, hs]
          · have hs : (c = i) = (i = c) := propext eq_comm
            have hs' : (o.cell = i) = (i = o.cell) := propext eq_comm
            simp [hc, pend, hs, hs']
        · cases h

theorem mapM_ok {α β : Type} (f : α → Except Err β) (l : List α) (h : ∀ a ∈ l, ∃ b, f a = .ok b) :
    ∃ r, l.mapM f = .ok r ∧ List.Forall₂ (fun a b => f a = .ok b) l r := by
  induction l with
  | nil => exact ⟨[], rfl, .nil⟩
  | cons a l ih =>
    obtain ⟨b, hb⟩ := h a List.mem_cons_self
    obtain ⟨r, hr, hf⟩ := ih (fun x hx => h x (List.mem_cons_of_mem _ hx))
    refine ⟨b :: r, ?_, .cons hb hf⟩
    simp [List.mapM_cons, hb, hr, bind, Except.bind, pure, Except.pure]

theorem cellEvents_spec (S : Setup K M) (sat : Nat → K) (c : Nat) (r r' : Nat → K)
    (h : updateCell S sat r c = .ok r') :
    ∃ l, cellEvents S sat c = .ok l ∧ ∀ i, r' i = r i + pend l i := by
  unfold updateCell at h
  unfold cellEvents
  cases hc : S.grid[c]? with
  | none => simp [hc] at h
  | some cell =>
    simp only [hc] at h ⊢
    cases hf : cell.faces.zipIdx.foldlM (faceStep S sat c) r with
    | error x => simp [hf, bind, Except.bind] at h
    | ok r1 =>
      simp only [hf, bind, Except.bind] at h
      have h2 := (foldlM_additive (faceStep_additive S sat c) _ _ _).1 hf
      have h3 : ∀ e ∈ cell.faces.zipIdx, ∃ l, faceEvents S sat c e = .ok l := by
        intro e he
        obtain ⟨d, hd⟩ := h2.1 e he
        obtain ⟨l, hl, _⟩ := faceEvents_spec S sat c e d hd
        exact ⟨l, hl⟩
      obtain ⟨ls, hls, hfa⟩ := mapM_ok _ _ h3
      rw [hls]
      refine ⟨_, rfl, fun i => ?_⟩
      rw [addAt_eq] at h
      unfold addDelta at h
      split at h
      · simp only [Except.map, Except.ok.injEq] at h
        rw [← h]
        show r1 i + _ = _
        rw [h2.2 i, pend_append, add_assoc]
        congr 1
        have hs : (c = i) = (i = c) := propext eq_comm
        have : pend [(c, sourceTerm S sat c)] i = if i = c then sourceTerm S sat c else 0 := by simp [pend, hs]
        rw [this]
        congr 1
        have key : ∀ (l : List (Face K × Nat)) (ls : List (List (Nat × K))),
            (∀ e ∈ l, ∃ d, faceDelta S sat c e = .ok d) →
            List.Forall₂ (fun a b => faceEvents S sat c a = .ok b) l ls →
            (l.map fun e => match faceDelta S sat c e with | .ok d => d i | .error _ => 0).sum = pend ls.flatten i := by
          intro l ls h4 h5
          induction h5 with
          | nil => simp [pend]
          | cons ha _ ih =>
            rename_i a b l1 l2 _
            rw [List.map_cons, List.sum_cons, List.flatten_cons, pend_append,
              ih (fun e he => h4 e (List.mem_cons_of_mem _ he))]
            obtain ⟨d, hd⟩ := h4 a List.mem_cons_self
            obtain ⟨l', hl', hp⟩ := faceEvents_spec S sat c a d hd
            rw [ha] at hl'
            injection hl' with hl'
            rw [hd]
            simp only [hp, hl']
        exact key _ _ h2.1 hfa
      · simp [Except.map] at h

end Verif.Euler
