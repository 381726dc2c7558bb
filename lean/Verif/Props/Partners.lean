import Verif.Lemmas.Boundary
import Verif.Spec.Boundary

/-!
C04: periodic partner registration is a symmetric matching (`PeriodicConditionHandler`).
C09: boundary condition kind of the upscaler.
-/

namespace Verif.Boundary

open Handler

/-- The registered partners form a symmetric relation on ids `≥ 1`. -/
def Symm (h : Handler) : Prop :=
  ∀ a b, h.getPartner a = some b → b ≠ 0 → 1 ≤ a ∧ h.getPartner b = some a

/-- Exact acceptance condition and effect of a registration: it succeeds iff both ids are in range and without
partner; afterwards the two are each other's partner and nobody else's partner changed. -/
theorem C04_register_exact (h : Handler) (a b : Nat) :
    ((h.setPartners a b).isSome ↔ h.getPartner a = some 0 ∧ h.getPartner b = some 0) ∧
    ∀ h', h.setPartners a b = some h' →
      h'.getPartner a = some b ∧ h'.getPartner b = some a ∧
      (∀ x, x ≠ a → x ≠ b → h'.getPartner x = h.getPartner x) ∧ (∀ x, h'.getCanon x = h.getCanon x) := by
  unfold Handler.setPartners Handler.getPartner Handler.getCanon
  constructor
  · constructor
    · intro hs
      split at hs
      · rename_i hc; exact ⟨hc.2.2.1, hc.2.2.2⟩
      · simp at hs
    · rintro ⟨h1, h2⟩
      have l1 := (List.getElem?_eq_some_iff.mp h1).1
      have l2 := (List.getElem?_eq_some_iff.mp h2).1
      rw [if_pos ⟨l1, l2, h1, h2⟩]; rfl
  · intro h' hs
    split at hs
    · rename_i hc
      obtain ⟨l1, l2, h1, h2⟩ := hc
      cases hs
      simp only [List.getElem?_set, List.length_set, l1, l2, if_true]
      refine ⟨?_, trivial, ?_, fun x => trivial⟩
      · split <;> simp_all
      · intro x hxa hxb
        have g1 : ¬ a = x := fun h => hxa h.symm
        have g2 : ¬ b = x := fun h => hxb h.symm
        simp [g1, g2]
    · cases hs

example : (Handler.mkN 4).setPartners 1 3 = some ⟨[0, 3, 0, 1], [0, 0, 0, 0]⟩ := by decide

/-- Growing the table keeps every registered pair and every canonical id; new ids have no partner. -/
theorem C04_growth_keeps (h : Handler) (n : Nat) (hn : h.partner.length ≤ n) (x : Nat) :
    (x < h.partner.length → (h.resize n).getPartner x = h.getPartner x) ∧
    (h.partner.length ≤ x → x < n → (h.resize n).getPartner x = some 0) ∧
    (h.canon.length ≤ n → x < h.canon.length → (h.resize n).getCanon x = h.getCanon x) := by
  unfold Handler.getPartner Handler.getCanon Handler.resize
  simp only [getElem?_resizeList]
  refine ⟨fun hx => ?_, fun hx hx' => ?_, fun hc hx => ?_⟩
  · have : x < n := by omega
    simp [this, hx]
  · have : ¬ x < h.partner.length := by omega
    simp [hx', this]
  · have : x < n := by omega
    simp [this, hx]

example : ((Handler.mkN 4).run [.setPartners 1 3, .resize 9]).getPartner 3 = some 1 := by decide

theorem step_setCanon (h : Handler) (x c y : Nat) : (h.step (.setCanon x c)).getPartner y = h.getPartner y := by
  simp only [Handler.step, Handler.setCanon, Handler.getPartner]
  split <;> rfl

theorem symm_step (h : Handler) (op : Op) (hs : Symm h) (hok : Allowed h [op]) : Symm (h.step op) := by
  intro a b hab hb
  cases op with
  | clear => simp [Handler.step, Handler.clear, Handler.getPartner] at hab
  | resize n =>
    have hn : h.partner.length ≤ n := hok.1
    have hpa : h.getPartner a = some b := by
      simp only [Handler.step, Handler.getPartner, Handler.resize, getElem?_resizeList] at hab
      split at hab
      · split at hab
        · exact hab
        · cases hab; exact absurd rfl hb
      · cases hab
    obtain ⟨h1, h2⟩ := hs a b hpa hb
    refine ⟨h1, ?_⟩
    have hbl : b < h.partner.length := (List.getElem?_eq_some_iff.mp h2).1
    rw [Handler.step, (C04_growth_keeps h n hn b).1 hbl, h2]
  | setCanon x c =>
    have e : ∀ y, (h.step (.setCanon x c)).getPartner y = h.getPartner y := by
      intro y
      exact step_setCanon h x c _
    rw [e] at hab
    rw [e]
    exact hs a b hab hb
  | setPartners c d =>
    obtain ⟨hc1, hd1⟩ : 1 ≤ c ∧ 1 ≤ d := hok.1
    cases hsp : h.setPartners c d with
    | none =>
      have e : h.step (.setPartners c d) = h := by simp [Handler.step, hsp]
      rw [e] at hab ⊢
      exact hs a b hab hb
    | some h' =>
      have e : h.step (.setPartners c d) = h' := by simp [Handler.step, hsp]
      rw [e] at hab ⊢
      obtain ⟨hz, heff⟩ := C04_register_exact h c d
      obtain ⟨hzc, hzd⟩ := hz.mp (by rw [hsp]; rfl)
      obtain ⟨p1, p2, p3, _⟩ := heff h' hsp
      by_cases hac : a = c
      · subst hac
        rw [p1] at hab; cases hab
        exact ⟨hc1, p2⟩
      · by_cases had : a = d
        · subst had
          rw [p2] at hab; cases hab
          exact ⟨hd1, p1⟩
        · rw [p3 a hac had] at hab
          obtain ⟨h1, h2⟩ := hs a b hab hb
          refine ⟨h1, ?_⟩
          have hbc : b ≠ c := by rintro rfl; rw [hzc] at h2; cases h2; omega
          have hbd : b ≠ d := by rintro rfl; rw [hzd] at h2; cases h2; omega
          rw [p3 b hbc hbd, h2]

theorem allowed_head {h : Handler} {op : Op} {ops : List Op} (hok : Allowed h (op :: ops)) : Allowed h [op] :=
  ⟨hok.1, trivial⟩

theorem symm_run (ops : List Op) : ∀ h : Handler, Symm h → Allowed h ops → Symm (h.run ops) := by
  induction ops with
  | nil => intro h hs _; exact hs
  | cons op ops ih =>
    intro h hs hok
    exact ih (h.step op) (symm_step h op hs (allowed_head hok)) hok.2

/-- Where does a partner come from: it was in the table before, or it was registered. -/
theorem partner_origin (ops : List Op) : ∀ (h : Handler) (a b : Nat), (h.run ops).getPartner a = some b → b ≠ 0 →
    h.getPartner a = some b ∨ .setPartners a b ∈ ops ∨ .setPartners b a ∈ ops := by
  induction ops with
  | nil => intro h a b hab _; exact Or.inl hab
  | cons op ops ih =>
    intro h a b hab hb
    rcases ih (h.step op) a b hab hb with h1 | h1 | h1
    · cases op with
      | clear => simp [Handler.step, Handler.clear, Handler.getPartner] at h1
      | resize n =>
        simp only [Handler.step, Handler.getPartner, Handler.resize, getElem?_resizeList] at h1
        split at h1
        · split at h1
          · exact Or.inl h1
          · cases h1; exact absurd rfl hb
        · cases h1
      | setCanon x c =>
        refine Or.inl ?_
        rw [← h1]
        exact (step_setCanon h x c _).symm
      | setPartners c d =>
        cases hsp : h.setPartners c d with
        | none =>
          have e : h.step (.setPartners c d) = h := by simp [Handler.step, hsp]
          rw [e] at h1; exact Or.inl h1
        | some h' =>
          have e : h.step (.setPartners c d) = h' := by simp [Handler.step, hsp]
          rw [e] at h1
          obtain ⟨p1, p2, p3, _⟩ := (C04_register_exact h c d).2 h' hsp
          by_cases hac : a = c
          · subst hac; rw [p1] at h1; cases h1; exact Or.inr (Or.inl (by simp))
          · by_cases had : a = d
            · subst had; rw [p2] at h1; cases h1; exact Or.inr (Or.inr (by simp))
            · rw [p3 a hac had] at h1; exact Or.inl h1
    · exact Or.inr (Or.inl (by simp [h1]))
    · exact Or.inr (Or.inr (by simp [h1]))

/-- C04 for every allowed history starting from a fresh table of any size: the partner of the partner is the id
itself, and only registered pairs are reported (so an id is its own partner only if registered with itself).
Missing for the full claim: histories that shrink the table or register id 0, for which it is false, see
`C04_symmetry_violated_by_shrink` and `C04_symmetry_violated_by_id_zero`. -/
theorem C04_symmetric_partial (n : Nat) (ops : List Op) (hok : Allowed (Handler.mkN n) ops) (a b : Nat)
    (hab : ((Handler.mkN n).run ops).getPartner a = some b) (hb : b ≠ 0) :
    ((Handler.mkN n).run ops).getPartner b = some a ∧
      (.setPartners a b ∈ ops ∨ .setPartners b a ∈ ops) := by
  have h0 : ∀ a b, (Handler.mkN n).getPartner a = some b → b = 0 := by
    intro a b h
    simp only [Handler.mkN, Handler.getPartner, List.getElem?_replicate] at h
    split at h
    · cases h; rfl
    · cases h
  have hs : Symm (Handler.mkN n) := fun a b h hb => absurd (h0 a b h) hb
  refine ⟨(symm_run ops _ hs hok a b hab hb).2, ?_⟩
  rcases partner_origin ops _ a b hab hb with h | h | h
  · exact absurd (h0 a b h) hb
  · exact Or.inl h
  · exact Or.inr h

example : Allowed (Handler.mkN 4) [.setPartners 1 3, .setCanon 1 5, .resize 7, .setPartners 6 2, .setPartners 3 4] ∧
    ((Handler.mkN 4).run [.setPartners 1 3, .setCanon 1 5, .resize 7, .setPartners 6 2, .setPartners 3 4]).getPartner 2 = some 6 := by
  refine ⟨?_, by decide⟩
  simp only [Allowed]
  decide

/-- A registered pair stays registered under any allowed history without `clear`. -/
theorem C04_registration_persists (h : Handler) (a b : Nat) (ha : 1 ≤ a) (hb : 1 ≤ b)
    (hreg : h.getPartner a = some b) (ops : List Op) (hok : Allowed h ops) (hnc : Op.clear ∉ ops) :
    (h.run ops).getPartner a = some b := by
  induction ops generalizing h with
  | nil => exact hreg
  | cons op ops ih =>
    refine ih (h.step op) ?_ hok.2 (fun hm => hnc (by simp [hm]))
    cases op with
    | clear => simp at hnc
    | resize n =>
      have : a < h.partner.length := (List.getElem?_eq_some_iff.mp hreg).1
      rw [Handler.step, (C04_growth_keeps h n hok.1 a).1 this, hreg]
    | setCanon x c =>
      rw [← hreg]
      exact step_setCanon h x c _
    | setPartners c d =>
      cases hsp : h.setPartners c d with
      | none => simp [Handler.step, hsp, hreg]
      | some h' =>
        have e : h.step (.setPartners c d) = h' := by simp [Handler.step, hsp]
        rw [e]
        obtain ⟨hz, heff⟩ := C04_register_exact h c d
        obtain ⟨hzc, hzd⟩ := hz.mp (by rw [hsp]; rfl)
        obtain ⟨_, _, p3, _⟩ := heff h' hsp
        have hac : a ≠ c := by rintro rfl; rw [hzc] at hreg; cases hreg; omega
        have had : a ≠ d := by rintro rfl; rw [hzd] at hreg; cases hreg; omega
        rw [p3 a hac had, hreg]

example : Allowed ⟨[0, 3, 0, 1], [0, 0, 0, 0]⟩ [.setPartners 1 2, .resize 5, .setPartners 2 4] ∧
    Op.clear ∉ [Op.setPartners 1 2, .resize 5, .setPartners 2 4] := by
  refine ⟨?_, by decide⟩
  simp only [Allowed]
  decide

/-- Shrinking cuts pairs in half: after register(1,5), shrink to 3 and grow again, 1 still reports 5 but 5
reports no partner. -/
theorem C04_symmetry_violated_by_shrink :
    ∃ ops : List Op, (∀ a b, Op.setPartners a b ∈ ops → 1 ≤ a ∧ 1 ≤ b) ∧
      ((Handler.mkN 0).run ops).getPartner 1 = some 5 ∧ ((Handler.mkN 0).run ops).getPartner 5 = some 0 := by
  refine ⟨[.resize 6, .setPartners 1 5, .resize 3, .resize 6], ?_, by decide, by decide⟩
  intro a b h; simp at h; omega

/-- Registering id 0 as a partner is accepted but leaves no trace on the other side, which can then be registered
a second time. -/
theorem C04_symmetry_violated_by_id_zero :
    ∃ h1 h2, (Handler.mkN 4).setPartners 0 1 = some h1 ∧ h1.setPartners 1 2 = some h2 ∧
      h2.getPartner 0 = some 1 ∧ h2.getPartner 1 = some 2 := by
  exact ⟨⟨[1, 0, 0, 0], [0, 0, 0, 0]⟩, ⟨[1, 2, 1, 0], [0, 0, 0, 0]⟩, by decide, by decide, by decide, by decide⟩

/-! ### C09 -/

/-- C09: whatever type the upscaler was initialised with and whatever types are requested afterwards, the upscaler
is periodic iff it was initialised periodic. -/
theorem C09_periodic_kind_invariant (t : UType) (ts : List UType) :
    ((UState.init t).runCalls ts).bctype = .periodic ↔ t = .periodic := by
  have key : ∀ (ts : List UType) (s : UState), (s.runCalls ts).bctype = .periodic ↔ s.bctype = .periodic := by
    intro ts
    induction ts with
    | nil => intro s; exact Iff.rfl
    | cons u ts ih =>
      intro s
      rw [UState.runCalls, List.foldl_cons]
      rw [show List.foldl (fun s t => (s.setType t).2) (s.setType u).2 ts = (s.setType u).2.runCalls ts from rfl, ih]
      unfold UState.setType
      split
      · exact Iff.rfl
      · rename_i h
        simp only
        by_cases h1 : u = .periodic <;> by_cases h2 : s.bctype = .periodic <;> simp_all
  exact key ts _

/-- C09: in every state reached from an initialised upscaler, a request throws iff it would change the periodic
kind; then nothing changes. Otherwise the requested type is in force, and the grid hands out unique boundary ids
exactly for linear and periodic conditions. -/
theorem C09_call_effect (t : UType) (ts : List UType) (u : UType) :
    let s := (UState.init t).runCalls ts
    ((s.setType u).1 = .error .thrown ↔ ¬ (u = .periodic ↔ t = .periodic)) ∧
    ((s.setType u).1 = .error .thrown → (s.setType u).2 = s) ∧
    ((s.setType u).1 ≠ .error .thrown → (s.setType u).1 = .ok () ∧ (s.setType u).2.bctype = u) := by
  intro s
  have hk := C09_periodic_kind_invariant t ts
  change s.bctype = .periodic ↔ t = .periodic at hk
  unfold UState.setType
  refine ⟨?_, ?_, ?_⟩
  · rw [← hk]
    split
    · rename_i h; simp; tauto
    · rename_i h; simp; tauto
  · split <;> simp
  · split <;> simp

/-- C09: in every reachable state unique boundary ids are switched on exactly when the type needs them. -/
theorem C09_unique_ids_follow_type (t : UType) (ts : List UType) :
    ((UState.init t).runCalls ts).uniqueIds = true ↔
      ((UState.init t).runCalls ts).bctype = .linear ∨ ((UState.init t).runCalls ts).bctype = .periodic := by
  have key : ∀ (ts : List UType) (s : UState), (s.uniqueIds = true ↔ s.bctype = .linear ∨ s.bctype = .periodic) →
      ((s.runCalls ts).uniqueIds = true ↔ (s.runCalls ts).bctype = .linear ∨ (s.runCalls ts).bctype = .periodic) := by
    intro ts
    induction ts with
    | nil => intro s h; exact h
    | cons u ts ih =>
      intro s h
      refine ih (s.setType u).2 ?_
      unfold UState.setType
      split
      · exact h
      · simp; tauto
  exact key ts _ (by simp [UState.init])

example : ((UState.init .fixed).runCalls [.linear, .periodic, .fixed, .linear]) = ⟨.linear, true⟩ := by decide

end Verif.Boundary
