import Verif.Props.AsmChain
import Verif.Props.Asm

/-! Constraints after the resolution of chains. -/

namespace Verif.Asm

variable {K : Type} [Field K] [LinearOrder K] [IsStrictOrderedRing K]

theorem mem_subst {dim : Nat} {tol : K} {M : Nat → Option (Mpc K)} {c : Mpc K} {a : Master K} (h : a ∈ (subst dim tol M c).masters) :
    a ∈ c.masters ∨ ∃ b ∈ c.masters, ∃ r, M (b.node * dim + b.dof) = some r ∧ ∃ d ∈ r.masters, a.node = d.node ∧ a.dof = d.dof := by
  unfold subst partly at h
  simp only [List.append_nil, List.mem_append, List.mem_flatMap] at h
  rcases h with h | ⟨b, hb, h⟩
  · exact .inl (List.mem_filter.mp h).1
  · refine .inr ⟨b, hb, ?_⟩
    unfold flat1 repl at h
    by_cases ht : |b.coeff| > tol
    · rw [if_pos ht] at h
      cases hm : M (b.key dim) with
      | none => rw [hm] at h; simp at h
      | some r =>
        rw [hm] at h
        unfold scaledMasters at h
        obtain ⟨h, -⟩ := List.mem_filter.mp h
        obtain ⟨d, hd, rfl⟩ := List.mem_map.mp h
        exact ⟨r, hm, d, hd, rfl, rfl⟩
    · rw [if_neg ht] at h; simp at h

/-- A property of constraints that substitution preserves holds after the resolution. -/
theorem resolved_induction {dim : Nat} {tol : K} {rank : Nat → Nat} {M M' : Nat → Option (Mpc K)} (hr : Ranked dim rank M)
    (hdom : ∀ s, (M' s).isSome = (M s).isSome) (hsub : ∀ s c, M s = some c → M' s = some (subst dim tol M' c))
    (P : Mpc K → Prop)
    (hP : ∀ s c, M s = some c → (∀ a ∈ c.masters, ∀ r, M' (a.node * dim + a.dof) = some r → P r) → P (subst dim tol M' c)) :
    ∀ s c, M' s = some c → P c := by
  have key : ∀ n s, rank s = n → ∀ c, M' s = some c → P c := by
    intro n
    induction n using Nat.strong_induction_on with
    | _ n ih =>
      intro s hs c hc
      have h1 : (M s).isSome := by rw [← hdom, hc]; rfl
      obtain ⟨c0, hc0⟩ := Option.isSome_iff_exists.mp h1
      have h2 := hsub s c0 hc0
      rw [hc] at h2
      cases h2
      exact hP s c0 hc0 fun a ha r hr' => ih _ (by rw [← hs]; exact hr s c0 hc0 a ha) _ rfl r hr'
  exact fun s => key _ s rfl

theorem resolved_masters {dim : Nat} {tol : K} {rank : Nat → Nat} {M M' : Nat → Option (Mpc K)} (hr : Ranked dim rank M)
    (hdom : ∀ s, (M' s).isSome = (M s).isSome) (hsub : ∀ s c, M s = some c → M' s = some (subst dim tol M' c))
    (Q : Nat → Nat → Prop) (hQ : ∀ s c, M s = some c → ∀ a ∈ c.masters, Q a.node a.dof) :
    ∀ s c, M' s = some c → ∀ a ∈ c.masters, Q a.node a.dof := by
  refine resolved_induction hr hdom hsub (fun c => ∀ a ∈ c.masters, Q a.node a.dof) fun s c hc ih a ha => ?_
  rcases mem_subst ha with h | ⟨b, hb, r, hr', d, hd, e1, e2⟩
  · exact hQ s c hc a h
  · rw [e1, e2]; exact ih b hb r hr' d hd

theorem resolved_offset {dim : Nat} {tol : K} {rank : Nat → Nat} {M M' : Nat → Option (Mpc K)} (hr : Ranked dim rank M)
    (hdom : ∀ s, (M' s).isSome = (M s).isSome) (hsub : ∀ s c, M s = some c → M' s = some (subst dim tol M' c))
    (h0 : ∀ s c, M s = some c → c.offset = 0) : ∀ s c, M' s = some c → c.offset = 0 := by
  refine resolved_induction hr hdom hsub (fun c => c.offset = 0) fun s c hc ih => ?_
  unfold subst partly
  dsimp only
  rw [h0 s c hc, zero_add]
  apply List.sum_eq_zero
  intro x hx
  obtain ⟨a, ha, rfl⟩ := List.mem_map.mp hx
  unfold off1 repl
  by_cases ht : |a.coeff| > tol
  · rw [if_pos ht]
    cases hm : M' (a.key dim) with
    | none => rfl
    | some r =>
      change r.offset * a.coeff = 0
      rw [ih a ha r hm, zero_mul]
  · rw [if_neg ht]

theorem subst_tie {dim : Nat} {tol : K} (ht : tol < 1) {M : Nat → Option (Mpc K)} {c : Mpc K} {a : Master K} (hc : c.masters = [a])
    (ha : a.coeff = 1) :
    (M (a.node * dim + a.dof) = none → (subst dim tol M c).masters = [a]) ∧
    ∀ r b, M (a.node * dim + a.dof) = some r → r.masters = [b] → b.coeff = 1 →
      (subst dim tol M c).masters = [⟨b.node, b.dof, 1⟩] := by
  have hgt : |a.coeff| > tol := by rw [ha, abs_one]; exact ht
  have hs : (subst dim tol M c).masters = kept dim tol M [a] ++ flat1 dim tol M a := by
    unfold subst partly
    simp [hc]
  constructor
  · intro hm
    rw [hs]
    have hm' : M (a.key dim) = none := hm
    have e1 : kept dim tol M [a] = [a] := by
      unfold kept
      simp [hgt, hm']
    have e2 : flat1 dim tol M a = [] := by
      unfold flat1 repl
      rw [if_pos hgt, hm']
    rw [e1, e2, List.append_nil]
  · intro r b hm hb hb1
    rw [hs]
    have hm' : M (a.key dim) = some r := hm
    have e1 : kept dim tol M [a] = [] := by
      unfold kept
      simp [hm']
    have e2 : flat1 dim tol M a = [⟨b.node, b.dof, 1⟩] := by
      unfold flat1 repl
      rw [if_pos hgt, hm']
      unfold scaledMasters
      simp [hb, hb1, ha, ht]
    rw [e1, e2, List.nil_append]

theorem resolved_tie {dim : Nat} {tol : K} (ht : tol < 1) {rank : Nat → Nat} {M M' : Nat → Option (Mpc K)} (hr : Ranked dim rank M)
    (hdom : ∀ s, (M' s).isSome = (M s).isSome) (hsub : ∀ s c, M s = some c → M' s = some (subst dim tol M' c))
    (h0 : ∀ s c, M s = some c → Tie c) : ∀ s c, M' s = some c → Tie c := by
  refine resolved_induction hr hdom hsub Tie fun s c hc ih => ?_
  obtain ⟨a, ha, h1⟩ := h0 s c hc
  cases hm : M' (a.node * dim + a.dof) with
  | none => exact ⟨a, (subst_tie ht ha h1).1 hm, h1⟩
  | some r =>
    obtain ⟨b, hb, hb1⟩ := ih a (by rw [ha]; exact List.mem_singleton.mpr rfl) r hm
    exact ⟨_, (subst_tie ht ha h1).2 r b hm hb hb1, rfl⟩

/-- Values that satisfy the resolved ties satisfy the original ones. -/
theorem tie_values {dim : Nat} {tol : K} (ht : tol < 1) {rank : Nat → Nat} {M M' : Nat → Option (Mpc K)} (hr : Ranked dim rank M)
    (hdom : ∀ s, (M' s).isSome = (M s).isSome) (hsub : ∀ s c, M s = some c → M' s = some (subst dim tol M' c))
    (h0 : ∀ s c, M s = some c → Tie c) (v : Nat → K)
    (hv : ∀ s c, M' s = some c → v s = (c.masters.map fun a => a.coeff * v (a.node * dim + a.dof)).sum) :
    ∀ s c a, M s = some c → c.masters = [a] → v s = v (a.node * dim + a.dof) := by
  intro s c a hc ha
  have h1 : a.coeff = 1 := by
    obtain ⟨a', ha', h1⟩ := h0 s c hc
    rw [ha] at ha'
    cases ha'
    exact h1
  have hs := hv s _ (hsub s c hc)
  cases hm : M' (a.node * dim + a.dof) with
  | none =>
    rw [(subst_tie ht ha h1).1 hm] at hs
    rw [hs]
    simp [h1]
  | some r =>
    obtain ⟨b, hb, hb1⟩ := resolved_tie ht hr hdom hsub h0 _ r hm
    rw [(subst_tie ht ha h1).2 r b hm hb hb1] at hs
    rw [hs, hv _ r hm, hb]
    simp [hb1]

end Verif.Asm
