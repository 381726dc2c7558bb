import Mathlib.Tactic.Tauto
import Verif.Spec.PressureCalls

/-!
C134: which data each pressure solution of an upscaler is computed with.
-/

namespace Verif.Calls

open Spec

variable {G T S K : Type}

/-- The settings a state holds. -/
def held (s : State G T K) : Settings G T K := ⟨s.grid, s.perm, s.bc, s.gravity, s.useGravity⟩

theorem effective_eq (one : K) (s : State G T K) (fluid : Fluid S) :
    effectivePerm one s fluid = some ({ s with solver := some (s.grid, s.perm, s.gravity) }, Effective one (held s) fluid) := by
  have hb : (decide (s.bc ≠ .fixed) && decide (1 ≠ 0)) = decide (s.bc = .linear ∨ s.bc = .periodic) := by
    cases s.bc <;> decide
  unfold effectivePerm
  simp only [List.range, List.range.loop, List.foldlM_cons, List.foldlM_nil]
  simp only [effectiveStep, solverInit, solve, if_true, Option.bind_eq_bind, Option.bind_some]
  unfold Effective held
  cases h : s.bc <;> simp <;> rfl

/-- The solver was set up with the rock of the state, by an upscaling. -/
def Ready (s : State G T K) : Prop := s.solver = some (s.grid, s.perm, s.gravity)

theorem steady_eq (one zero standard : K) (s : State G T K) (dir : Nat) (drop : K) (s0 s1 : S) :
    steadyState one zero standard s dir drop s0 s1 =
      (solve (if dir = 0 then solverInit s (if s.useGravity then standard else zero) else s) (.both s0) dir drop false).map fun r =>
        ({ s with solver := some (s.grid, s.perm, s.gravity) }, r :: (Effective one (held s) (.phase false s1) ++ Effective one (held s) (.phase true s1))) := by
  unfold steadyState
  simp only
  by_cases hd : dir = 0
  · simp only [if_pos hd]
    simp only [solve, solverInit, effective_eq, Option.map_some]
    rfl
  · simp only [if_neg hd]
    unfold solve
    rcases s.solver with _ | ⟨g, p, v⟩
    · rfl
    · simp only [effective_eq, Option.map_some]
      rfl

theorem step_held (one zero standard : K) (s s' : State G T K) (c : Call G T S K) (l : List (Solve G T S K))
    (h : step one zero standard s c = some (s', l)) : Changes (held s) c (held s') := by
  cases c with
  | init g n p bc grav use =>
    cases h
    exact .init _ _ _ _ _ _ _
  | setPermeability c k =>
    simp only [step] at h
    split at h
    · cases h
      exact .perm _ _ _ _ (by simp) fun i hi => by simp [held, hi]
    · cases h
  | setBoundaryConditionType b =>
    simp only [step, Option.some.injEq, Prod.mk.injEq] at h
    obtain ⟨rfl, _⟩ := h
    unfold setBC
    split
    · exact .bcRefused _ _ (by simp only [held]; tauto)
    · exact .bc _ _ (by simp only [held]; tauto)
  | singlePhase =>
    simp only [step, effective_eq, Option.some.injEq, Prod.mk.injEq] at h
    obtain ⟨rfl, _⟩ := h
    exact .singlePhase _
  | steadyState d x s0 s1 =>
    simp only [step, steady_eq, Option.map_eq_some_iff] at h
    obtain ⟨r, _, h⟩ := h
    cases h
    exact .steadyState _ _ _ _ _

theorem changes_unique {s t u : Settings G T K} {c : Call G T S K} (h1 : Changes s c t) (h2 : Changes s c u) : t = u := by
  cases h1 <;> cases h2 <;> try rfl
  case perm.perm c k p a b q d c' =>
    have : p = q := by
      funext i
      by_cases hi : i = c
      · subst hi; rw [a, c']
      · rw [b i hi, d i hi]
    rw [this]
  all_goals exact absurd ‹_ ↔ _› ‹_›

theorem run_held (one zero standard : K) (h : List (Call G T S K)) (s s' : State G T K) (u : Settings G T K)
    (hr : h.foldlM (fun s c => (step one zero standard s c).map Prod.fst) s = some s') (ha : After (held s) h u) : held s' = u := by
  induction h generalizing s with
  | nil => cases ha; cases hr; rfl
  | cons c h ih =>
    cases ha with
    | cons _ t _ _ _ hc ha =>
      rw [List.foldlM_cons] at hr
      obtain ⟨s1, e1, e2⟩ := Option.bind_eq_some_iff.mp hr
      obtain ⟨⟨s1', l⟩, e0, e3⟩ := Option.map_eq_some_iff.mp e1
      cases e3
      have := changes_unique hc (step_held _ _ _ _ _ _ _ e0)
      subst this
      exact ih _ e2 ha

/-- **C134.** The settings of a user are determined by the calls. -/
theorem C134_settings (one zero standard : K) (g : G) (n : Nat) (p : Nat → T) (bc : BC) (grav : K) (use : Bool)
    (h : List (Call G T S K)) (s : State G T K) (hr : run one zero standard g n p bc grav use h = some s) :
    ∃ u, After ⟨g, p, bc, grav, use⟩ h u ∧ ∀ v, After ⟨g, p, bc, grav, use⟩ h v → v = u := by
  refine ⟨held s, ?_, fun v hv => (run_held one zero standard h _ _ _ hr hv).symm⟩
  have : ∀ (h : List (Call G T S K)) (t : State G T K), h.foldlM (fun s c => (step one zero standard s c).map Prod.fst) t = some s → After (held t) h (held s) := by
    intro h
    induction h with
    | nil => intro t e; cases e; exact .nil _
    | cons c h ih =>
      intro t e
      rw [List.foldlM_cons] at e
      obtain ⟨s1, e1, e2⟩ := Option.bind_eq_some_iff.mp e
      obtain ⟨⟨s1', l⟩, e0, e3⟩ := Option.map_eq_some_iff.mp e1
      cases e3
      exact .cons _ _ _ _ _ (step_held _ _ _ _ _ _ _ e0) (ih _ e2)
  exact this h _ hr

/-- **C134.** After any sequence of calls, a single phase upscaling computes three pressure solutions, with the grid,
permeabilities, gravity and boundary condition type that the user set last. -/
theorem C134_singlePhase (one zero standard : K) (g : G) (n : Nat) (p : Nat → T) (bc : BC) (grav : K) (use : Bool)
    (h : List (Call G T S K)) (s : State G T K) (hr : run one zero standard g n p bc grav use h = some s)
    (u : Settings G T K) (hu : After ⟨g, p, bc, grav, use⟩ h u) :
    ∃ s', step (S := S) one zero standard s .singlePhase = some (s', Effective one u .tracer) := by
  have := run_held one zero standard h _ _ _ hr hu
  refine ⟨{ s with solver := some (s.grid, s.perm, s.gravity) }, ?_⟩
  · rw [← this]
    exact effective_eq one s .tracer

/-- **C134.** After any sequence of calls, a steady state upscaling in the first direction computes the velocity field
with the user's settings, and then three pressure solutions for each phase, with the final saturation and the user's
settings. -/
theorem C134_first_direction (one zero standard : K) (g : G) (n : Nat) (p : Nat → T) (bc : BC) (grav : K) (use : Bool)
    (h : List (Call G T S K)) (s : State G T K) (hr : run one zero standard g n p bc grav use h = some s)
    (u : Settings G T K) (hu : After ⟨g, p, bc, grav, use⟩ h u) (drop : K) (s0 s1 : S) :
    ∃ s', step one zero standard s (.steadyState 0 drop s0 s1) = some (s', Velocity zero standard u 0 drop s0 ::
      (Effective one u (.phase false s1) ++ Effective one u (.phase true s1))) := by
  have := run_held one zero standard h _ _ _ hr hu
  subst this
  refine ⟨{ s with solver := some (s.grid, s.perm, s.gravity) }, ?_⟩
  · rw [step, steady_eq, if_pos rfl]
    rfl

theorem step_ready (one zero standard : K) (s s' : State G T K) (c : Call G T S K) (l : List (Solve G T S K))
    (h : step one zero standard s c = some (s', l)) : (Upscales c → Ready s') ∧ (KeepsRock c → Ready s → Ready s') := by
  cases c with
  | init g n p bc grav use => exact ⟨fun h => h.elim, fun h => h.elim⟩
  | setPermeability c k => exact ⟨fun h => h.elim, fun h => h.elim⟩
  | setBoundaryConditionType b =>
    refine ⟨fun h => h.elim, fun _ hs => ?_⟩
    simp only [step, Option.some.injEq, Prod.mk.injEq] at h
    obtain ⟨rfl, _⟩ := h
    unfold setBC
    split <;> exact hs
  | singlePhase =>
    simp only [step, effective_eq, Option.some.injEq, Prod.mk.injEq] at h
    obtain ⟨rfl, _⟩ := h
    exact ⟨fun _ => rfl, fun _ _ => rfl⟩
  | steadyState d x s0 s1 =>
    simp only [step, steady_eq, Option.map_eq_some_iff] at h
    obtain ⟨r, _, h⟩ := h
    cases h
    exact ⟨fun _ => rfl, fun _ _ => rfl⟩

theorem run_ready (one zero standard : K) (h : List (Call G T S K)) (s s' : State G T K) (hk : ∀ c ∈ h, KeepsRock c) (hs : Ready s)
    (hr : h.foldlM (fun s c => (step one zero standard s c).map Prod.fst) s = some s') : Ready s' := by
  induction h generalizing s with
  | nil => cases hr; exact hs
  | cons c h ih =>
    rw [List.foldlM_cons] at hr
    obtain ⟨s1, e1, e2⟩ := Option.bind_eq_some_iff.mp hr
    obtain ⟨⟨s1', l⟩, e0, e3⟩ := Option.map_eq_some_iff.mp e1
    cases e3
    exact ih _ (fun x hx => hk x (by simp [hx])) ((step_ready _ _ _ _ _ _ _ e0).2 (hk c (by simp)) hs) e2

/-- **C134 (partial).** In another direction the same holds if there was an upscaling before, grid and permeabilities
were not changed since, and the gravity of the steady state is that of the single phase upscaling. -/
theorem C134_other_direction_partial (one zero standard : K) (g : G) (n : Nat) (p : Nat → T) (bc : BC) (grav : K) (use : Bool)
    (h h' : List (Call G T S K)) (c : Call G T S K) (hc : Upscales c) (hk : ∀ x ∈ h', KeepsRock x)
    (s : State G T K) (hr : run one zero standard g n p bc grav use (h ++ c :: h') = some s)
    (u : Settings G T K) (hu : After ⟨g, p, bc, grav, use⟩ (h ++ c :: h') u) (hg : u.gravity = if u.useGravity then standard else zero)
    (dir : Nat) (drop : K) (s0 s1 : S) :
    ∃ s', step one zero standard s (.steadyState dir drop s0 s1) = some (s', Velocity zero standard u dir drop s0 ::
      (Effective one u (.phase false s1) ++ Effective one u (.phase true s1))) := by
  have hh := run_held one zero standard _ _ _ _ hr hu
  have hrd : Ready s := by
    unfold run at hr
    rw [List.foldlM_append] at hr
    obtain ⟨t, _, e⟩ := Option.bind_eq_some_iff.mp hr
    rw [List.foldlM_cons] at e
    obtain ⟨t1, e1, e2⟩ := Option.bind_eq_some_iff.mp e
    obtain ⟨⟨t1', l⟩, e0, e3⟩ := Option.map_eq_some_iff.mp e1
    cases e3
    exact run_ready _ _ _ _ _ _ hk ((step_ready _ _ _ _ _ _ _ e0).1 hc) e2
  subst hh
  refine ⟨{ s with solver := some (s.grid, s.perm, s.gravity) }, ?_⟩
  · rw [step, steady_eq]
    by_cases hd : dir = 0
    · subst hd
      rfl
    · rw [if_neg hd]
      unfold Ready at hrd
      simp only [solve, hrd, Option.map_some]
      unfold Velocity
      rw [← hg]
      rfl

/-- A history of the partial theorem: a changed permeability, a single phase upscaling, a change of boundary conditions,
then a steady state in the second direction. -/
example : ∃ (s : State Nat Nat Int) (u : Settings Nat Nat Int),
    run (S := Nat) 1 0 10 7 3 (fun _ => 5) .fixed 0 false [.setPermeability 1 6, .singlePhase, .setBoundaryConditionType .linear] = some s ∧
    After (S := Nat) ⟨7, fun _ => 5, .fixed, 0, false⟩ ([.setPermeability 1 6] ++ .singlePhase :: [.setBoundaryConditionType .linear]) u ∧
    u.perm 1 = 6 ∧ u.bc = .linear ∧ u.gravity = if u.useGravity then 10 else 0 := by
  refine ⟨_, ⟨7, fun i => if i = 1 then 6 else 5, .linear, 0, false⟩, rfl, ?_, rfl, rfl, rfl⟩
  exact .cons _ _ _ _ _ (.perm _ _ _ (fun i => if i = 1 then 6 else 5) rfl fun i hi => by simp [hi])
    (.cons _ _ _ _ _ (.singlePhase _) (.cons _ _ _ _ _ (.bc _ _ (by simp)) (.nil _)))

/-- The gravity of the first solution of a call. -/
def firstGravity (r : Option (State Nat Nat Int × List (Solve Nat Nat Nat Int))) : Option Int :=
  r.bind fun x => x.2.head?.map Solve.gravity

/-- The permeability of cell 0 in the first solution of a call. -/
def firstPerm (r : Option (State Nat Nat Int × List (Solve Nat Nat Nat Int))) : Option Nat :=
  r.bind fun x => x.2.head?.map fun y => y.perm 0

/-- **C134 (deviation).** With gravity switched on, the velocity field of the first direction has gravity (10), that of
the second, computed directly after it, has none. -/
theorem C134_violated_gravity :
    (run (S := Nat) 1 0 10 7 3 (fun _ => 5) .periodic 0 true []).bind (fun s => firstGravity (step 1 0 10 s (.steadyState 0 1 0 0))) = some 10 ∧
    (run (S := Nat) 1 0 10 7 3 (fun _ => 5) .periodic 0 true [.steadyState 0 1 0 0]).bind
      (fun s => firstGravity (step 1 0 10 s (.steadyState 1 1 0 0))) = some 0 := ⟨rfl, rfl⟩

/-- **C134 (deviation).** A permeability (6) set after an upscaling is ignored by the velocity field of the second
direction (5), though not by that of the first. -/
theorem C134_violated_permeability :
    (run (S := Nat) 1 0 10 7 3 (fun _ => 5) .periodic 0 false [.singlePhase, .setPermeability 0 6]).bind
      (fun s => firstPerm (step 1 0 10 s (.steadyState 0 1 0 0))) = some 6 ∧
    (run (S := Nat) 1 0 10 7 3 (fun _ => 5) .periodic 0 false [.singlePhase, .setPermeability 0 6]).bind
      (fun s => firstPerm (step 1 0 10 s (.steadyState 1 1 0 0))) = some 5 := ⟨rfl, rfl⟩

/-- **C134 (deviation).** Without an upscaling before, the second direction solves with a solver that was never set up. -/
theorem C134_violated_unprepared (one zero standard : K) (g : G) (n : Nat) (p : Nat → T) (bc : BC) (grav : K) (use : Bool)
    (dir : Nat) (hd : dir ≠ 0) (drop : K) (s0 s1 : S) :
    ∃ s, run (S := S) one zero standard g n p bc grav use [] = some s ∧ step one zero standard s (.steadyState dir drop s0 s1) = none := by
  refine ⟨_, rfl, ?_⟩
  rw [step, steady_eq, if_neg hd]
  rfl

end Verif.Calls
