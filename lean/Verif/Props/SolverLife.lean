import Verif.Spec.SolverLife
import Verif.Lemmas.EulerRange
import Mathlib.Data.List.Induction

/-!
**C139** Set-up of the transport solvers: whatever the history of calls, a solve works with the parameters given last, the
objects of the last set-up as they are at the time of the solve, and the pore volumes of those objects.
-/

namespace Verif.SolverLife

open Spec

variable {K R B V I : Type}

/-! ### Reading off histories -/

theorem latest_nil {α : Type} (f : Call K R B → Option α) (d : α) : latest f d [] = d := rfl

theorem latest_snoc {α : Type} (f : Call K R B → Option α) (d : α) (h : List (Call K R B)) (c : Call K R B) :
    latest f d (h ++ [c]) = (f c).getD (latest f d h) := by
  unfold latest
  rw [List.reverse_append, List.reverse_cons, List.reverse_nil, List.nil_append, List.singleton_append, List.findSome?_cons]
  cases f c <;> rfl

theorem latest_append {α : Type} (f : Call K R B → Option α) (d : α) (h t : List (Call K R B)) (ht : ∀ c ∈ t, f c = none) :
    latest f d (h ++ t) = latest f d h := by
  induction t using List.reverseRecOn with
  | nil => rw [List.append_nil]
  | append_singleton t c ih =>
    rw [← List.append_assoc, latest_snoc, ht c (by simp), Option.getD_none, ih fun x hx => ht x (by simp [hx])]

theorem world_rock (w : World K R B) (h : List (Call K R B)) (a : Nat) : (h.foldl World.step w).rock a = rockAfter w h a := by
  unfold rockAfter
  induction h using List.reverseRecOn with
  | nil => rfl
  | append_singleton h c ih =>
    rw [latest_snoc, List.foldl_append, List.foldl_cons, List.foldl_nil]
    cases c <;> simp only [World.step, Option.getD_none, ih]
    next a' v => by_cases e : a = a' <;> simp [e]

theorem world_bc (w : World K R B) (h : List (Call K R B)) (a : Nat) : (h.foldl World.step w).bc a = bcAfter w h a := by
  unfold bcAfter
  induction h using List.reverseRecOn with
  | nil => rfl
  | append_singleton h c ih =>
    rw [latest_snoc, List.foldl_append, List.foldl_cons, List.foldl_nil]
    cases c <;> simp only [World.step, Option.getD_none, ih]
    next a' v => by_cases e : a = a' <;> simp [e]

theorem world_vols (w : World K R B) (h : List (Call K R B)) : (h.foldl World.step w).vols = w.vols := by
  induction h using List.reverseRecOn with
  | nil => rfl
  | append_singleton h c ih =>
    rw [List.foldl_append, List.foldl_cons, List.foldl_nil, ← ih]
    cases c <;> rfl

/-! ### The residual computer -/

/-- The effect of a call on the residual computer. -/
def resStep (w : World K R B) (s : Residual B) (c : Call K R B) : Residual B :=
  match objects c with
  | some o => s.initObj w o
  | none => s

theorem initIters_spec (n : Nat) (hn : 0 < n) :
    (Euler.initIters [] n).head? = some 0 ∧ (Euler.initIters [] n).getLast? = some n ∧ 2 ≤ (Euler.initIters [] n).length := by
  refine ⟨?_, ?_, Euler.itersAfter_len n 0 hn⟩
  · have := Euler.itersAfter_head n 0 hn
    rw [List.head?_eq_getElem?]
    exact this
  · unfold Euler.initIters
    simp

/-- The positions while all set-ups use one grid. -/
def GoodIters (g n : Nat) (l : List (Nat × Nat)) : Prop := l.head? = some (g, 0) ∧ l.getLast? = some (g, n) ∧ 2 ≤ l.length

theorem good_append (g n : Nat) (hn : 0 < n) (l : List (Nat × Nat)) (hl : l = [] ∨ GoodIters g n l) :
    GoodIters g n (l ++ (Euler.initIters [] n).map fun i => (g, i)) := by
  obtain ⟨h1, h2, h3⟩ := initIters_spec n hn
  have hlast : (l ++ (Euler.initIters [] n).map fun i => (g, i)).getLast? = some (g, n) := by
    rw [List.getLast?_append, List.getLast?_map, h2]; rfl
  rcases hl with rfl | ⟨a, b, c⟩
  · refine ⟨?_, hlast, ?_⟩
    · rw [List.nil_append, List.head?_map, h1]; rfl
    · rw [List.nil_append, List.length_map]; exact h3
  · refine ⟨?_, hlast, ?_⟩
    · rw [List.head?_append, a]; rfl
    · rw [List.length_append]; omega

theorem good_loop (g n : Nat) (s : Residual B) (h : GoodIters g n s.iters) : s.loop = some (List.range n) := by
  obtain ⟨h1, h2, h3⟩ := h
  unfold Residual.loop
  rw [if_pos h3, h1, h2]
  simp

section
variable [Field K]

/-- The residual computer of a history. -/
def resRun (w : World K R B) (make : Option Objs) (h : List (Call K R B)) : World K R B × Residual B :=
  h.foldl (fun s c => (s.1.step c, resStep s.1 s.2 c)) (w, match make with | none => .new | some o => Residual.new.initObj w o)

theorem resRun_snoc (w : World K R B) (make : Option Objs) (h : List (Call K R B)) (c : Call K R B) :
    resRun w make (h ++ [c]) = ((resRun w make h).1.step c, resStep (resRun w make h).1 (resRun w make h).2 c) := by
  unfold resRun
  rw [List.foldl_append, List.foldl_cons, List.foldl_nil]

theorem resRun_world (w : World K R B) (make : Option Objs) (h : List (Call K R B)) : (resRun w make h).1 = h.foldl World.step w := by
  induction h using List.reverseRecOn with
  | nil => rfl
  | append_singleton h c ih => rw [resRun_snoc, List.foldl_append, ih]; rfl

theorem resRun_keep (w : World K R B) (make : Option Objs) (h t : List (Call K R B)) (ht : ∀ c ∈ t, objects c = none) :
    (resRun w make (h ++ t)).2 = (resRun w make h).2 := by
  induction t using List.reverseRecOn with
  | nil => rw [List.append_nil]
  | append_singleton t c ih =>
    rw [← List.append_assoc, resRun_snoc]
    simp only [resStep, ht c (by simp)]
    exact ih fun x hx => ht x (by simp [hx])

theorem resRun_iters (w : World K R B) (make : Option Objs) (h : List (Call K R B)) (g : Nat) (hn : 0 < (w.vols g).length)
    (hm : ∀ o, make = some o → o.g = g) (hs : ∀ c ∈ h, ∀ o, objects c = some o → o.g = g) :
    (resRun w make h).2.iters = [] ∨ GoodIters g (w.vols g).length (resRun w make h).2.iters := by
  induction h using List.reverseRecOn with
  | nil =>
    cases make with
    | none => exact .inl rfl
    | some o =>
      right
      have hg := hm o rfl
      subst hg
      exact good_append o.g _ hn [] (.inl rfl)
  | append_singleton h c ih =>
    rw [resRun_snoc]
    have ih' := ih fun x hx => hs x (by simp [hx])
    unfold resStep
    cases hc : objects c with
    | none => exact ih'
    | some o =>
      right
      have hg := hs c (by simp) o hc
      subst hg
      simp only [Residual.initObj, resRun_world, world_vols]
      exact good_append o.g _ hn _ ih'

/-- After a set-up and calls that set nothing up. -/
theorem resRun_after (w : World K R B) (make : Option Objs) (pre post : List (Call K R B)) (s : Call K R B) (o : Objs)
    (hs : objects s = some o) (hp : ∀ c ∈ post, objects c = none) (hn : 0 < (w.vols o.g).length)
    (hm : ∀ q, make = some q → q.g = o.g) (hg : ∀ c ∈ pre, ∀ q, objects c = some q → q.g = o.g) :
    (resRun w make (pre ++ s :: post)).2.refs = some o ∧ (resRun w make (pre ++ s :: post)).2.faces = some (bcAfter w pre o.b) ∧
      (resRun w make (pre ++ s :: post)).2.loop = some (List.range (w.vols o.g).length) := by
  have e : pre ++ s :: post = (pre ++ [s]) ++ post := by simp
  rw [e, resRun_keep w make _ post hp]
  have hi := resRun_iters w make pre o.g hn hm hg
  rw [resRun_snoc]
  simp only [resStep, hs, Residual.initObj, resRun_world, world_bc, world_vols, true_and]
  exact good_loop o.g _ _ (good_append o.g _ hn _ hi)

theorem poreVolumes_spec (poro : R → Nat → K) (w : World K R B) (o : Objs) :
    IsPoreVolumes poro (w.vols o.g) (w.rock o.r) (poreVolumes poro w o) := by
  refine ⟨by simp [poreVolumes], fun i v hv => ?_⟩
  unfold poreVolumes
  rw [List.getElem?_map, List.getElem?_zipIdx, hv]
  simp

/-! ### The explicit solver -/

theorem explicit_snoc (poro : R → Nat → K) (w : World K R B) (make : Option Objs) (h : List (Call K R B)) (c : Call K R B) :
    Explicit.run poro w make (h ++ [c]) =
      ((Explicit.run poro w make h).1.step c, (Explicit.run poro w make h).2.step poro (Explicit.run poro w make h).1 c) := by
  unfold Explicit.run
  rw [List.foldl_append, List.foldl_cons, List.foldl_nil]

theorem explicit_res (poro : R → Nat → K) (w : World K R B) (make : Option Objs) (h : List (Call K R B)) :
    (Explicit.run poro w make h).1 = h.foldl World.step w ∧ (Explicit.run poro w make h).2.res = (resRun w make h).2 := by
  induction h using List.reverseRecOn with
  | nil => cases make <;> exact ⟨rfl, rfl⟩
  | append_singleton h c ih =>
    obtain ⟨i1, i2⟩ := ih
    rw [explicit_snoc, resRun_snoc]
    refine ⟨by rw [List.foldl_append, i1]; rfl, ?_⟩
    cases c <;> simp only [Explicit.step, Explicit.initObj, resStep, objects, i1, i2, resRun_world]

theorem explicit_keep (poro : R → Nat → K) (w : World K R B) (make : Option Objs) (h t : List (Call K R B)) (ht : ∀ c ∈ t, objects c = none) :
    (Explicit.run poro w make (h ++ t)).2.porevol = (Explicit.run poro w make h).2.porevol := by
  induction t using List.reverseRecOn with
  | nil => rw [List.append_nil]
  | append_singleton t c ih =>
    rw [← List.append_assoc, explicit_snoc]
    have hc := ht c (by simp)
    rw [← ih fun x hx => ht x (by simp [hx])]
    cases c <;> first | rfl | cases hc

theorem explicit_par (poro : R → Nat → K) (w : World K R B) (make : Option Objs) (h : List (Call K R B)) :
    (Explicit.run poro w make h).2.par =
      ⟨latest (flag "method_viscous") true h, latest (flag "method_gravity") true h, latest (flag "method_capillary") true h,
       latest (flag "use_cfl_viscous") true h, latest (flag "use_cfl_gravity") true h, latest (flag "use_cfl_capillary") true h,
       latest courant (1 / 2) h, latest (int "minimum_small_steps") 1 h, latest (int "maximum_small_steps") 10000 h,
       latest (flag "check_sat") true h, latest (flag "clamp_sat") false h⟩ := by
  induction h using List.reverseRecOn with
  | nil => cases make <;> rfl
  | append_singleton h c ih =>
    rw [explicit_snoc]
    simp only [latest_snoc]
    cases c <;>
      simp only [Explicit.step, Explicit.initObj, ExplicitParams.init, ih, flag, int, num, courant, group, Option.bind_some, Option.bind_none,
        Option.getD_none, Option.getD_some]

/-- **C139** Explicit solver: after any history in which all set-ups use one grid and the last of them is a call (not the
constructor), a solve is defined; it works with the parameters given last (each by itself; those never given have the
documented defaults), the last grid, its reservoir properties and boundary conditions as they are now, all cells once, the
arguments of the call, and the pore volumes and joined faces of the last set-up. -/
theorem C139_explicit (poro : R → Nat → K) (w : World K R B) (make : Option Objs) (pre post : List (Call K R B)) (s : Call K R B) (o : Objs)
    (hs : objects s = some o) (hp : ∀ c ∈ post, objects c = none) (hn : 0 < (w.vols o.g).length)
    (hm : ∀ q, make = some q → q.g = o.g) (hg : ∀ c ∈ pre, ∀ q, objects c = some q → q.g = o.g) (gravity : V) (rates : I)
    (h : List (Call K R B)) (hh : h = pre ++ s :: post) :
    ∃ pv, IsPoreVolumes poro (w.vols o.g) (rockAfter w pre o.r) pv ∧
      (Explicit.run poro w make h).2.solve (Explicit.run poro w make h).1 gravity rates = some
        { par :=
            { viscous := latest (flag "method_viscous") true h
              gravity := latest (flag "method_gravity") true h
              capillary := latest (flag "method_capillary") true h
              cflViscous := latest (flag "use_cfl_viscous") true h
              cflGravity := latest (flag "use_cfl_gravity") true h
              cflCapillary := latest (flag "use_cfl_capillary") true h
              courant := latest courant (1 / 2) h
              minSteps := latest (int "minimum_small_steps") 1 h
              maxSteps := latest (int "maximum_small_steps") 10000 h
              check := latest (flag "check_sat") true h
              clamp := latest (flag "clamp_sat") false h }
          grid := o.g
          rock := rockAfter w h o.r
          bc := bcAfter w h o.b
          faces := bcAfter w pre o.b
          porevol := pv
          cells := List.range (w.vols o.g).length
          gravity := gravity
          rates := rates } := by
  obtain ⟨r1, r2, r3⟩ := resRun_after w make pre post s o hs hp hn hm hg
  rw [← hh] at r1 r2 r3
  obtain ⟨e1, e2⟩ := explicit_res poro w make h
  have e3 : (Explicit.run poro w make h).2.porevol = poreVolumes poro (pre.foldl World.step w) o := by
    rw [hh, show pre ++ s :: post = (pre ++ [s]) ++ post by simp, explicit_keep poro w make _ post hp, explicit_snoc]
    rw [(explicit_res poro w make pre).1]
    cases s <;> first | (cases hs; done) | (simp only [objects, Option.some.injEq] at hs; subst hs; rfl)
  have hpv := poreVolumes_spec poro (pre.foldl World.step w) o
  rw [world_vols, world_rock] at hpv
  refine ⟨_, hpv, ?_⟩
  unfold Explicit.solve
  rw [e2, r1, r2, r3]
  dsimp only
  rw [e3, if_pos (by rw [e1, world_vols, hpv.1]), explicit_par, e1, world_rock, world_bc]

/-- **C139** Explicit solver: if reservoir properties and boundary conditions are not changed after the last set-up, pore
volumes and joined faces are those of the objects as they are now. -/
theorem C139_current (w : World K R B) (pre post : List (Call K R B)) (s : Call K R B) (o : Objs) (hs : objects s = some o)
    (hr : ∀ c ∈ post, ∀ v, c ≠ .setRock o.r v) (hb : ∀ c ∈ post, ∀ v, c ≠ .setBC o.b v) :
    rockAfter w (pre ++ s :: post) o.r = rockAfter w pre o.r ∧ bcAfter w (pre ++ s :: post) o.b = bcAfter w pre o.b := by
  constructor
  · apply latest_append
    intro c hc
    rcases List.mem_cons.mp hc with rfl | hc
    · cases c <;> first | rfl | cases hs
    · cases c <;> first | rfl | skip
      next a v _ =>
        dsimp only
        rw [if_neg fun e => hr _ hc v (by rw [e])]
  · apply latest_append
    intro c hc
    rcases List.mem_cons.mp hc with rfl | hc
    · cases c <;> first | rfl | cases hs
    · cases c <;> first | rfl | skip
      next a v _ =>
        dsimp only
        rw [if_neg fun e => hb _ hc v (by rw [e])]

/-- **C139** (violated) The constructor with grid, properties and boundary conditions leaves the pore volumes unset: until
a later set-up every solve reads outside them, whatever parameters are given. -/
theorem C139_violated_constructor (poro : R → Nat → K) (w : World K R B) (o : Objs) (h : List (Call K R B))
    (hh : ∀ c ∈ h, objects c = none) (hn : 0 < (w.vols o.g).length) (gravity : V) (rates : I) :
    (Explicit.run poro w (some o) h).2.solve (Explicit.run poro w (some o) h).1 gravity rates = none := by
  obtain ⟨e1, e2⟩ := explicit_res poro w (some o) h
  have e3 : (Explicit.run poro w (some o) h).2.porevol = [] := by
    have := explicit_keep poro w (some o) [] h hh
    rw [List.nil_append] at this
    rw [this]; rfl
  have e4 : (resRun w (some o) h).2 = Residual.new.initObj w o := by
    have := resRun_keep w (some o) [] h hh
    rw [List.nil_append] at this
    rw [this]; rfl
  unfold Explicit.solve
  rw [e2, e4, e3, e1, world_vols]
  simp only [Residual.initObj]
  split
  · rename_i a b c d e f
    cases d
    rw [if_neg (by simp only [List.length_nil]; omega)]
  · rfl

/-! ### The capillary solver -/

theorem cap_snoc (w : World K R B) (make : Option Objs) (h : List (Call K R B)) (c : Call K R B) :
    Cap.run w make (h ++ [c]) = ((Cap.run w make h).1.step c, (Cap.run w make h).2.step (Cap.run w make h).1 c) := by
  unfold Cap.run
  rw [List.foldl_append, List.foldl_cons, List.foldl_nil]

theorem cap_res (w : World K R B) (make : Option Objs) (h : List (Call K R B)) :
    (Cap.run w make h).1 = h.foldl World.step w ∧ (Cap.run w make h).2.res = (resRun w make h).2 := by
  induction h using List.reverseRecOn with
  | nil => cases make <;> exact ⟨rfl, rfl⟩
  | append_singleton h c ih =>
    obtain ⟨i1, i2⟩ := ih
    rw [cap_snoc, resRun_snoc]
    refine ⟨by rw [List.foldl_append, i1]; rfl, ?_⟩
    cases c <;> simp only [Cap.step, Cap.initObj, resStep, objects, i1, i2, resRun_world]

theorem cap_keep (w : World K R B) (make : Option Objs) (h t : List (Call K R B)) (ht : ∀ c ∈ t, objects c = none) :
    (Cap.run w make (h ++ t)).2.psolver = (Cap.run w make h).2.psolver := by
  induction t using List.reverseRecOn with
  | nil => rw [List.append_nil]
  | append_singleton t c ih =>
    rw [← List.append_assoc, cap_snoc]
    have hc := ht c (by simp)
    rw [← ih fun x hx => ht x (by simp [hx])]
    cases c <;> first | rfl | cases hc

theorem cap_par (w : World K R B) (make : Option Objs) (h : List (Call K R B)) :
    (Cap.run w make h).2.par =
      ⟨latest (flag "method_viscous") true h, latest (flag "method_gravity") true h, latest (flag "check_sat") true h,
       latest (flag "clamp_sat") false h, latest (num "residual_tolerance") (1 / 100000000) h, latest (int "linsolver_verbosity") 1 h,
       latest (int "linsolver_type") 1 h, latest (num "update_relaxation") 1 h⟩ := by
  induction h using List.reverseRecOn with
  | nil => cases make <;> rfl
  | append_singleton h c ih =>
    rw [cap_snoc]
    simp only [latest_snoc]
    cases c <;>
      simp only [Cap.step, Cap.initObj, CapParams.init, ih, flag, int, num, group, Option.bind_some, Option.bind_none,
        Option.getD_none, Option.getD_some]

/-- **C139** Capillary solver: after any history with one grid whose last set-up is a call or the constructor, a solve is
defined and works with the parameters given last, the objects of the last set-up, all cells once; the pressure solver
works with the last grid, no gravity, and reservoir properties and boundary conditions of the time of the last set-up. -/
theorem C139_capillary (w : World K R B) (make : Option Objs) (pre post : List (Call K R B)) (o : Objs)
    (hs : (make = some o ∧ pre = []) ∨ ∃ h0 s, pre = h0 ++ [s] ∧ objects s = some o)
    (hp : ∀ c ∈ post, objects c = none) (hn : 0 < (w.vols o.g).length)
    (hm : ∀ q, make = some q → q.g = o.g) (hg : ∀ c ∈ pre, ∀ q, objects c = some q → q.g = o.g) (gravity : V) (rates : I)
    (h : List (Call K R B)) (hh : h = pre ++ post) :
    (Cap.run w make h).2.solve (Cap.run w make h).1 gravity rates = some
      { par :=
          { viscous := latest (flag "method_viscous") true h
            gravity := latest (flag "method_gravity") true h
            check := latest (flag "check_sat") true h
            clamp := latest (flag "clamp_sat") false h
            tol := latest (num "residual_tolerance") (1 / 100000000) h
            verbosity := latest (int "linsolver_verbosity") 1 h
            type := latest (int "linsolver_type") 1 h
            relax := latest (num "update_relaxation") 1 h }
        grid := o.g
        rock := rockAfter w h o.r
        bc := bcAfter w h o.b
        faces := bcAfter w pre o.b
        cells := List.range (w.vols o.g).length
        pressure := { grid := o.g, rock := rockAfter w pre o.r, gravity := 0, bc := bcAfter w pre o.b }
        gravity := gravity
        rates := rates } := by
  obtain ⟨e1, e2⟩ := cap_res w make h
  have e3 : (Cap.run w make h).2.psolver = some ⟨o.g, rockAfter w pre o.r, 0, bcAfter w pre o.b⟩ ∧
      (resRun w make h).2.refs = some o ∧ (resRun w make h).2.faces = some (bcAfter w pre o.b) ∧
      (resRun w make h).2.loop = some (List.range (w.vols o.g).length) := by
    rcases hs with ⟨rfl, rfl⟩ | ⟨h0, s, rfl, hs⟩
    · rw [hh, cap_keep w _ [] post hp, resRun_keep w _ [] post hp]
      exact ⟨rfl, rfl, rfl, good_loop o.g _ _ (good_append o.g _ hn [] (.inl rfl))⟩
    · have r := resRun_after w make h0 post s o hs hp hn hm fun c hc => hg c (by simp [hc])
      have q : rockAfter w (h0 ++ [s]) o.r = rockAfter w h0 o.r ∧ bcAfter w (h0 ++ [s]) o.b = bcAfter w h0 o.b :=
        C139_current w h0 [] s o hs (by simp) (by simp)
      rw [hh, q.1, q.2, cap_keep w make _ post hp, cap_snoc, (cap_res w make h0).1]
      rw [show h0 ++ s :: post = (h0 ++ [s]) ++ post by simp] at r
      refine ⟨?_, r⟩
      cases s <;> first | (cases hs; done) | (simp only [objects, Option.some.injEq] at hs; cases hs; simp only [Cap.step, Cap.initObj, world_rock, world_bc])
  obtain ⟨p1, r1, r2, r3⟩ := e3
  unfold Cap.solve
  rw [e2, r1, r2, r3, p1]
  dsimp only
  rw [cap_par, e1, world_rock, world_bc]

/-! ### The implicit solver -/

theorem implicit_snoc (poro : R → Nat → K) (w : World K R B) (make : Option Objs) (h : List (Call K R B)) (c : Call K R B) :
    Implicit.run poro w make (h ++ [c]) =
      ((Implicit.run poro w make h).1.step c, (Implicit.run poro w make h).2.step poro (Implicit.run poro w make h).1 c) := by
  unfold Implicit.run
  rw [List.foldl_append, List.foldl_cons, List.foldl_nil]

theorem implicit_world (poro : R → Nat → K) (w : World K R B) (make : Option Objs) (h : List (Call K R B)) :
    (Implicit.run poro w make h).1 = h.foldl World.step w := by
  induction h using List.reverseRecOn with
  | nil => rfl
  | append_singleton h c ih => rw [implicit_snoc, List.foldl_append, ih]; rfl

theorem implicit_keep (poro : R → Nat → K) (w : World K R B) (make : Option Objs) (h t : List (Call K R B)) (ht : ∀ c ∈ t, objects c = none) :
    (Implicit.run poro w make (h ++ t)).2.objs = (Implicit.run poro w make h).2.objs := by
  induction t using List.reverseRecOn with
  | nil => rw [List.append_nil]
  | append_singleton t c ih =>
    rw [← List.append_assoc, implicit_snoc]
    have hc := ht c (by simp)
    rw [← ih fun x hx => ht x (by simp [hx])]
    cases c <;> first | rfl | cases hc

/-- The control of the iteration that the calls ask for: that of the last parameter group, where names that are missing get
fixed values; before any group that of the constructor, without a number of repetitions. -/
theorem implicit_ctrl (poro : R → Nat → K) (w : World K R B) (make : Option Objs) (h : List (Call K R B)) :
    (Implicit.run poro w make h).2.ctrl =
        latest (fun c => (group c).map fun p => Control.mk ((p.int "transport_nr_max_it").getD 10) ((p.num "transport_atol").getD (1 / 1000000))
          ((p.num "transport_rtol").getD (5 / 10000000)) ((p.num "transport_dxtol").getD (1 / 1000000))
          ((p.int "transport_max_it_ls").getD 20) ((p.int "transport_verbosity").getD 0))
          ⟨1, 1 / 1000000, 5 / 10000000, 1 / 100000000, 5, 0⟩ h ∧
      (Implicit.run poro w make h).2.maxRepeats =
        latest (fun c => (group c).map fun p => some ((p.int "transport_max_rep").getD 10)) none h := by
  induction h using List.reverseRecOn with
  | nil => cases make <;> exact ⟨rfl, rfl⟩
  | append_singleton h c ih =>
    obtain ⟨i1, i2⟩ := ih
    rw [implicit_snoc]
    simp only [latest_snoc]
    cases c <;> simp only [Implicit.step, Implicit.initObj, Implicit.init, i1, i2, group, Option.map_some, Option.map_none,
        Option.getD_none, Option.getD_some, and_self]

theorem implicit_objs (poro : R → Nat → K) (w : World K R B) (make : Option Objs) (pre post : List (Call K R B)) (o : Objs)
    (hs : (make = some o ∧ pre = []) ∨ ∃ h0 s, pre = h0 ++ [s] ∧ objects s = some o) (hp : ∀ c ∈ post, objects c = none) :
    (Implicit.run poro w make (pre ++ post)).2.objs =
      some ⟨o.g, rockAfter w pre o.r, bcAfter w pre o.b, poreVolumes poro (pre.foldl World.step w) o⟩ := by
  rw [implicit_keep poro w make pre post hp]
  rcases hs with ⟨rfl, rfl⟩ | ⟨h0, s, rfl, hs⟩
  · rfl
  · have q : rockAfter w (h0 ++ [s]) o.r = rockAfter w h0 o.r ∧ bcAfter w (h0 ++ [s]) o.b = bcAfter w h0 o.b :=
      C139_current w h0 [] s o hs (by simp) (by simp)
    rw [q.1, q.2, implicit_snoc, implicit_world]
    cases s <;> first | (cases hs; done) | (simp only [objects, Option.some.injEq] at hs; cases hs; simp only [Implicit.step, Implicit.initObj, world_rock, world_bc, List.foldl_append, List.foldl_cons, List.foldl_nil, World.step])

/-- **C139** Implicit solver: after any history with a parameter group (the last one `p`) and a set-up (the last one with the
objects `o`, by a call or the constructor), a solve is defined and works with the control in `p`, and grid, reservoir
properties, boundary conditions and pore volumes of the last set-up. -/
theorem C139_implicit (poro : R → Nat → K) (w : World K R B) (make : Option Objs) (pre post : List (Call K R B)) (o : Objs)
    (hs : (make = some o ∧ pre = []) ∨ ∃ h0 s, pre = h0 ++ [s] ∧ objects s = some o) (hp : ∀ c ∈ post, objects c = none)
    (before after : List (Call K R B)) (c : Call K R B) (p : Params K) (hc : group c = some p) (ha : ∀ x ∈ after, group x = none)
    (h : List (Call K R B)) (hh : h = pre ++ post) (hh' : h = before ++ c :: after) (gravity : V) (rates : I) :
    ∃ pv, IsPoreVolumes poro (w.vols o.g) (rockAfter w pre o.r) pv ∧
      (Implicit.run poro w make h).2.solve gravity rates = some
        { ctrl :=
            { maxIt := (p.int "transport_nr_max_it").getD 10
              atol := (p.num "transport_atol").getD (1 / 1000000)
              rtol := (p.num "transport_rtol").getD (5 / 10000000)
              dxtol := (p.num "transport_dxtol").getD (1 / 1000000)
              maxItLs := (p.int "transport_max_it_ls").getD 20
              verbosity := (p.int "transport_verbosity").getD 0 }
          maxRepeats := (p.int "transport_max_rep").getD 10
          objs := { grid := o.g, rock := rockAfter w pre o.r, bc := bcAfter w pre o.b, porevol := pv } } := by
  have hpv := poreVolumes_spec poro (pre.foldl World.step w) o
  rw [world_vols, world_rock] at hpv
  refine ⟨_, hpv, ?_⟩
  have e1 := implicit_objs poro w make pre post o hs hp
  obtain ⟨e2, e3⟩ := implicit_ctrl poro w make h
  rw [← hh] at e1
  have e4 : ∀ {α : Type} (f : Params K → α) (d : α), latest (fun x => (group x).map f) d h = f p := by
    intro α f d
    rw [hh', show before ++ c :: after = (before ++ [c]) ++ after by simp, latest_append _ _ _ _ (fun x hx => by rw [ha x hx]; rfl), latest_snoc, hc]
    rfl
  rw [e4] at e2 e3
  unfold Implicit.solve
  rw [e1, e3, e2]

/-- **C139** (violated) Without a parameter group the number of repetitions is never set, also after the constructor with grid,
properties and boundary conditions. -/
theorem C139_violated_repeats (poro : R → Nat → K) (w : World K R B) (make : Option Objs) (h : List (Call K R B))
    (hh : ∀ c ∈ h, group c = none) (gravity : V) (rates : I) : (Implicit.run poro w make h).2.solve gravity rates = none := by
  have e := (implicit_ctrl poro w make h).2
  rw [show h = [] ++ h from rfl, latest_append _ _ _ _ (fun x hx => by rw [hh x hx]; rfl)] at e
  unfold Implicit.solve
  rw [show h = [] ++ h from rfl, e]
  rfl

/-- **C139** (violated) The implicit solver ignores gravity, injection rates, `check_sat` and `clamp_sat`: a history without
any flags and other arguments give the same solve. -/
theorem C139_violated_ignored (poro : R → Nat → K) (w : World K R B) (make : Option Objs) (h h' : List (Call K R B))
    (hh : List.Forall₂ (fun c c' => c = c' ∨ (objects c = objects c' ∧ ∃ p p', group c = some p ∧ group c' = some p' ∧ p.num = p'.num ∧ p.int = p'.int)) h h')
    (gravity gravity' : V) (rates rates' : I) :
    (Implicit.run poro w make h).2.solve gravity rates = (Implicit.run poro w make h').2.solve gravity' rates' := by
  have key : ∀ (h h' : List (Call K R B)) (s s' : World K R B × Implicit K R B),
      List.Forall₂ (fun c c' => c = c' ∨ (objects c = objects c' ∧ ∃ p p', group c = some p ∧ group c' = some p' ∧ p.num = p'.num ∧ p.int = p'.int)) h h' →
      s.1 = s'.1 → s.2.ctrl = s'.2.ctrl → s.2.maxRepeats = s'.2.maxRepeats → s.2.objs = s'.2.objs →
      ((h.foldl (fun s c => (s.1.step c, s.2.step poro s.1 c)) s).2.ctrl = (h'.foldl (fun s c => (s.1.step c, s.2.step poro s.1 c)) s').2.ctrl ∧
        (h.foldl (fun s c => (s.1.step c, s.2.step poro s.1 c)) s).2.maxRepeats = (h'.foldl (fun s c => (s.1.step c, s.2.step poro s.1 c)) s').2.maxRepeats ∧
        (h.foldl (fun s c => (s.1.step c, s.2.step poro s.1 c)) s).2.objs = (h'.foldl (fun s c => (s.1.step c, s.2.step poro s.1 c)) s').2.objs) := by
    intro h h' s s' hf
    induction hf generalizing s s' with
    | nil => intro _ a b c; exact ⟨a, b, c⟩
    | @cons c c' h h' hc _ ih =>
      intro a1 a2 a3 a4
      rw [List.foldl_cons, List.foldl_cons]
      rcases hc with rfl | ⟨ho, p, p', hp, hp', hnum, hint⟩
      · apply ih
        · rw [a1]
        all_goals (cases c <;> simp only [Implicit.step, Implicit.init, Implicit.initObj, a1, a2, a3, a4])
      · cases c <;> simp only [group, reduceCtorEq, Option.some.injEq] at hp <;>
          cases c' <;> simp only [group, reduceCtorEq, Option.some.injEq] at hp' <;>
          simp only [objects, reduceCtorEq, Option.some.injEq] at ho <;> subst hp hp'
        all_goals
          apply ih
          · simp only [World.step, a1]
        all_goals simp only [Implicit.step, Implicit.init, Implicit.initObj, a1, a2, a3, a4, hnum, hint, ho]
  obtain ⟨k1, k2, k3⟩ := key h h' (w, .new poro w make) (w, .new poro w make) hh rfl rfl rfl rfl
  change (Implicit.run poro w make h).2.ctrl = (Implicit.run poro w make h').2.ctrl at k1
  change (Implicit.run poro w make h).2.maxRepeats = (Implicit.run poro w make h').2.maxRepeats at k2
  change (Implicit.run poro w make h).2.objs = (Implicit.run poro w make h').2.objs at k3
  unfold Implicit.solve
  rw [k1, k2, k3]

/-! ### Without set-up, with several grids -/

/-- **C139** A solver that was never set up has no grid to work with. -/
theorem C139_unset (poro : R → Nat → K) (w : World K R B) (h : List (Call K R B)) (hh : ∀ c ∈ h, objects c = none) (gravity : V) (rates : I) :
    (Explicit.run poro w none h).2.solve (Explicit.run poro w none h).1 gravity rates = none ∧
      (Implicit.run poro w none h).2.solve gravity rates = none ∧
      (Cap.run w none h).2.solve (Cap.run w none h).1 gravity rates = none := by
  have e : (resRun w none h).2 = .new := by
    have := resRun_keep w none [] h hh
    rw [List.nil_append] at this
    rw [this]; rfl
  refine ⟨?_, ?_, ?_⟩
  · unfold Explicit.solve
    rw [(explicit_res poro w none h).2, e]
    rfl
  · have := implicit_keep poro w none [] h hh
    rw [List.nil_append] at this
    unfold Implicit.solve
    rw [this]
    cases (Implicit.run poro w none h).2.maxRepeats <;> rfl
  · unfold Cap.solve
    rw [(cap_res w none h).2, e]
    rfl

/-- **C139** (violated) The positions of the cells are not cleared: after set-ups with two grids the loop runs from the first
cell of the old grid to the end of the new one and never arrives. -/
theorem C139_violated_grid (poro : R → Nat → K) (w : World K R B) (o o' : Objs) (ho : o.g ≠ o'.g) (hn : 0 < (w.vols o.g).length)
    (hn' : 0 < (w.vols o'.g).length) (gravity : V) (rates : I) :
    (Explicit.run poro w none [.initObj o, .initObj o']).2.solve (Explicit.run poro w none [.initObj o, .initObj o']).1 gravity rates = none ∧
      (Cap.run w none [.initObj o, .initObj o']).2.solve (Cap.run w none [.initObj o, .initObj o']).1 gravity rates = none := by
  have e : (resRun w none [.initObj o, .initObj o']).2.loop = none := by
    obtain ⟨a1, a2, a3⟩ := initIters_spec _ hn
    obtain ⟨b1, b2, b3⟩ := initIters_spec _ hn'
    have h1 : (resRun w none [.initObj o, .initObj o']).2.iters = (Euler.initIters [] (w.vols o.g).length).map (fun i => (o.g, i)) ++
      (Euler.initIters [] (w.vols o'.g).length).map (fun i => (o'.g, i)) := rfl
    unfold Residual.loop
    rw [h1, List.head?_append, List.head?_map, a1, List.getLast?_append, List.getLast?_map, b2]
    simp [ho]
  constructor
  · unfold Explicit.solve
    rw [(explicit_res poro w none _).2, e]
    split <;> simp_all
  · unfold Cap.solve
    rw [(cap_res w none _).2, e]
    split <;> simp_all

end

/-! ### Witnesses -/

/-- One grid with two cells, porosity as the only reservoir property, boundary conditions without content. -/
def exWorld : World ℚ ℚ Unit := ⟨fun _ => [2, 3], fun _ => 1 / 2, fun _ => ()⟩

def exGroup : Params ℚ := ⟨fun s => if s = "courant_number" ∨ s = "transport_atol" then some (1 / 4) else none, fun _ => none, fun s => if s = "clamp_sat" then some true else none⟩

def exEmpty : Params ℚ := ⟨fun _ => none, fun _ => none, fun _ => none⟩

/-- The hypotheses can be met: a group, a set-up, another group, a new Courant number. -/
example : ∃ pv, IsPoreVolumes (fun (r : ℚ) _ => r) [2, 3] (1 / 2) pv ∧ ∃ u,
    (Explicit.run (fun (r : ℚ) _ => r) exWorld none [.init exGroup, .initObj ⟨0, 0, 0⟩, .init exEmpty]).2.solve
      (Explicit.run (fun (r : ℚ) _ => r) exWorld none [.init exGroup, .initObj ⟨0, 0, 0⟩, .init exEmpty]).1 () () = some u ∧ u.porevol = pv ∧
    u.par.courant = 1 / 4 ∧ u.par.clamp = true ∧ u.cells = [0, 1] := by
  obtain ⟨pv, h1, h2⟩ := C139_explicit (fun (r : ℚ) _ => r) exWorld none [.init exGroup] [.init exEmpty] (.initObj ⟨0, 0, 0⟩) ⟨0, 0, 0⟩ rfl
    (by simp [objects]) (by decide) (by simp) (by simp [objects]) () () _ rfl
  exact ⟨pv, h1, _, h2, rfl, by dsimp only; decide +kernel, by dsimp only; decide +kernel, by dsimp only; decide +kernel⟩

/-- **C139** (violated) Porosities changed after the set-up: the explicit solver uses the new ones in the residual and in the
time step limit, but the old pore volumes in the update. -/
theorem C139_violated_porosity :
    ∃ (w : World ℚ ℚ Unit) (o : Objs) (x : ℚ) (u : ExplicitUse ℚ ℚ Unit Unit Unit),
      (Explicit.run (fun (r : ℚ) _ => r) w none [.initObj o, .setRock o.r x]).2.solve
        (Explicit.run (fun (r : ℚ) _ => r) w none [.initObj o, .setRock o.r x]).1 () () = some u ∧
      u.rock = x ∧ ¬ IsPoreVolumes (fun (r : ℚ) _ => r) (w.vols o.g) u.rock u.porevol := by
  refine ⟨exWorld, ⟨0, 0, 0⟩, 1 / 4, _, rfl, by decide +kernel, fun h => ?_⟩
  have := h.2 0 2 rfl
  revert this
  decide +kernel

/-- **C139** (violated) A second parameter group without the entries of the first one resets the control of the implicit
solver, whereas all other parameters keep their values. -/
theorem C139_violated_reset :
    ∃ u u' : ImplicitUse ℚ ℚ Unit,
      (Implicit.run (fun (r : ℚ) _ => r) exWorld (some ⟨0, 0, 0⟩) [.init exGroup]).2.solve () () = some u ∧ u.ctrl.atol = 1 / 4 ∧
      (Implicit.run (fun (r : ℚ) _ => r) exWorld (some ⟨0, 0, 0⟩) [.init exGroup, .init exEmpty]).2.solve () () = some u' ∧
      u'.ctrl.atol = 1 / 1000000 ∧
      (Implicit.run (fun (r : ℚ) _ => r) exWorld (some ⟨0, 0, 0⟩) [.init exGroup, .init exEmpty]).2.clamp = true :=
  ⟨_, _, rfl, by decide +kernel, rfl, by decide +kernel, by decide +kernel⟩

example : ∃ pv, IsPoreVolumes (fun (r : ℚ) _ => r) [2, 3] (1 / 2) pv ∧
    ∃ u, (Implicit.run (fun (r : ℚ) _ => r) exWorld (some ⟨0, 0, 0⟩) [.init exGroup]).2.solve () () = some u ∧ u.objs.porevol = pv := by
  obtain ⟨pv, h1, h2⟩ := C139_implicit (fun (r : ℚ) _ => r) exWorld (some ⟨0, 0, 0⟩) [] [.init exGroup] ⟨0, 0, 0⟩ (.inl ⟨rfl, rfl⟩)
    (by simp [objects]) [] [] (.init exGroup) exGroup rfl (by simp) _ rfl rfl () ()
  exact ⟨pv, h1, _, h2, rfl⟩

example : ∃ u, (Cap.run exWorld (some ⟨0, 0, 0⟩) [.init exGroup]).2.solve (Cap.run exWorld (some ⟨0, 0, 0⟩) [.init exGroup]).1 () () = some u :=
  ⟨_, C139_capillary exWorld (some ⟨0, 0, 0⟩) [] [.init exGroup] ⟨0, 0, 0⟩ (.inl ⟨rfl, rfl⟩) (by simp [objects]) (by decide) (by simp) (by simp)
    () () _ rfl⟩

example : (⟨0, 0, 0⟩ : Objs).g ≠ (⟨1, 0, 0⟩ : Objs).g ∧ 0 < (exWorld.vols 0).length ∧ 0 < (exWorld.vols 1).length := by decide

end Verif.SolverLife
