import Verif.Spec.UpscalerInit
import Mathlib.Data.Rat.Defs
import Mathlib.Algebra.Field.Rat
import Mathlib.Tactic.NormNum

/-!
C122: initialisation of an upscaler from parameters.
-/

namespace Verif.UInit

open Spec

variable {K D : Type} [Field K] [DecidableEq K]

/-- Unfolding of the initialisation for a deck. -/
theorem initImpl_deck (parse : String → Option D) (mD : K) (j : Bool) (p : Params K) (b : Base K) (u : Bool) (v ρ : K × K) (t : Int) (d : D)
    (h : Asks parse p t d) : ∃ r, initImpl parse mD j p b u v ρ = some r ∧
      r.1 = ⟨t, p.twodim.getD b.twodim, p.tol.getD b.tol, p.maxit.getD b.maxit, p.prolong.getD b.prolong, p.verb.getD b.verb, p.solver.getD b.solver,
        p.smooth.getD b.smooth, p.gravity.getD b.gravity⟩ ∧
      r.2.grid = .deck d (p.extend.getD (decide (t = 2))) (p.turn.getD false) (p.clip.getD (decide (t = 1 ∨ t = 2))) ∧
      r.2.rock = .deck d (p.threshold.getD 0 * mD) (if p.rocks.getD "no_list" = "no_list" then none else some (p.rocks.getD "no_list")) (p.useJ.getD j)
        (if p.useJ.getD j then p.sigma.getD 1 else 1) (if p.useJ.getD j then p.theta.getD 0 else 0) ∧
      r.2.uniqueIds = (p.unique.getD (decide (t = 1 ∨ t = 2)) || u) ∧
      r.2.visc = (if p.visc1.isSome || p.visc2.isSome then (p.visc1.getD (1 / 1000), p.visc2.getD (3 / 1000)) else v) ∧
      r.2.dens = ρ ∧ r.2.cfl = r.2.visc := by
  obtain ⟨h1, h2, ⟨f, h3, h4⟩, h5⟩ := h
  have h5' : p.ecl.getD false = false := by
    cases he : p.ecl with
    | none => rfl
    | some e => cases e with
      | false => rfl
      | true => exact absurd he h5
  have hs : (supported t p).format = p.format ∧ (supported t p).file = p.file ∧ (supported t p).ecl = p.ecl ∧
      (supported t p).rocks = p.rocks ∧ (supported t p).useJ = p.useJ ∧ (supported t p).visc1 = p.visc1 ∧ (supported t p).visc2 = p.visc2 ∧
      (supported t p).turn = p.turn ∧ (supported t p).threshold = p.threshold ∧ (supported t p).sigma = p.sigma ∧ (supported t p).theta = p.theta ∧
      (supported t p).extend.getD false = p.extend.getD (decide (t = 2)) ∧ (supported t p).clip.getD false = p.clip.getD (decide (t = 1 ∨ t = 2)) ∧
      (supported t p).unique.getD false = p.unique.getD (decide (t = 1 ∨ t = 2)) := by
    by_cases ha : t = 1
    · subst ha
      cases hx : p.extend <;> cases hy : p.clip <;> cases hz : p.unique <;> simp [supported, hx, hy, hz]
    · by_cases hb : t = 2
      · subst hb
        cases hx : p.extend <;> cases hy : p.clip <;> cases hz : p.unique <;> simp [supported, hx, hy, hz]
      · simp [supported, ha, hb]
  obtain ⟨s1, s2, s3, s4, s5, s6, s7, s8, s9, s10, s11, s12, s13, s14⟩ := hs
  unfold initImpl setupGridAndProps
  simp only [h1, h2, h3, h4, h5', s1, s2, s3, s4, s5, s6, s7, s8, s9, s10, s11, s12, s13, s14, Option.bind_eq_bind, Option.bind_some, Option.getD_some,
    if_true, if_false, Bool.false_eq_true]
  refine ⟨_, rfl, rfl, rfl, rfl, ?_, rfl, rfl, rfl⟩
  cases p.unique.getD (decide (t = 1 ∨ t = 2)) <;> cases u <;> rfl

/-- C122. If the user leaves the support of the grid to the program, a fresh upscaler gets exactly the support that goes with the type. -/
theorem C122_supported (parse : String → Option D) (mD : K) (j : Bool) (p : Params K) (b : Base K) (v ρ : K × K) (t : Int) (d : D)
    (h : Asks parse p t d) (hs : Silent p) : ∃ r, initImpl parse mD j p b false v ρ = some r ∧ r.1.bct = t ∧ Supports t d r.2 := by
  obtain ⟨r, hr, e1, e2, -, e4, -⟩ := initImpl_deck parse mD j p b false v ρ t d h
  refine ⟨r, hr, by rw [e1], ?_⟩
  rw [hs.extend, hs.clip] at e2
  rw [hs.unique] at e4
  exact ⟨_, _, _, e2, by simp, by simp, by simp [e4]⟩

/-- C122. What the user says about the support of the grid is used, whatever the type. -/
theorem C122_user (parse : String → Option D) (mD : K) (j : Bool) (p : Params K) (b : Base K) (v ρ : K × K) (t : Int) (d : D)
    (h : Asks parse p t d) (i c e : Bool) (hi : p.unique = some i) (hc : p.clip = some c) (he : p.extend = some e) :
    ∃ r, initImpl parse mD j p b false v ρ = some r ∧ r.2.uniqueIds = i ∧ ∃ turn, r.2.grid = .deck d e turn c := by
  obtain ⟨r, hr, -, e2, -, e4, -⟩ := initImpl_deck parse mD j p b false v ρ t d h
  rw [he, hc] at e2
  rw [hi] at e4
  exact ⟨r, hr, by simpa using e4, _, e2⟩

/-- C122. Both ways to initialise agree: parameters that say nothing about further choices give the upscaler that `init` with a deck and
arguments gives, with the permeability threshold converted from millidarcy. -/
theorem C122_same (parse : String → Option D) (mD : K) (j : Bool) (p : Params K) (b : Base K) (u : Bool) (v ρ : K × K) (t : Boundary.UType) (d : D)
    (t' : Int) (ht : t' = match t with | .fixed => 0 | .linear => 1 | .periodic => 2)
    (h : Asks parse p t' d) (hs : Silent p) (hp : Plain p) (thr tol pr g : K) (vb sv mi ss : Int) (td : Bool)
    (h1 : p.threshold = some thr) (h2 : p.tol = some tol) (h3 : p.prolong = some pr) (h4 : p.gravity = some g) (h5 : p.verb = some vb)
    (h6 : p.solver = some sv) (h7 : p.maxit = some mi) (h8 : p.smooth = some ss) (h9 : p.twodim = some td) :
    initImpl parse mD j p b u v ρ = some (initDeck d t (thr * mD) tol vb sv td mi pr ss g j u v ρ) := by
  obtain ⟨r, hr, e1, e2, e3, e4, e5, e6, e7⟩ := initImpl_deck parse mD j p b u v ρ t' d h
  rw [hr]
  obtain ⟨rb, rs⟩ := r
  obtain ⟨rg, rr, ri, rv, rd, rc⟩ := rs
  simp only at e1 e2 e3 e4 e5 e6 e7
  subst e1 e2 e3 e4 e5 e6 e7
  rw [hs.extend, hs.clip, hs.unique, hp.turn, hp.rocks, hp.useJ, hp.sigma, hp.theta, hp.visc1, hp.visc2, h1, h2, h3, h4, h5, h6, h7, h8, h9]
  cases t <;> subst ht <;> cases u <;> cases j <;> simp [initDeck, setupEclipse, code]

/-- C122. The arguments of `init` with a deck reach the upscaler and its grid has the support that goes with the type. -/
theorem C122_deck (d : D) (t : Boundary.UType) (thr tol pr g : K) (vb sv mi ss : Int) (td j : Bool) (v ρ : K × K) :
    (initDeck d t thr tol vb sv td mi pr ss g j false v ρ).1 = ⟨(match t with | .fixed => 0 | .linear => 1 | .periodic => 2), td, tol, mi, pr, vb, sv, ss, g⟩ ∧
    Supports (match t with | .fixed => 0 | .linear => 1 | .periodic => 2) d (initDeck d t thr tol vb sv td mi pr ss g j false v ρ).2 ∧
    (initDeck d t thr tol vb sv td mi pr ss g j false v ρ).2.rock = .deck d thr none j 1 0 ∧
    (initDeck d t thr tol vb sv td mi pr ss g j false v ρ).2.grid = .deck d (decide (t = .periodic)) false (decide (t ≠ .fixed)) := by
  cases t <;> exact ⟨rfl, ⟨_, _, _, rfl, by simp, by simp, by simp [initDeck, setupEclipse]⟩, rfl, rfl⟩

/-- C122. The rock data of a deck: threshold in millidarcy, a list of rocks unless it is called `no_list`, surface tension and angle only with
J-function scaling. -/
theorem C122_rock (parse : String → Option D) (mD : K) (j : Bool) (p : Params K) (b : Base K) (u : Bool) (v ρ : K × K) (t : Int) (d : D)
    (h : Asks parse p t d) : ∃ r, initImpl parse mD j p b u v ρ = some r ∧ ∃ list scale σ θ,
      r.2.rock = .deck d (p.threshold.getD 0 * mD) list scale σ θ ∧
      (∀ n, list = some n ↔ p.rocks = some n ∧ n ≠ "no_list") ∧ scale = p.useJ.getD j ∧
      (scale = false → σ = 1 ∧ θ = 0) ∧ (scale = true → σ = p.sigma.getD 1 ∧ θ = p.theta.getD 0) := by
  obtain ⟨r, hr, -, -, e3, -⟩ := initImpl_deck parse mD j p b u v ρ t d h
  refine ⟨r, hr, _, _, _, _, e3, ?_, rfl, ?_, ?_⟩
  · intro n
    cases hq : p.rocks with
    | none => simp
    | some q =>
      by_cases hn : q = "no_list"
      · subst hn
        simp only [Option.getD_some, if_true, Option.some.injEq]
        constructor
        · intro h; cases h
        · rintro ⟨rfl, h⟩; exact absurd rfl h
      · simp only [Option.getD_some, if_neg hn, Option.some.injEq]
        constructor
        · rintro rfl; exact ⟨rfl, hn⟩
        · exact fun h => h.1
  · intro h; simp [h]
  · intro h; simp [h]

/-- C122. A box of cells with uniform rock, with the documented defaults. -/
theorem C122_box (parse : String → Option D) (mD : K) (j : Bool) (p : Params K) (b : Base K) (v ρ : K × K) (t : Int) (ht : p.bct = some t)
    (hf : p.format = none ∨ p.format = some "cartesian") : ∃ r, initImpl parse mD j p b false v ρ = some r ∧ r.1.bct = t ∧
      r.2.grid = .box (p.nx.getD 1, p.ny.getD 1, p.nz.getD 1) (p.dx.getD 1, p.dy.getD 1, p.dz.getD 1) ∧
      r.2.rock = .uniform (p.poro.getD (2 / 10)) (p.perm.getD 100 * mD) ∧
      (p.unique = none → (r.2.uniqueIds = true ↔ t = 1 ∨ t = 2)) ∧ (∀ i, p.unique = some i → r.2.uniqueIds = i) := by
  have hs : (supported t p).format = p.format ∧ (supported t p).nx = p.nx ∧ (supported t p).ny = p.ny ∧ (supported t p).nz = p.nz ∧
      (supported t p).dx = p.dx ∧ (supported t p).dy = p.dy ∧ (supported t p).dz = p.dz ∧ (supported t p).poro = p.poro ∧ (supported t p).perm = p.perm ∧
      (supported t p).unique.getD false = p.unique.getD (decide (t = 1 ∨ t = 2)) := by
    by_cases ha : t = 1
    · subst ha
      cases hz : p.unique <;> simp [supported, hz]
    · by_cases hb : t = 2
      · subst hb
        cases hz : p.unique <;> simp [supported, hz]
      · simp [supported, ha, hb]
  obtain ⟨s1, s2, s3, s4, s5, s6, s7, s8, s9, s10⟩ := hs
  have hf' : p.format.getD "cartesian" = "cartesian" := by rcases hf with h | h <;> rw [h] <;> rfl
  have hne : ¬ ("cartesian" = "eclipse") := by decide
  unfold initImpl setupGridAndProps
  simp only [ht, s1, s2, s3, s4, s5, s6, s7, s8, s9, s10, hf', Option.bind_eq_bind, Option.bind_some, if_true, if_neg hne]
  refine ⟨_, rfl, rfl, rfl, rfl, ?_, ?_⟩
  · intro hn; rw [hn]; simp
  · intro i hi; rw [hi]; cases i <;> rfl

/-- C122. The initialisation throws exactly if the type is missing, the format is unknown, or the grid is to come from a file and that is missing,
unreadable, or output of ECL files is asked for. -/
theorem C122_throws (parse : String → Option D) (mD : K) (j : Bool) (p : Params K) (b : Base K) (u : Bool) (v ρ : K × K) :
    initImpl parse mD j p b u v ρ = none ↔
      p.bct = none ∨ (∃ f, p.format = some f ∧ f ≠ "eclipse" ∧ f ≠ "cartesian") ∨
      (p.format = some "eclipse" ∧ (p.file = none ∨ (∃ f, p.file = some f ∧ parse f = none) ∨ p.ecl = some true)) := by
  cases hb : p.bct with
  | none => simp [initImpl, hb]
  | some t =>
    by_cases hc : p.format = none ∨ p.format = some "cartesian"
    · obtain ⟨r, hr, -⟩ := C122_box (D := D) parse mD j p b v ρ t hb hc
      have : initImpl parse mD j p b u v ρ ≠ none := by
        have hne : ¬ ("cartesian" = "eclipse") := by decide
        have hfm : (supported t p).format = p.format := by
          by_cases ha : t = 1
          · subst ha; simp [supported]
          · by_cases hb : t = 2
            · subst hb; simp [supported]
            · simp [supported, ha, hb]
        have hf' : p.format.getD "cartesian" = "cartesian" := by rcases hc with h | h <;> rw [h] <;> rfl
        unfold initImpl setupGridAndProps
        simp [hb, hfm, hf']
      constructor
      · intro h; exact absurd h this
      · rintro (h | ⟨f, h1, h2, h3⟩ | ⟨h1, -⟩)
        · cases h
        · rcases hc with hc | hc <;> rw [hc] at h1 <;> cases h1
          exact absurd rfl h3
        · rcases hc with hc | hc <;> rw [hc] at h1
          · cases h1
          · exact absurd (Option.some.inj h1) (by decide)
    · obtain ⟨f, hf⟩ : ∃ f, p.format = some f := by
        cases h : p.format with
        | none => exact absurd (Or.inl h) hc
        | some f => exact ⟨f, rfl⟩
      have hfc : f ≠ "cartesian" := fun h => hc (Or.inr (by rw [hf, h]))
      by_cases hfe : f = "eclipse"
      · subst hfe
        by_cases hbad : p.file = none ∨ (∃ f, p.file = some f ∧ parse f = none) ∨ p.ecl = some true
        · refine ⟨fun _ => Or.inr (Or.inr ⟨hf, hbad⟩), fun _ => ?_⟩
          have hs : (supported t p).format = p.format ∧ (supported t p).file = p.file ∧ (supported t p).ecl = p.ecl := by
            by_cases ha : t = 1
            · subst ha; simp [supported]
            · by_cases hb : t = 2
              · subst hb; simp [supported]
              · simp [supported, ha, hb]
          obtain ⟨s1, s2, s3⟩ := hs
          unfold initImpl setupGridAndProps
          simp only [hb, s1, s2, s3, hf, Option.getD_some, Option.bind_eq_bind, Option.bind_some, if_true]
          rcases hbad with h | ⟨g, h1, h2⟩ | h
          · simp [h]
          · simp [h1, h2]
          · cases p.file with
            | none => rfl
            | some g => cases hg : parse g <;> simp [h, hg]
        · have hask : ∃ d, Asks parse p t d := by
            cases hfile : p.file with
            | none => exact absurd (Or.inl hfile) hbad
            | some g =>
              cases hg : parse g with
              | none => exact absurd (Or.inr (Or.inl ⟨g, hfile, hg⟩)) hbad
              | some d => exact ⟨d, hb, hf, ⟨g, hfile, hg⟩, fun h => hbad (Or.inr (Or.inr h))⟩
          obtain ⟨d, hd⟩ := hask
          obtain ⟨r, hr, -⟩ := initImpl_deck parse mD j p b u v ρ t d hd
          constructor
          · intro h; rw [hr] at h; cases h
          · rintro (h | ⟨f, h1, h2, -⟩ | ⟨-, h⟩)
            · cases h
            · rw [hf] at h1; cases h1; exact absurd rfl h2
            · exact absurd h hbad
      · refine ⟨fun _ => Or.inr (Or.inl ⟨f, hf, hfe, hfc⟩), fun _ => ?_⟩
        have hs : (supported t p).format = p.format := by
          by_cases ha : t = 1
          · subst ha; simp [supported]
          · by_cases hb : t = 2
            · subst hb; simp [supported]
            · simp [supported, ha, hb]
        unfold initImpl setupGridAndProps
        simp [hb, hs, hf, hfe, hfc]

/-- C122. Control of the linear solver: what is given is used, what is not given stays as it is; in a new upscaler these are the documented defaults. -/
theorem C122_control (parse : String → Option D) (mD : K) (j : Bool) (p : Params K) (u : Bool) (v ρ : K × K) (r : Base K × Setup K D)
    (b : Base K) (hr : initImpl parse mD j p b u v ρ = some r) :
    (∀ x, p.tol = some x → r.1.tol = x) ∧ (∀ x, p.verb = some x → r.1.verb = x) ∧ (∀ x, p.solver = some x → r.1.solver = x) ∧
    (∀ x, p.maxit = some x → r.1.maxit = x) ∧ (∀ x, p.prolong = some x → r.1.prolong = x) ∧ (∀ x, p.smooth = some x → r.1.smooth = x) ∧
    (∀ x, p.gravity = some x → r.1.gravity = x) ∧ (∀ x, p.twodim = some x → r.1.twodim = x) ∧
    (b = Base.new → (p.tol = none → r.1.tol = 1 / 10 ^ 8) ∧ (p.verb = none → r.1.verb = 0) ∧ (p.solver = none → r.1.solver = 3) ∧
      (p.maxit = none → r.1.maxit = 0) ∧ (p.prolong = none → r.1.prolong = 1) ∧ (p.smooth = none → r.1.smooth = 1) ∧
      (p.gravity = none → r.1.gravity = 0) ∧ (p.twodim = none → r.1.twodim = false)) := by
  unfold initImpl at hr
  cases hb : p.bct with
  | none => simp [hb] at hr
  | some t =>
    simp only [hb, Option.bind_eq_bind, Option.bind_some] at hr
    cases hs : setupGridAndProps parse mD j (supported t p) u v ρ with
    | none => simp [hs] at hr
    | some s =>
      simp only [hs, Option.bind_some, Option.some.injEq] at hr
      subst hr
      refine ⟨?_, ?_, ?_, ?_, ?_, ?_, ?_, ?_, ?_⟩
      all_goals first
        | (intro x hx; simp [hx]; done)
        | (rintro rfl
           refine ⟨?_, ?_, ?_, ?_, ?_, ?_, ?_, ?_⟩
           all_goals (intro hx; simp [hx, Base.new]))

/-- Unfolding of the initialisation of the steady state upscaler. -/
theorem steady_some (parse : String → Option D) (mD : K) (j : Bool) (p : Params K) (b : Base K) (s : Steady K) (u : Bool) (v ρ : K × K)
    (r : Base K × Setup K D) (hr : initImpl parse mD j p b u v ρ = some r) :
    ∃ q, steadyInit parse mD j p b s u v ρ = some q ∧ q.1 = r.1 ∧ q.2.2.grid = r.2.grid ∧ q.2.2.rock = r.2.rock ∧ q.2.2.uniqueIds = r.2.uniqueIds ∧
      q.2.2.cfl = r.2.cfl ∧ q.2.2.visc = (p.visc1.getD r.2.visc.1, p.visc2.getD r.2.visc.2) ∧
      q.2.2.dens = (p.dens1.getD r.2.dens.1, p.dens2.getD r.2.dens.2) ∧
      q.2.1 = ⟨p.useGravity.getD s.useGravity, p.vtk.getD s.vtk, p.ecl.getD s.ecl, p.inout.getD s.inout, p.steps.getD s.steps, p.initStep.getD s.initStep * 86400,
        p.kr.getD s.kr, p.contrast.getD s.contrast, p.change.getD s.change, p.maxIt.getD s.maxIt, p.maxStep.getD s.maxStep * (365 * 86400), p.dtTol.getD s.dtTol,
        p.maxdiff.getD s.maxdiff⟩ := by
  unfold steadyInit
  rw [hr]
  exact ⟨_, rfl, rfl, rfl, rfl, rfl, rfl, rfl, rfl, rfl⟩

/-- C122. The steady state upscaler on a deck, initialised once: its grid has the support of the type; step sizes are converted to seconds from days
and years; viscosities and densities are the given ones or the defaults; the stability factors of the rock belong to the viscosities in use. -/
theorem C122_steady (parse : String → Option D) (mD : K) (j : Bool) (p : Params K) (ρ : K × K) (t : Int) (d : D)
    (h : Asks parse p t d) (hs : Silent p) : ∃ b s q, steadyInit parse mD j p Base.new Steady.new false (1 / 1000, 3 / 1000) ρ = some (b, s, q) ∧
      b.bct = t ∧ Supports t d q ∧ s.initStep = p.initStep.getD 10 * 86400 ∧ s.maxStep = p.maxStep.getD 10000 * (365 * 86400) ∧
      q.visc = (p.visc1.getD (1 / 1000), p.visc2.getD (3 / 1000)) ∧ q.dens = (p.dens1.getD ρ.1, p.dens2.getD ρ.2) ∧ q.cfl = q.visc ∧
      s.steps = p.steps.getD 10 ∧ s.maxIt = p.maxIt.getD 100 ∧ s.kr = p.kr.getD (1 / 10 ^ 8) ∧ s.contrast = p.contrast.getD (10 ^ 9) ∧
      s.change = p.change.getD (1 / 10 ^ 5) ∧ s.dtTol = p.dtTol.getD (1 / 10 ^ 2) ∧ s.maxdiff = p.maxdiff.getD true ∧
      s.useGravity = p.useGravity.getD false ∧ s.vtk = p.vtk.getD false ∧ s.inout = p.inout.getD false ∧ s.ecl = false := by
  obtain ⟨r, hr, e1, e2, -, e4, e5, e6, e7⟩ := initImpl_deck parse mD j p Base.new false (1 / 1000, 3 / 1000) ρ t d h
  obtain ⟨⟨b, s, q⟩, hq, f1, f2, f3, f4, f5, f6, f7, f8⟩ := steady_some parse mD j p Base.new Steady.new false (1 / 1000, 3 / 1000) ρ r hr
  simp only at f1 f2 f3 f4 f5 f6 f7 f8
  have hv : q.visc = (p.visc1.getD (1 / 1000), p.visc2.getD (3 / 1000)) := by
    rw [f6, e5]
    cases h1 : p.visc1 <;> cases h2 : p.visc2 <;> simp
  have hv' : r.2.visc = (p.visc1.getD (1 / 1000), p.visc2.getD (3 / 1000)) := by
    rw [e5]
    cases h1 : p.visc1 <;> cases h2 : p.visc2 <;> simp
  have hecl : p.ecl.getD false = false := by
    have := h.noEcl
    cases he : p.ecl with
    | none => rfl
    | some e => cases e with
      | false => rfl
      | true => exact absurd he this
  refine ⟨b, s, q, hq, by rw [f1, e1], ?_, by rw [f8]; rfl, ?_, hv, by rw [f7, e6], by rw [f5, e7, hv', hv], by rw [f8]; rfl, by rw [f8]; rfl, by rw [f8]; rfl,
    by rw [f8]; rfl, by rw [f8]; rfl, by rw [f8]; rfl, by rw [f8]; rfl, by rw [f8]; rfl, by rw [f8]; rfl, by rw [f8]; rfl, by rw [f8]; exact hecl⟩
  · rw [hs.extend, hs.clip] at e2
    rw [hs.unique] at e4
    exact ⟨_, _, _, by rw [f2]; exact e2, by simp, by simp, by simp [f4, e4]⟩
  · rw [f8]
    have : (Steady.new (K := K)).maxStep = 10000 := by show (10 : K) ^ 4 = 10000; norm_num
    simp only [this]

/-! ### Violations -/

/-- C122, violated: an upscaler that is initialised a second time with the same parameters does not get the same step sizes if they are not given: the
default is taken from the first initialisation, which has converted it already, so it grows 86400-fold and 31536000-fold. -/
theorem C122_violated_again (parse : String → Option D) (mD : K) (j : Bool) (p : Params K) (b : Base K) (s : Steady K) (u u' : Bool) (v v' ρ ρ' : K × K)
    (q q' : Base K × Steady K × Setup K D) (h1 : p.initStep = none) (h2 : p.maxStep = none)
    (hq : steadyInit parse mD j p b s u v ρ = some q) (hq' : steadyInit parse mD j p q.1 q.2.1 u' v' ρ' = some q') :
    q'.2.1.initStep = q.2.1.initStep * 86400 ∧ q'.2.1.maxStep = q.2.1.maxStep * (365 * 86400) := by
  have key : ∀ (b : Base K) (s : Steady K) (u : Bool) (v ρ : K × K) (q : Base K × Steady K × Setup K D), steadyInit parse mD j p b s u v ρ = some q →
      q.2.1.initStep = s.initStep * 86400 ∧ q.2.1.maxStep = s.maxStep * (365 * 86400) := by
    intro b s u v ρ q hq
    cases hr : initImpl parse mD j p b u v ρ with
    | none => simp [steadyInit, hr] at hq
    | some r =>
      obtain ⟨q₀, g, -, -, -, -, -, -, -, g8⟩ := steady_some parse mD j p b s u v ρ r hr
      rw [hq] at g; cases g
      rw [g8, h1, h2]
      exact ⟨rfl, rfl⟩
  exact key _ _ _ _ _ _ hq'

/-- C122, violated: a value from an earlier initialisation is used where a later one gives none. -/
theorem C122_violated_memory (parse : String → Option D) (mD : K) (j : Bool) (p p' : Params K) (b : Base K) (u u' : Bool) (v v' ρ ρ' : K × K)
    (r r' : Base K × Setup K D) (x : K) (h : p.tol = some x) (h' : p'.tol = none) (hr : initImpl parse mD j p b u v ρ = some r)
    (hr' : initImpl parse mD j p' r.1 u' v' ρ' = some r') : r'.1.tol = x := by
  have h1 := (C122_control parse mD j p u v ρ r b hr).1 x h
  unfold initImpl at hr'
  cases hb : p'.bct with
  | none => simp [hb] at hr'
  | some t =>
    simp only [hb, Option.bind_eq_bind, Option.bind_some] at hr'
    cases hs : setupGridAndProps parse mD j (supported t p') u' v' ρ' with
    | none => simp [hs] at hr'
    | some s =>
      simp only [hs, Option.bind_some, Option.some.injEq] at hr'
      subst hr'
      simp [h', h1]

/-- C122, violated: output of ECL files, a parameter of the steady state upscaler, can never be used with a grid from a file. -/
theorem C122_violated_ecl (parse : String → Option D) (mD : K) (j : Bool) (p : Params K) (b : Base K) (s : Steady K) (u : Bool) (v ρ : K × K)
    (hf : p.format = some "eclipse") (he : p.ecl = some true) : steadyInit parse mD j p b s u v ρ = none := by
  have : initImpl parse mD j p b u v ρ = none := (C122_throws parse mD j p b u v ρ).mpr (Or.inr (Or.inr ⟨hf, Or.inr (Or.inr he)⟩))
  simp [steadyInit, this]

/-- Parameters without any entry. -/
def noParams : Params ℚ :=
  ⟨none, none, none, none, none, none, none, none, none, none, none, none, none, none, none, none, none, none, none, none, none, none, none, none, none, none,
   none, none, none, none, none, none, none, none, none, none, none, none, none, none, none, none, none, none, none⟩

/-- Parameters for linear conditions on a deck, where the user has switched unique boundary ids off. -/
def overridden : Params ℚ := { noParams with bct := some 1, format := some "eclipse", file := some "grid", unique := some false }

/-- C122, violated: a parameter of the user overrules the support of the grid that linear conditions need, without an error. -/
theorem C122_violated_override : ∃ (p : Params ℚ) (r : Base ℚ × Setup ℚ Nat), initImpl (fun _ => some 5) 1 false p Base.new false (1, 3) (1, 1) = some r ∧ r.1.bct = 1 ∧
    ¬ Supports 1 5 r.2 := by
  obtain ⟨r, hr, e1, -, -, e4, -⟩ := initImpl_deck (fun _ => some 5) (1 : ℚ) false overridden Base.new false (1, 3) (1, 1) 1 5
    ⟨rfl, rfl, ⟨"grid", rfl, rfl⟩, by simp [overridden, noParams]⟩
  refine ⟨overridden, r, hr, by rw [e1], ?_⟩
  rintro ⟨a, b, c, -, -, -, h⟩
  have := h.mpr (Or.inl rfl)
  rw [e4] at this
  revert this
  decide

/-- C122, violated: any number is accepted as type of boundary condition. -/
theorem C122_violated_type : ∃ (p : Params ℚ) (r : Base ℚ × Setup ℚ Nat), initImpl (fun _ => some 5) 1 false p Base.new false (1, 3) (1, 1) = some r ∧ r.1.bct = 7 := by
  obtain ⟨r, hr, e, -⟩ := C122_box (D := Nat) (fun _ => some 5) (1 : ℚ) false { noParams with bct := some 7 } Base.new (1, 3) (1, 1) 7 rfl (Or.inl rfl)
  exact ⟨_, r, hr, e⟩

/-- C122, violated: on a box of cells the stability factors are those of the default viscosities, not of the given ones. -/
theorem C122_violated_cfl : ∃ (p : Params ℚ) (q : Base ℚ × Steady ℚ × Setup ℚ Nat),
    steadyInit (fun _ => some 5) 1 false p Base.new Steady.new false (1 / 1000, 3 / 1000) (1, 1) = some q ∧
    q.2.2.visc = (1, 2) ∧ q.2.2.cfl = (1 / 1000, 3 / 1000) :=
  ⟨{ noParams with bct := some 0, visc1 := some 1, visc2 := some 2 }, _, rfl, rfl, rfl⟩

/-! ### The hypotheses are met -/

/-- Parameters for periodic conditions on a deck with a given tolerance. -/
def periodicParams : Params ℚ := { noParams with bct := some 2, format := some "eclipse", file := some "grid", tol := some (1 / 100) }

example : Asks (fun f => if f = "grid" then some 5 else none) periodicParams 2 (5 : Nat) ∧ Silent periodicParams ∧ Plain periodicParams :=
  ⟨⟨rfl, rfl, ⟨"grid", rfl, rfl⟩, by simp [periodicParams, noParams]⟩, ⟨rfl, rfl, rfl⟩, ⟨rfl, rfl, rfl, rfl, rfl, rfl, rfl⟩⟩

/-- The hypotheses of `C122_same` are met. -/
example : let p : Params ℚ := { periodicParams with threshold := some 3, prolong := some 1, gravity := some 0, verb := some 0, solver := some 3, maxit := some 0, smooth := some 1, twodim := some false }
    initImpl (fun f => if f = "grid" then some 5 else none) (1 / 7) false p Base.new false (1, 3) (1, 1) =
      some (initDeck 5 .periodic (3 * (1 / 7)) (1 / 100) 0 3 false 0 1 1 0 false false (1, 3) (1, 1)) :=
  C122_same (fun f => if f = "grid" then some 5 else none) (1 / 7) false _ Base.new false (1, 3) (1, 1) .periodic (5 : Nat) 2 rfl
    ⟨rfl, rfl, ⟨"grid", rfl, rfl⟩, by simp [periodicParams, noParams]⟩ ⟨rfl, rfl, rfl⟩ ⟨rfl, rfl, rfl, rfl, rfl, rfl, rfl⟩
    3 (1 / 100) 1 0 0 3 0 1 false rfl rfl rfl rfl rfl rfl rfl rfl rfl

/-- The hypotheses of `C122_violated_again` are met. -/
example : ∃ q q', steadyInit (fun f => if f = "grid" then some (5 : Nat) else none) 1 false periodicParams Base.new Steady.new false (1, 3) (1, 1) = some q ∧
    steadyInit (fun f => if f = "grid" then some (5 : Nat) else none) 1 false periodicParams q.1 q.2.1 true (1, 3) (1, 1) = some q' ∧
    q.2.1.initStep = 864000 ∧ q'.2.1.initStep = 74649600000 := by
  refine ⟨_, _, rfl, rfl, ?_, ?_⟩ <;> decide +kernel

end Verif.UInit
