import Verif.Spec.PermTool
import Verif.Props.CommandLine
import Mathlib.Data.Rat.Defs
import Mathlib.Algebra.Field.Rat
import Mathlib.Tactic.NormNum
import Mathlib.Tactic.FieldSimp

/-!
C123: the program `upscale_perm`.
-/

namespace Verif.PermTool

open Spec UInit

variable {K D : Type} [Field K]

theorem start_fixed (e : Env K D) (o : Opts K) (d : D) : start e o d .fixed = forFixed o e.mD d := rfl
theorem start_linear (e : Env K D) (o : Opts K) (d : D) : start e o d .linear = forLinear o e.mD d := rfl
theorem start_periodic (e : Env K D) (o : Opts K) (d : D) : start e o d .periodic = forPeriodic o e.mD d := rfl

theorem set_fixed (o : Opts K) (mD : K) (d : D) : setType (forFixed o mD d) .fixed = some (forFixed o mD d) := rfl
theorem set_linear_uncut (o : Opts K) (mD : K) (d : D) : setType (forFixed o mD d) .linear = some (forLinearUncut o mD d) := rfl
theorem set_linear (o : Opts K) (mD : K) (d : D) : setType (forLinear o mD d) .linear = some (forLinear o mD d) := rfl
theorem set_periodic (o : Opts K) (mD : K) (d : D) : setType (forPeriodic o mD d) .periodic = some (forPeriodic o mD d) := rfl

/-- An optional result. -/
def asked (B : Bool) (x : Option (Tensor K)) : Option (Option (Tensor K)) := if B then x.map some else some none

/-- What the program prints, in terms of the states of the specification. -/
theorem report_eq (e : Env K D) (o : Opts K) (d : D) (F L P : Bool) (hne : (F || L || P) = true) :
    report e o d F L P = (do
      let kf ← asked F (e.tensor (forFixed o e.mD d))
      let kl ← asked L (e.tensor (if F then forLinearUncut o e.mD d else forLinear o e.mD d))
      let kp ← asked P (e.tensor (forPeriodic o e.mD d))
      some { poro := if e.hasPoro d then (if P then e.poro (forPeriodic o e.mD d) else if F then e.poro (forFixed o e.mD d) else e.poro (forLinear o e.mD d)) else 0
             names := (if F then ["Fixed (no-flow)"] else []) ++ (if P then ["Periodic"] else []) ++ (if L then ["Linear"] else [])
             blocks := (kf.toList.map fun k => ("fixed", fun i j => k i j * (1 / e.mD))) ++ (kl.toList.map fun k => ("linear", fun i j => k i j * (1 / e.mD))) ++
               (kp.toList.map fun k => ("periodic", fun i j => k i j * (1 / e.mD))) }) := by
  unfold report computeIf compute asked
  cases F <;> cases L <;> cases P <;>
    simp only [start_fixed, start_linear, start_periodic, set_fixed, set_linear_uncut, set_linear, set_periodic, if_true, if_false, Bool.false_eq_true,
      Option.bind_eq_bind, Option.bind_some, Option.map_some]
  · cases hne
  all_goals
    cases hp : e.tensor (forPeriodic o e.mD d) <;> cases hf : e.tensor (forFixed o e.mD d) <;> cases hl : e.tensor (forLinear o e.mD d) <;>
      cases hu : e.tensor (forLinearUncut o e.mD d) <;> simp [set_linear_uncut, hp, hf, hl, hu]

/-- The blocks of the report. -/
theorem report_blocks (e : Env K D) (o : Opts K) (d : D) (F L P : Bool) (hne : (F || L || P) = true) (hm : e.mD ≠ 0) (r : Report K)
    (hr : report e o d F L P = some r) :
    (∀ k, ("fixed", k) ∈ r.blocks ↔ F = true ∧ InMilliDarcy e (forFixed o e.mD d) k) ∧
    (∀ k, ("linear", k) ∈ r.blocks ↔ L = true ∧ InMilliDarcy e (if F then forLinearUncut o e.mD d else forLinear o e.mD d) k) ∧
    (∀ k, ("periodic", k) ∈ r.blocks ↔ P = true ∧ InMilliDarcy e (forPeriodic o e.mD d) k) ∧
    r.blocks.map Prod.fst = (if F then ["fixed"] else []) ++ (if L then ["linear"] else []) ++ (if P then ["periodic"] else []) ∧
    (F = true → (e.tensor (forFixed o e.mD d)).isSome) ∧
    (L = true → (e.tensor (if F then forLinearUncut o e.mD d else forLinear o e.mD d)).isSome) ∧
    (P = true → (e.tensor (forPeriodic o e.mD d)).isSome) := by
  have hconv : ∀ (u : Upscaler K D) (si k : Tensor K), e.tensor u = some si → ((k = fun i j => si i j * (1 / e.mD)) ↔ InMilliDarcy e u k) := by
    intro u si k hu
    constructor
    · rintro rfl
      exact ⟨si, hu, fun i j => by field_simp⟩
    · rintro ⟨si', hu', h⟩
      rw [hu] at hu'; cases hu'
      funext i j
      rw [h]; field_simp
  have hopt : ∀ (B : Bool) (x : Option (Tensor K)) (y : Option (Tensor K)), asked B x = some y →
      (B = false ∧ y = none) ∨ (B = true ∧ ∃ k, x = some k ∧ y = some k) := by
    intro B x y h
    cases B with
    | false => exact Or.inl ⟨rfl, (Option.some.inj h).symm⟩
    | true =>
      cases x with
      | none => cases h
      | some k => exact Or.inr ⟨rfl, k, rfl, (Option.some.inj h).symm⟩
  rw [report_eq e o d F L P hne] at hr
  simp only [Option.bind_eq_bind, Option.bind_eq_some_iff] at hr
  obtain ⟨kf, h1, kl, h2, kp, h3, hr⟩ := hr
  have hr := Option.some.inj hr
  subst hr
  have hmem : ∀ (B : Bool) (u : Upscaler K D) (y : Option (Tensor K)), asked B (e.tensor u) = some y → ∀ k : Tensor K,
      (∃ si, y = some si ∧ (fun i j => si i j * (1 / e.mD)) = k) ↔ B = true ∧ InMilliDarcy e u k := by
    intro B u y h k
    rcases hopt _ _ _ h with ⟨rfl, rfl⟩ | ⟨rfl, f, hf, rfl⟩
    · simp
    · rw [← hconv u f k hf]
      constructor
      · rintro ⟨si, h, h'⟩; cases h; exact ⟨rfl, h'.symm⟩
      · rintro ⟨-, h⟩; exact ⟨f, rfl, h.symm⟩
  have hsome : ∀ (B : Bool) (u : Upscaler K D) (y : Option (Tensor K)), asked B (e.tensor u) = some y → B = true → (e.tensor u).isSome := by
    intro B u y h hB
    rcases hopt _ _ _ h with ⟨rfl, rfl⟩ | ⟨rfl, f, hf, rfl⟩
    · cases hB
    · rw [hf]; rfl
  have hnames : ∀ (B : Bool) (u : Upscaler K D) (y : Option (Tensor K)) (n : String), asked B (e.tensor u) = some y →
      List.map Prod.fst (y.toList.map fun k => (n, fun i j => k i j * (1 / e.mD))) = if B then [n] else [] := by
    intro B u y n h
    rcases hopt _ _ _ h with ⟨rfl, rfl⟩ | ⟨rfl, f, hf, rfl⟩ <;> rfl
  refine ⟨fun k => ?_, fun k => ?_, fun k => ?_, ?_, hsome _ _ _ h1, hsome _ _ _ h2, hsome _ _ _ h3⟩
  · rw [← hmem _ _ _ h1]; simp
  · rw [← hmem _ _ _ h2]; simp
  · rw [← hmem _ _ _ h3]; simp
  · rw [List.map_append, List.map_append, hnames _ _ _ _ h1, hnames _ _ _ _ h2, hnames _ _ _ _ h3]

/-- The report exists if the computations that are asked for do not throw. -/
theorem report_total (e : Env K D) (o : Opts K) (d : D) (F L P : Bool) (hne : (F || L || P) = true) (ht : ∀ u, (e.tensor u).isSome) :
    ∃ r, report e o d F L P = some r := by
  have : ∀ (B : Bool) (u : Upscaler K D), ∃ y, asked B (e.tensor u) = some y := by
    intro B u
    obtain ⟨k, hk⟩ := Option.isSome_iff_exists.mp (ht u)
    cases B
    · exact ⟨none, rfl⟩
    · exact ⟨some k, by rw [hk]; rfl⟩
  obtain ⟨a, ha⟩ := this F (forFixed o e.mD d)
  obtain ⟨b, hb⟩ := this L (if F then forLinearUncut o e.mD d else forLinear o e.mD d)
  obtain ⟨c, hc⟩ := this P (forPeriodic o e.mD d)
  rw [report_eq e o d F L P hne, ha, hb, hc]
  exact ⟨_, rfl⟩

theorem report_head (e : Env K D) (o : Opts K) (d : D) (F L P : Bool) (hne : (F || L || P) = true) (r : Report K) (hr : report e o d F L P = some r) :
    r.poro = (if e.hasPoro d then (if P then e.poro (forPeriodic o e.mD d) else if F then e.poro (forFixed o e.mD d) else e.poro (forLinear o e.mD d)) else 0) ∧
    r.names = (if F then ["Fixed (no-flow)"] else []) ++ (if P then ["Periodic"] else []) ++ (if L then ["Linear"] else []) := by
  rw [report_eq e o d F L P hne] at hr
  simp only [Option.bind_eq_bind, Option.bind_eq_some_iff] at hr
  obtain ⟨kf, h1, kl, h2, kp, h3, hr⟩ := hr
  have hr := Option.some.inj hr
  subst hr
  exact ⟨rfl, rfl⟩

/-- From a successful run to the report. -/
theorem run_ok (e : Env K D) (o : Opts K) (parse : Option D) (bc : Cmd.Arg) (out : String) (r : Report K) (f : Option (String × Report K))
    (h : run e o parse bc out = .ok (r, f)) : ∃ d F L P, parse = some d ∧ bc.length ≤ 3 ∧ (F = true ↔ 'f' ∈ bc) ∧ (L = true ↔ 'l' ∈ bc) ∧ (P = true ↔ 'p' ∈ bc) ∧
      (F || L || P) = true ∧ e.hasGrid d = true ∧ report e o d F L P = some r ∧ f = if out ≠ "" then some (out, r) else none := by
  unfold run at h
  cases hc : Cmd.conditions bc with
  | ok t =>
    obtain ⟨F, L, P⟩ := t
    obtain ⟨h1, h2, h3, h4, h5⟩ := (Cmd.C101_conditions bc F L P).mp hc
    simp only [hc] at h
    cases parse with
    | none => cases h
    | some d =>
      simp only at h
      cases hg : e.hasGrid d with
      | false => simp [hg] at h
      | true =>
        simp only [hg, Bool.not_true, Bool.false_eq_true, if_false] at h
        cases hr : report e o d F L P with
        | none => simp [hr] at h
        | some r' =>
          simp only [hr] at h
          injection h with h
          injection h with h6 h7
          subst h6
          exact ⟨d, F, L, P, rfl, h1, h2, h3, h4, h5, hg, hr, h7.symm⟩
  | usage => simp [hc] at h
  | throw => simp [hc] at h
  | ub => simp [hc] at h

/-- C123. For each condition that is named the program prints the tensor, in millidarcy, that the upscaler computes in the state that belongs to the
condition, and no tensor for a condition that is not named. Fixed and periodic results do not depend on what else is named. Linear results are
computed on the cut grid if fixed conditions are not named. -/
theorem C123_each (e : Env K D) (hm : e.mD ≠ 0) (o : Opts K) (d : D) (bc : Cmd.Arg) (out : String) (r : Report K) (f : Option (String × Report K))
    (h : run e o (some d) bc out = .ok (r, f)) :
    (∀ k, ("fixed", k) ∈ r.blocks ↔ 'f' ∈ bc ∧ InMilliDarcy e (forFixed o e.mD d) k) ∧
    (∀ k, ("periodic", k) ∈ r.blocks ↔ 'p' ∈ bc ∧ InMilliDarcy e (forPeriodic o e.mD d) k) ∧
    ('f' ∉ bc → ∀ k, ("linear", k) ∈ r.blocks ↔ 'l' ∈ bc ∧ InMilliDarcy e (forLinear o e.mD d) k) ∧
    ('f' ∈ bc → ∀ k, ("linear", k) ∈ r.blocks ↔ 'l' ∈ bc ∧ InMilliDarcy e (forLinearUncut o e.mD d) k) := by
  obtain ⟨d', F, L, P, hd, -, hF, hL, hP, hne, -, hr, -⟩ := run_ok e o _ bc out r f h
  cases hd
  obtain ⟨h1, h2, h3, -⟩ := report_blocks e o d F L P hne hm r hr
  refine ⟨fun k => by rw [h1, hF], fun k => by rw [h3, hP], fun hf k => ?_, fun hf k => ?_⟩
  · have : F = false := by cases F with | false => rfl | true => exact absurd (hF.mp rfl) hf
    subst this
    rw [h2, hL]; simp
  · have : F = true := hF.mpr hf
    subst this
    rw [h2, hL]; simp

/-- C123. Each condition that is named has exactly one tensor, in the order fixed, linear, periodic; the same report goes to the file, if one is named. -/
theorem C123_layout (e : Env K D) (hm : e.mD ≠ 0) (o : Opts K) (d : D) (bc : Cmd.Arg) (out : String) (r : Report K) (f : Option (String × Report K))
    (h : run e o (some d) bc out = .ok (r, f)) :
    r.blocks.map Prod.fst = (if 'f' ∈ bc then ["fixed"] else []) ++ (if 'l' ∈ bc then ["linear"] else []) ++ (if 'p' ∈ bc then ["periodic"] else []) ∧
    ("Fixed (no-flow)" ∈ r.names ↔ 'f' ∈ bc) ∧ ("Linear" ∈ r.names ↔ 'l' ∈ bc) ∧ ("Periodic" ∈ r.names ↔ 'p' ∈ bc) ∧
    (out = "" → f = none) ∧ (out ≠ "" → f = some (out, r)) := by
  obtain ⟨d', F, L, P, hd, -, hF, hL, hP, hne, -, hr, hf⟩ := run_ok e o _ bc out r f h
  cases hd
  obtain ⟨-, -, -, h4, -⟩ := report_blocks e o d F L P hne hm r hr
  obtain ⟨-, h5⟩ := report_head e o d F L P hne r hr
  simp only [← hF, ← hL, ← hP]
  refine ⟨h4, ?_, ?_, ?_, fun h => by rw [hf, if_neg (fun h' => h' h)], fun h => by rw [hf, if_pos h]⟩
  all_goals rw [h5]; cases F <;> cases L <;> cases P <;> simp

/-- C123. The program stops with its usage if and only if the word for the conditions has more than three letters or none of `f`, `l`, `p`, or the deck has no grid. -/
theorem C123_usage (e : Env K D) (o : Opts K) (d : D) (bc : Cmd.Arg) (out : String) :
    run e o (some d) bc out = .usage ↔ 3 < bc.length ∨ ('f' ∉ bc ∧ 'l' ∉ bc ∧ 'p' ∉ bc) ∨ e.hasGrid d = false := by
  have hcond : (∃ F L P, Cmd.conditions bc = .ok (F, L, P)) ∨ Cmd.conditions bc = .usage := by
    unfold Cmd.conditions
    split
    · simp only
      split
      · exact Or.inr rfl
      · exact Or.inl ⟨_, _, _, rfl⟩
    · exact Or.inr rfl
  rcases hcond with ⟨F, L, P, hc⟩ | hc
  · obtain ⟨h1, h2, h3, h4, h5⟩ := (Cmd.C101_conditions bc F L P).mp hc
    have hn : ¬ (3 < bc.length ∨ ('f' ∉ bc ∧ 'l' ∉ bc ∧ 'p' ∉ bc)) := by
      rintro (h | ⟨a, b, c⟩)
      · omega
      · rw [← h2] at a; rw [← h3] at b; rw [← h4] at c
        cases F <;> cases L <;> cases P <;> simp_all
    rw [← or_assoc]
    constructor
    · intro h
      right
      cases hg : e.hasGrid d with
      | false => rfl
      | true =>
        unfold run at h
        simp only [hc, hg] at h
        cases hr : report e o d F L P <;> simp [hr] at h
    · rintro (h | h)
      · exact absurd h hn
      · simp [run, hc, h]
  · constructor
    · intro _
      by_contra hh
      push Not at hh
      obtain ⟨a, b, -⟩ := hh
      have : Cmd.conditions bc = .ok (decide ('f' ∈ bc), decide ('l' ∈ bc), decide ('p' ∈ bc)) := by
        refine (Cmd.C101_conditions bc _ _ _).mpr ⟨a, by simp, by simp, by simp, ?_⟩
        by_cases hf : 'f' ∈ bc
        · simp [hf]
        · by_cases hl : 'l' ∈ bc
          · simp [hl]
          · simp [b hf hl]
      rw [this] at hc
      cases hc
    · intro _
      simp [run, hc]

/-- C123. If the single computations do not throw, the program does not: it never asks an upscaler for a change of type that is refused. -/
theorem C123_runs (e : Env K D) (o : Opts K) (d : D) (bc : Cmd.Arg) (out : String) (ht : ∀ u, (e.tensor u).isSome) (hg : e.hasGrid d = true)
    (h1 : bc.length ≤ 3) (h2 : 'f' ∈ bc ∨ 'l' ∈ bc ∨ 'p' ∈ bc) : ∃ r f, run e o (some d) bc out = .ok (r, f) := by
  have hne : (decide ('f' ∈ bc) || decide ('l' ∈ bc) || decide ('p' ∈ bc)) = true := by
    rcases h2 with h | h | h <;> simp [h]
  have hc : Cmd.conditions bc = .ok (decide ('f' ∈ bc), decide ('l' ∈ bc), decide ('p' ∈ bc)) :=
    (Cmd.C101_conditions bc _ _ _).mpr ⟨h1, by simp, by simp, by simp, hne⟩
  obtain ⟨r, hr⟩ := report_total e o d _ _ _ hne ht
  exact ⟨r, _, by unfold run; simp only [hc, hg, hr]; rfl⟩

/-- C123. The order of the letters and repetitions do not matter. -/
theorem C123_order (e : Env K D) (o : Opts K) (parse : Option D) (bc bc' : Cmd.Arg) (out : String) (h : bc.length ≤ 3) (h' : bc'.length ≤ 3)
    (hs : ∀ c, c = 'f' ∨ c = 'l' ∨ c = 'p' → (c ∈ bc ↔ c ∈ bc')) : run e o parse bc out = run e o parse bc' out := by
  have hf := hs 'f' (Or.inl rfl)
  have hl := hs 'l' (Or.inr (Or.inl rfl))
  have hp := hs 'p' (Or.inr (Or.inr rfl))
  have key : Cmd.conditions bc = Cmd.conditions bc' := by
    have : ∀ b : Cmd.Arg, Cmd.conditions b = .usage ∨ ∃ F L P, Cmd.conditions b = .ok (F, L, P) := by
      intro b
      unfold Cmd.conditions
      split
      · simp only
        split
        · exact Or.inl rfl
        · exact Or.inr ⟨_, _, _, rfl⟩
      · exact Or.inl rfl
    rcases this bc with h1 | ⟨F, L, P, h1⟩
    · rcases this bc' with h2 | ⟨F, L, P, h2⟩
      · rw [h1, h2]
      · obtain ⟨_, a, b, c, g⟩ := (Cmd.C101_conditions _ _ _ _).mp h2
        rw [(Cmd.C101_conditions bc F L P).mpr ⟨h, a.trans hf.symm, b.trans hl.symm, c.trans hp.symm, g⟩] at h1
        cases h1
    · obtain ⟨_, a, b, c, g⟩ := (Cmd.C101_conditions _ _ _ _).mp h1
      rw [h1, (Cmd.C101_conditions bc' F L P).mpr ⟨h', a.trans hf, b.trans hl, c.trans hp, g⟩]
  unfold run
  rw [key]

/-- C123. The porosity: of the periodic grid if periodic conditions are named, else of the grid that is not extended; 0 without porosities in the deck. -/
theorem C123_porosity (e : Env K D) (o : Opts K) (d : D) (bc : Cmd.Arg) (out : String) (r : Report K) (f : Option (String × Report K))
    (h : run e o (some d) bc out = .ok (r, f)) :
    (e.hasPoro d = false → r.poro = 0) ∧ (e.hasPoro d = true → 'p' ∈ bc → r.poro = e.poro (forPeriodic o e.mD d)) ∧
    (e.hasPoro d = true → 'p' ∉ bc → 'f' ∈ bc → r.poro = e.poro (forFixed o e.mD d)) ∧
    (e.hasPoro d = true → 'p' ∉ bc → 'f' ∉ bc → r.poro = e.poro (forLinear o e.mD d)) := by
  obtain ⟨d', F, L, P, hd, -, hF, hL, hP, hne, -, hr, -⟩ := run_ok e o _ bc out r f h
  cases hd
  obtain ⟨h5, -⟩ := report_head e o d F L P hne r hr
  rw [h5]
  simp only [← hF, ← hP]
  cases F <;> cases P <;> cases e.hasPoro d <;> simp

/-! ### Violations -/

/-- An environment in which the results show the state of the upscaler: 1 on an uncut grid, 2 on a cut one. -/
def showCut : Env ℚ Unit where
  hasGrid := fun _ => true
  hasPoro := fun _ => true
  tensor := fun u => match u.2.grid with
    | .deck _ _ _ clip => some fun i j => if i = j then (if clip then 2 else 1) else 0
    | _ => none
  poro := fun u => match u.2.grid with
    | .deck _ _ _ clip => if clip then 1 / 2 else 1 / 3
    | _ => 0
  mD := 1

def someOpts : Opts ℚ := ⟨1 / 10 ^ 8, 0, 3, 0, 1, 1, 1 / 10 ^ 9⟩

/-- The number in the first entry of the linear tensor, and the porosity. -/
def shown (o : Cmd.Outcome (Report ℚ × Option (String × Report ℚ))) : Option (List (String × ℚ) × ℚ) :=
  match o with
  | .ok (r, _) => some (r.blocks.map fun b => (b.1, b.2 0 0), r.poro)
  | _ => none

/-- C123, violated: the result for linear conditions depends on whether fixed ones are named as well, since the grid is then not cut. -/
theorem C123_violated_linear : shown (run showCut someOpts (some ()) ['l'] "") = some ([("linear", 2)], 1 / 2) ∧
    shown (run showCut someOpts (some ()) ['f', 'l'] "") = some ([("fixed", 1), ("linear", 1)], 1 / 3) := by
  constructor <;> decide +kernel

/-- C123, violated: the printed porosity depends on the conditions that are named. -/
theorem C123_violated_porosity : shown (run showCut someOpts (some ()) ['f'] "") = some ([("fixed", 1)], 1 / 3) ∧
    shown (run showCut someOpts (some ()) ['p', 'f'] "") = some ([("fixed", 1), ("periodic", 2)], 1 / 2) := by
  constructor <;> decide +kernel

/-! ### The hypotheses are met -/

example : (∀ u : Upscaler ℚ Unit, ({ showCut with tensor := fun _ => some fun _ _ => 1 } : Env ℚ Unit).tensor u |>.isSome) ∧ showCut.mD ≠ 0 :=
  ⟨fun _ => rfl, one_ne_zero⟩

example : ∃ r f, run { showCut with tensor := fun _ => some fun _ _ => 1 } someOpts (some ()) ['p', 'f', 'l'] "out" = .ok (r, f) :=
  C123_runs _ _ _ _ _ (fun _ => rfl) rfl (by decide) (by decide)

/-- C123. The type of boundary condition of an upscaler can be changed exactly within the periodic or within the non-periodic ones; only the type and the numbering of the sides change. -/
theorem C123_type (u : Upscaler K D) (t : Boundary.UType) :
    (setType u t = none ↔ ¬ (t = .periodic ↔ u.1.bct = 2)) ∧
    ∀ u', setType u t = some u' → u'.1.bct = (match t with | .fixed => 0 | .linear => 1 | .periodic => 2) ∧ (u'.2.uniqueIds = true ↔ t ≠ .fixed) ∧
      ∀ b i, ({ u'.1 with bct := b }, { u'.2 with uniqueIds := i }) = (({ u.1 with bct := b }, { u.2 with uniqueIds := i }) : Upscaler K D) := by
  unfold setType
  constructor
  · by_cases h : u.1.bct = 2 <;> cases t <;> simp [h]
  · intro u' h
    split at h
    · cases h
    · cases h
      cases t <;> simp [code]

example : setType (forPeriodic someOpts (1 : ℚ) ()) .linear = none := by
  rw [(C123_type _ _).1]; decide

end Verif.PermTool
