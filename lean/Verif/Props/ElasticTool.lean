import Verif.Spec.ElasticTool
import Mathlib.Algebra.Order.Field.Basic
import Mathlib.Data.Rat.Defs
import Mathlib.Algebra.Order.Ring.Rat
import Mathlib.Algebra.Field.Rat
import Mathlib.Tactic.NormNum
import Mathlib.Tactic.FieldSimp
import Mathlib.Tactic.FinCases
import Mathlib.Tactic.Linarith
import Mathlib.Data.Fintype.Basic

/-!
C129: the set-up of the program `upscale_elasticity`.
-/

namespace Verif.ElasticTool

open Spec

variable {K : Type} [Field K] [LinearOrder K] [IsStrictOrderedRing K]

/-- What is known when the computations start. -/
theorem main_go {pi : K} {sqrt : K → Option K} {trunc : K → Int} {size : Source K → Fin 3 → Nat} {found : Source K → (Fin 3 → K) × (Fin 3 → K)} {g : Group K} {pl : Plan K}
    (h : main pi sqrt trunc size found g = .go pl) : ∃ p, parse pi g = some p ∧ pl.source = source p ∧ pl.box = box p (found (source p)) ∧
      zcells sqrt trunc (size (source p)) pl.box p.linsolver.zcells = some pl.zcells ∧ p.inspect ≠ "mesh" ∧ p.method = some pl.method ∧
      pl.n1 = size (source p) 0 ∧ pl.n2 = size (source p) 1 ∧ pl.announced = heuristic sqrt (size (source p)) pl.box p.linsolver.precond ∧
      pl.family = family p.linsolver ∧ pl.cases = (List.range 6).map (actions p.inspect) := by
  unfold main at h
  rcases hp : parse pi g with _ | p
  · rw [hp] at h; cases h
  rw [hp] at h
  simp only at h
  rcases hz : zcells sqrt trunc (size (source p)) (box p (found (source p))) p.linsolver.zcells with _ | z
  · rw [hz] at h; cases h
  rw [hz] at h
  simp only at h
  by_cases hm : p.inspect = "mesh"
  · rw [if_pos hm] at h; cases h
  rw [if_neg hm] at h
  rcases hq : p.method with _ | m
  · rw [hq] at h; cases h
  rw [hq] at h
  simp only at h
  cases h
  exact ⟨p, rfl, rfl, rfl, hz, hm, hq, rfl, rfl, rfl, rfl, rfl⟩

/-- C129. Names, types and defaults of the options; without a grid the program stops with an exception. -/
theorem C129_parameters (pi : K) (g : Group K) :
    (parse pi g = none ↔ g.str "gridfilename" = none) ∧
    ∀ p, parse pi g = some p → g.str "gridfilename" = some p.file ∧ p.rocklist = (g.str "rock_list").getD "" ∧ p.output = (g.str "output").getD "" ∧
      p.resultfilename = (g.str "resultfilename").getD "" ∧ p.inspect = (g.str "inspect").getD "" ∧
      p.Emin = (g.num "Emin").getD 0 ∧ p.ctol = (g.num "ctol").getD (1 / 1000000) ∧ p.dip = (g.num "dip_angle").getD (pi / 2) ∧
      p.azimuth = (g.num "azimuth_angle").getD 0 ∧ p.lambda = ((g.int "lambdax").getD 2, (g.int "lambday").getD 2) ∧
      p.verbose = (g.flag "verbose").getD false ∧ p.outputSpeeds = (g.flag "output_wave_speeds").getD false ∧
      p.cells 0 = (g.int "cellsx").getD 3 ∧ p.cells 1 = (g.int "cellsy").getD 3 ∧ p.cells 2 = (g.int "cellsz").getD 3 := by
  unfold parse
  refine ⟨by simp, fun p h => ?_⟩
  obtain ⟨f, hf, rfl⟩ := Option.map_eq_some_iff.mp h
  refine ⟨hf, rfl, rfl, rfl, rfl, rfl, ?_, rfl, rfl, rfl, rfl, rfl, rfl, rfl, rfl⟩
  norm_num

/-- C129. Options of the linear solver: names and defaults; with a symmetric solver, which is the default, there are as many steps after as before. -/
theorem C129_linsolver (pi : K) (g : Group K) (p : Params K) (h : parse pi g = some p) :
    (p.linsolver.type = .iterative ↔ g.str "linsolver_type" = none ∨ g.str "linsolver_type" = some "iterative") ∧
    p.linsolver.restart = (g.int "linsolver_restart").getD 1000 ∧ p.linsolver.maxit = (g.int "linsolver_maxit").getD 10000 ∧
    p.linsolver.tol = (g.num "ltol").getD (1 / 100000000) ∧ p.linsolver.symmetric = (g.flag "linsolver_symmetric").getD true ∧
    p.linsolver.uzawa = (g.flag "linsolver_uzawa").getD false ∧ p.linsolver.coarsen = (g.int "linsolver_coarsen").getD 5000 ∧
    p.linsolver.zcells = (g.int "linsolver_zcells").getD 2 ∧ p.linsolver.report = (g.flag "linsolver_report").getD false ∧
    p.linsolver.pre = (g.int "linsolver_presteps").getD 2 ∧
    (g.flag "linsolver_symmetric" ≠ some false → p.linsolver.post = p.linsolver.pre) ∧
    (g.flag "linsolver_symmetric" = some false → p.linsolver.post = (g.int "linsolver_poststeps").getD 2) := by
  unfold parse at h
  obtain ⟨f, hf, rfl⟩ := Option.map_eq_some_iff.mp h
  refine ⟨?_, rfl, rfl, by simp only [parseLinSol]; norm_num, rfl, rfl, rfl, rfl, rfl, rfl, ?_, ?_⟩
  · simp only [parseLinSol]
    rcases g.str "linsolver_type" with _ | s
    · simp
    · by_cases hs : s = "iterative" <;> simp [hs]
  · intro hs
    simp only [parseLinSol]
    rcases hq : g.flag "linsolver_symmetric" with _ | b
    · rfl
    · cases b
      · exact absurd hq hs
      · rfl
  · intro hs
    simp only [parseLinSol, hs]
    rfl

/-- C129. Words for the smoother and for the preconditioner of the multipliers. -/
theorem C129_words (pi : K) (g : Group K) (p : Params K) (h : parse pi g = some p) :
    p.linsolver.smoother = (match g.str "linsolver_smoother" with
      | some "schwarz" => .schwarz
      | some "ilu" => .ilu
      | some "jacobi" => .jacobi
      | _ => .ssor) ∧
    p.linsolver.mortarpre = (match g.str "linsolver_mortarpre" with
      | some "simple" => .simple
      | some "amg" => .schurAmg
      | some "schwarz" => .schurSchwarz
      | some "twolevel" => .schurTwolevel
      | _ => .schur) ∧
    p.linsolver.precond = (match g.str "linsolver_pre" with
      | none => .undetermined
      | some "" => .undetermined
      | some "heuristic" => .undetermined
      | some "schwarz" => .schwarz
      | some "fastamg" => .fastamg
      | some "twolevel" => .twolevel
      | _ => .amg) := by
  unfold parse at h
  obtain ⟨f, hf, rfl⟩ := Option.map_eq_some_iff.mp h
  refine ⟨?_, ?_, ?_⟩
  · simp only [parseLinSol, parseSmoother]
    rcases hq : g.str "linsolver_smoother" with _ | s
    · rfl
    simp only [Option.getD_some]
    split_ifs with h1 h2 h3
    · subst h1; rfl
    · subst h2; rfl
    · subst h3; rfl
    · split <;> simp_all
  · simp only [parseLinSol, parseMortar]
    rcases hq : g.str "linsolver_mortarpre" with _ | s
    · rfl
    simp only [Option.getD_some]
    split_ifs with h1 h2 h3 h4
    · subst h1; rfl
    · subst h2; rfl
    · subst h3; rfl
    · subst h4; rfl
    · split <;> simp_all
  · simp only [parseLinSol]
    rcases hq : g.str "linsolver_pre" with _ | s
    · rfl
    simp only [Option.getD_some, parsePre]
    by_cases h0 : s = ""
    · subst h0; rfl
    rw [if_neg h0]
    split_ifs with h1 h2 h3 h4
    · subst h1; rfl
    · subst h2; rfl
    · subst h3; rfl
    · subst h4; rfl
    · split <;> simp_all

/-- C129. The method is the one that is named in lower case, mortar couplings if none is named. -/
theorem C129_method {pi : K} {sqrt : K → Option K} {trunc : K → Int} {size : Source K → Fin 3 → Nat} {found : Source K → (Fin 3 → K) × (Fin 3 → K)} {g : Group K} {pl : Plan K}
    (h : main pi sqrt trunc size found g = .go pl) :
    (pl.method = .mortar ↔ g.str "method" = none ∨ g.str "method" = some "mortar") ∧ (pl.method = .mpc ↔ g.str "method" = some "mpc") ∧
    (pl.method = .none ↔ g.str "method" = some "none") := by
  obtain ⟨p, hp, _, _, _, _, hm, _⟩ := main_go h
  unfold parse at hp
  obtain ⟨f, hf, rfl⟩ := Option.map_eq_some_iff.mp hp
  simp only [parseMethod] at hm
  rcases hq : g.str "method" with _ | s
  · rw [hq] at hm
    simp at hm
    simp [← hm]
  · rw [hq] at hm
    simp only [Option.getD_some] at hm
    by_cases h1 : s = "none"
    · subst h1; simp at hm; simp [← hm]
    by_cases h2 : s = "mortar"
    · subst h2; simp at hm; simp [← hm]
    by_cases h3 : s = "mpc"
    · subst h3; simp at hm; simp [← hm]
    rw [if_neg h1, if_neg h2, if_neg h3] at hm
    cases hm

/-- C129. The words that the usage names leave the method unset, so that an indeterminate value decides; so does every other word. -/
theorem C129_violated_method (pi : K) (sqrt : K → Option K) (trunc : K → Int) (size : Source K → Fin 3 → Nat) (found : Source K → (Fin 3 → K) × (Fin 3 → K)) (file : String)
    (word : String) (hw : word = "MPC" ∨ word = "Mortar" ∨ (word ≠ "mpc" ∧ word ≠ "mortar" ∧ word ≠ "none")) :
    main pi sqrt trunc size found ((only file).withStr "method" word) = .ub := by
  have hn : word ≠ "mpc" ∧ word ≠ "mortar" ∧ word ≠ "none" := by
    rcases hw with rfl | rfl | h
    · decide
    · decide
    · exact h
  unfold main parse
  simp [only, Group.withStr, parseMethod, parseLinSol, zcells, hn.1, hn.2.1, hn.2.2]

theorem parse_coord {pi : K} {g : Group K} {p : Params K} (h : parse pi g = some p) :
    p.max = (fun i => (((g.int ((!["xmax", "ymax", "zmax"] : Fin 3 → String) i)).getD (-1) : Int) : K)) ∧
    p.min = (fun i => (((g.int ((!["xmin", "ymin", "zmin"] : Fin 3 → String) i)).getD (-1) : Int) : K)) := by
  unfold parse at h
  obtain ⟨f, hf, rfl⟩ := Option.map_eq_some_iff.mp h
  exact ⟨rfl, rfl⟩

/-- C129. Without coordinates those found by traversal of the grid are used; if all six are given, and those of x are not negative, they are used. -/
theorem C129_box {pi : K} {sqrt : K → Option K} {trunc : K → Int} {size : Source K → Fin 3 → Nat} {found : Source K → (Fin 3 → K) × (Fin 3 → K)} {g : Group K} {pl : Plan K}
    (h : main pi sqrt trunc size found g = .go pl) :
    (g.int "xmax" = none ∨ g.int "xmin" = none → pl.box = found pl.source) ∧
    ∀ a b c u v w : Int, g.int "xmin" = some a → g.int "ymin" = some b → g.int "zmin" = some c → g.int "xmax" = some u → g.int "ymax" = some v →
      g.int "zmax" = some w → 0 ≤ a → 0 ≤ u → pl.box = (![(a : K), (b : K), (c : K)], ![(u : K), (v : K), (w : K)]) := by
  obtain ⟨p, hp, hs, hb, _⟩ := main_go h
  obtain ⟨h1, h2⟩ := parse_coord hp
  rw [hb, hs]
  unfold box
  constructor
  · rintro (hx | hx)
    · rw [if_pos]
      left; rw [h1]; simp [hx]
    · rw [if_pos]
      right; rw [h2]; simp [hx]
  · intro a b c u v w ga gb gc gu gv gw ha hu
    rw [if_neg]
    · rw [h1, h2]
      apply Prod.ext
      · funext i; fin_cases i <;> simp [ga, gb, gc]
      · funext i; fin_cases i <;> simp [gu, gv, gw]
    · rw [h1, h2]
      simp only [Matrix.cons_val_zero, gu, ga, Option.getD_some, not_or, not_lt]
      exact ⟨by exact_mod_cast hu, by exact_mod_cast ha⟩

/-- C129. If the coordinates are not those found by traversal, they are all whole numbers: no other box can be given. -/
theorem C129_violated_fraction {pi : K} {sqrt : K → Option K} {trunc : K → Int} {size : Source K → Fin 3 → Nat} {found : Source K → (Fin 3 → K) × (Fin 3 → K)} {g : Group K} {pl : Plan K}
    (h : main pi sqrt trunc size found g = .go pl) : pl.box = found pl.source ∨ ∀ i, (∃ n : Int, pl.box.1 i = n) ∧ ∃ n : Int, pl.box.2 i = n := by
  obtain ⟨p, hp, hs, hb, _⟩ := main_go h
  obtain ⟨h1, h2⟩ := parse_coord hp
  rw [hb, hs]
  unfold box
  split
  · exact Or.inl rfl
  · exact Or.inr fun i => ⟨⟨_, by rw [h2]⟩, ⟨_, by rw [h1]⟩⟩

/-- Command lines with which the computations are reached. -/
theorem reaches (pi : K) (sqrt : K → Option K) (trunc : K → Int) (size : Source K → Fin 3 → Nat) (found : Source K → (Fin 3 → K) × (Fin 3 → K)) (g : Group K) (file : String)
    (h1 : g.str "gridfilename" = some file) (h2 : g.str "method" = none) (h3 : g.str "inspect" = none) (h4 : g.int "linsolver_zcells" = none) :
    ∃ pl p, main pi sqrt trunc size found g = .go pl ∧ parse pi g = some p ∧ p.file = file := by
  rcases hp : parse pi g with _ | p
  · rw [(C129_parameters pi g).1, h1] at hp; cases hp
  have hq := (C129_parameters pi g).2 p hp
  have hf : p.file = file := by have := hq.1; rw [h1] at this; exact (Option.some.inj this).symm
  have hi : p.inspect ≠ "mesh" := by rw [hq.2.2.2.2.1, h3]; decide
  have hz : p.linsolver.zcells ≠ -1 := by rw [(C129_linsolver pi g p hp).2.2.2.2.2.2.2.1, h4]; decide
  have hm : p.method = some .mortar := by
    have hp' := hp
    unfold parse at hp'
    obtain ⟨f, hf, rfl⟩ := Option.map_eq_some_iff.mp hp'
    simp [h2, parseMethod]
  obtain ⟨pl, hpl⟩ : ∃ pl, main pi sqrt trunc size found g = .go pl := by
    unfold main
    rw [hp]
    simp only [zcells, if_neg hz, if_neg hi, hm]
    exact ⟨_, rfl⟩
  exact ⟨pl, p, hpl, rfl, hf⟩

/-- C129. If only the x-coordinates are given, those of y and z are not found by traversal but both sides are put at -1. -/
theorem C129_violated_missing (pi : K) (sqrt : K → Option K) (trunc : K → Int) (size : Source K → Fin 3 → Nat) (found : Source K → (Fin 3 → K) × (Fin 3 → K)) (file : String) :
    ∃ pl, main pi sqrt trunc size found (((only file).withInt "xmin" 0).withInt "xmax" 5) = .go pl ∧ pl.box = (![0, -1, -1], ![5, -1, -1]) := by
  obtain ⟨pl, p, hpl, hp, _⟩ := reaches pi sqrt trunc size found (((only file).withInt "xmin" 0).withInt "xmax" 5) file rfl rfl rfl rfl
  obtain ⟨q, hq, hs, hb, _⟩ := main_go hpl
  cases hp.symm.trans hq
  obtain ⟨h1, h2⟩ := parse_coord hp
  refine ⟨pl, hpl, ?_⟩
  rw [hb]
  unfold box
  rw [if_neg]
  · rw [h1, h2]
    apply Prod.ext
    · funext i; fin_cases i <;> simp [only, Group.withInt]
    · funext i; fin_cases i <;> simp [only, Group.withInt]
  · rw [h1, h2]; simp [only, Group.withInt]

/-- C129. Coordinates of y and z that are given are thrown away if one of x is not. -/
theorem C129_violated_overwritten (pi : K) (sqrt : K → Option K) (trunc : K → Int) (size : Source K → Fin 3 → Nat) (found : Source K → (Fin 3 → K) × (Fin 3 → K)) (file : String) (y : Int) :
    ∃ pl, main pi sqrt trunc size found (((only file).withInt "ymin" 0).withInt "ymax" y) = .go pl ∧ pl.box = found pl.source := by
  obtain ⟨pl, p, hpl, hp, _⟩ := reaches pi sqrt trunc size found (((only file).withInt "ymin" 0).withInt "ymax" y) file rfl rfl rfl rfl
  exact ⟨pl, hpl, (C129_box hpl).1 (Or.inl rfl)⟩

/-- C129. A uniform grid has the numbers of cells that are given and reaches from the origin to the maxima that are given; cells have size one where none is given. Any other name is a file. -/
theorem C129_source {pi : K} {g : Group K} {p : Params K} (hp : parse pi g = some p) :
    (p.file ≠ "uniform" → source p = .deck p.file) ∧
    (p.file = "uniform" → ∃ s, source p = .uniform p.cells s ∧ ∀ i : Fin 3,
      (∀ m : Int, 0 ≤ m → g.int ((!["xmax", "ymax", "zmax"] : Fin 3 → String) i) = some m → 0 < p.cells i → (extent p.cells s).2 i = m) ∧
      (g.int ((!["xmax", "ymax", "zmax"] : Fin 3 → String) i) = none → s i = 1)) := by
  unfold source
  refine ⟨fun h => by rw [if_neg h], fun h => ⟨_, by rw [if_pos h], fun i => ⟨fun m hm hg hc => ?_, fun hg => ?_⟩⟩⟩
  · have hx : p.max i = (m : K) := by rw [(parse_coord hp).1]; simp only [hg, Option.getD_some]
    have hc' : (p.cells i : K) ≠ 0 := by exact_mod_cast hc.ne'
    have hm' : (0 : K) ≤ m := by exact_mod_cast hm
    simp only [extent, hx]
    rw [if_pos (by linarith)]
    field_simp
  · have hx : p.max i = -1 := by rw [(parse_coord hp).1]; simp only [hg, Option.getD_none]; norm_num
    simp only [hx]
    rw [if_neg (by simp)]

/-- C129. The minima are not used for the grid: with `xmin` the box is not that of the grid, whose cells go from the origin. -/
theorem C129_violated_min (pi : K) (sqrt : K → Option K) (trunc : K → Int) (size : Source K → Fin 3 → Nat) (found : Source K → (Fin 3 → K) × (Fin 3 → K)) :
    ∃ pl s c, main pi sqrt trunc size found (((only "uniform").withInt "xmin" 1).withInt "xmax" 3) = .go pl ∧ pl.source = .uniform c s ∧
      (extent c s).1 0 = 0 ∧ (extent c s).2 0 = 3 ∧ pl.box.1 0 = 1 ∧ pl.box.2 0 = 3 := by
  obtain ⟨pl, p, hpl, hp, hf⟩ := reaches pi sqrt trunc size found (((only "uniform").withInt "xmin" 1).withInt "xmax" 3) "uniform" rfl rfl rfl rfl
  obtain ⟨q, hq, hs, hb, _⟩ := main_go hpl
  cases hp.symm.trans hq
  obtain ⟨h1, h2⟩ := parse_coord hp
  obtain ⟨s, hsrc, hext⟩ := (C129_source hp).2 hf
  have hc : p.cells 0 = 3 := ((C129_parameters pi _).2 p hp).2.2.2.2.2.2.2.2.2.2.2.2.1
  refine ⟨pl, s, p.cells, hpl, by rw [hs, hsrc], rfl, ?_, ?_, ?_⟩
  · have := (hext 0).1 3 (by decide) rfl (by rw [hc]; decide)
    rw [this]; norm_num
  · rw [hb]; unfold box
    rw [if_neg]
    · rw [h2]; simp [only, Group.withInt]
    · rw [h1, h2]; simp [only, Group.withInt]
  · rw [hb]; unfold box
    rw [if_neg]
    · rw [h1]; simp [only, Group.withInt]
    · rw [h1, h2]; simp [only, Group.withInt]

/-! ### Preconditioners -/

/-- C129. A preconditioner that is named is announced and used. -/
theorem C129_preconditioner {pi : K} {sqrt : K → Option K} {trunc : K → Int} {size : Source K → Fin 3 → Nat} {found : Source K → (Fin 3 → K) × (Fin 3 → K)} {g : Group K} {pl : Plan K}
    (h : main pi sqrt trunc size found g = .go pl) (w : String) (hw : g.str "linsolver_pre" = some w) (h1 : w ≠ "") (h2 : w ≠ "heuristic") :
    ∃ p, parse pi g = some p ∧ pl.announced = p.linsolver.precond ∧ Means p.linsolver.smoother pl.announced pl.family := by
  obtain ⟨p, hp, _, _, _, _, _, _, _, ha, hf, _⟩ := main_go h
  have hne : p.linsolver.precond ≠ .undetermined := by
    unfold parse at hp
    obtain ⟨f, hf, rfl⟩ := Option.map_eq_some_iff.mp hp
    simp only [parseLinSol, hw, Option.getD_some, parsePre, if_neg h1, if_neg h2]
    split_ifs <;> decide
  refine ⟨p, hp, by rw [ha]; unfold heuristic; rw [if_neg hne], ?_⟩
  rw [ha, hf]
  unfold heuristic
  rw [if_neg hne]
  unfold family
  cases hc : p.linsolver.precond <;> simp_all [Means]

/-- C129. If none is named, the announced one depends on the shape of the cells: two-level exactly if the root of the product of the horizontal sizes is more than 80 times the height. -/
theorem C129_announced {pi : K} {sqrt : K → Option K} {trunc : K → Int} {size : Source K → Fin 3 → Nat} {found : Source K → (Fin 3 → K) × (Fin 3 → K)} {g : Group K} {pl : Plan K}
    (h : main pi sqrt trunc size found g = .go pl) (hw : g.str "linsolver_pre" = none) (hx hy hz r : K)
    (h0 : hx = (pl.box.2 0 - pl.box.1 0) / (size pl.source 0 : K)) (h1 : hy = (pl.box.2 1 - pl.box.1 1) / (size pl.source 1 : K))
    (h2 : hz = (pl.box.2 2 - pl.box.1 2) / (size pl.source 2 : K)) (hz0 : 0 < hz) (hr : sqrt (hx * hy) = some r) :
    (pl.announced = .twolevel ↔ r > 80 * hz) ∧ (pl.announced = .amg ↔ ¬ r > 80 * hz) := by
  obtain ⟨p, hp, hs, _, _, _, _, _, _, ha, _⟩ := main_go h
  have hq := (C129_words pi g p hp).2.2
  rw [hw] at hq
  simp only at hq
  rw [ha, hq, ← hs]
  unfold heuristic
  simp only [if_true, ← h0, ← h1, ← h2, hr, Upscale.quot, if_neg hz0.ne']
  have e : r / hz > 80 ↔ r > 80 * hz := by rw [gt_iff_lt, lt_div_iff₀ hz0]
  by_cases hc : r > 80 * hz
  · rw [if_pos (e.mpr hc)]; simp [hc]
  · rw [if_neg (fun hh => hc (e.mp hh))]; simp [hc]

/-- C129. If none is named, algebraic multigrid is used whatever is announced. -/
theorem C129_violated_heuristic {pi : K} {sqrt : K → Option K} {trunc : K → Int} {size : Source K → Fin 3 → Nat} {found : Source K → (Fin 3 → K) × (Fin 3 → K)} {g : Group K} {pl : Plan K}
    (h : main pi sqrt trunc size found g = .go pl) (hw : g.str "linsolver_pre" = none) : ∃ s, pl.family = .amg1 s := by
  obtain ⟨p, hp, _, _, _, _, _, _, _, _, hf, _⟩ := main_go h
  have hq := (C129_words pi g p hp).2.2
  rw [hw] at hq
  simp only at hq
  exact ⟨p.linsolver.smoother, by rw [hf]; unfold family; simp [hq]⟩

/-- A flat grid: one layer of height 1 and cells of size 100. -/
def flatFound : Source ℚ → (Fin 3 → ℚ) × (Fin 3 → ℚ) := fun _ => (![0, 0, 0], ![300, 300, 1])

/-- A root for squares of multiples of 100. -/
def flatRoot (x : ℚ) : Option ℚ := if x = 10000 then some 100 else none

/-- C129. For such a grid the two-level method is announced, but not used. -/
theorem C129_violated_announced : ∃ pl, main (K := ℚ) 3 flatRoot (fun _ => 0) (fun _ => ![3, 3, 1]) flatFound (only "flat") = .go pl ∧ pl.announced = .twolevel ∧
    ¬ Means .ssor pl.announced pl.family := by
  obtain ⟨pl, hpl⟩ : ∃ pl, main (K := ℚ) 3 flatRoot (fun _ => 0) (fun _ => ![3, 3, 1]) flatFound (only "flat") = .go pl := ⟨_, rfl⟩
  have ht : (match main (K := ℚ) 3 flatRoot (fun _ => 0) (fun _ => ![3, 3, 1]) flatFound (only "flat") with
    | .go pl => decide (pl.announced = .twolevel)
    | _ => false) = true := by decide +kernel
  rw [hpl] at ht
  have ha := of_decide_eq_true ht
  obtain ⟨s, hs⟩ := C129_violated_heuristic hpl rfl
  refine ⟨pl, hpl, ha, ?_⟩
  rw [ha, hs]
  intro h
  cases h

/-- C129. The option `mortar_precond` of the usage has no effect, and the default for the multipliers is not the documented one. -/
theorem C129_violated_mortar_precond (pi : K) (sqrt : K → Option K) (trunc : K → Int) (size : Source K → Fin 3 → Nat) (found : Source K → (Fin 3 → K) × (Fin 3 → K)) (g h : Group K)
    (hs : SameBut "mortar_precond" g h) : parse pi g = parse pi h ∧ main pi sqrt trunc size found g = main pi sqrt trunc size found h ∧
      ∀ file p, parse pi (only file) = some p → p.linsolver.mortarpre = .schur ∧ p.linsolver.mortarpre ≠ .schurAmg := by
  have he : parse pi g = parse pi h := by
    unfold parse parseLinSol coord
    have e1 : ∀ s, s ≠ "mortar_precond" → g.str s = h.str s := fun s hq => (hs s hq).1
    have e2 : ∀ s, s ≠ "mortar_precond" → g.int s = h.int s := fun s hq => (hs s hq).2.1
    have e3 : ∀ s, s ≠ "mortar_precond" → g.num s = h.num s := fun s hq => (hs s hq).2.2.1
    have e4 : ∀ s, s ≠ "mortar_precond" → g.flag s = h.flag s := fun s hq => (hs s hq).2.2.2
    have e5 : (fun i : Fin 3 => (((g.int ((!["xmax", "ymax", "zmax"] : Fin 3 → String) i)).getD (-1) : Int) : K)) = fun i => (((h.int ((!["xmax", "ymax", "zmax"] : Fin 3 → String) i)).getD (-1) : Int) : K) := by
      funext i; fin_cases i <;> simp [e2]
    have e6 : (fun i : Fin 3 => (((g.int ((!["xmin", "ymin", "zmin"] : Fin 3 → String) i)).getD (-1) : Int) : K)) = fun i => (((h.int ((!["xmin", "ymin", "zmin"] : Fin 3 → String) i)).getD (-1) : Int) : K) := by
      funext i; fin_cases i <;> simp [e2]
    have e7 : (fun i : Fin 3 => (g.int ((!["cellsx", "cellsy", "cellsz"] : Fin 3 → String) i)).getD 3) = fun i => (h.int ((!["cellsx", "cellsy", "cellsz"] : Fin 3 → String) i)).getD 3 := by
      funext i; fin_cases i <;> simp [e2]
    simp [e1, e2, e3, e4, e5, e6, e7]
  refine ⟨he, by unfold main; rw [he], fun file p hp => ?_⟩
  have := (C129_words pi _ p hp).2.1
  have hn : (only (K := K) file).str "linsolver_mortarpre" = none := rfl
  rw [hn] at this
  rw [this]
  exact ⟨rfl, fun h => by cases h⟩

/-- C129. The number of layers to join is the one given, 2 if none is; for -1 it is twice the ratio of the horizontal size to the height of the cells, rounded, and for a flat grid undefined. The interface grid has as many elements as the grid has cells in both horizontal directions. -/
theorem C129_layers {pi : K} {sqrt : K → Option K} {trunc : K → Int} {size : Source K → Fin 3 → Nat} {found : Source K → (Fin 3 → K) × (Fin 3 → K)} {g : Group K} {pl : Plan K}
    (h : main pi sqrt trunc size found g = .go pl) : pl.n1 = size pl.source 0 ∧ pl.n2 = size pl.source 1 ∧
    (g.int "linsolver_zcells" = none → pl.zcells = 2) ∧ (∀ z, g.int "linsolver_zcells" = some z → z ≠ -1 → pl.zcells = z) ∧
    (g.int "linsolver_zcells" = some (-1) → ∃ l, sqrt ((pl.box.2 0 - pl.box.1 0) * (pl.box.2 1 - pl.box.1 1)) = some l ∧ pl.box.2 2 ≠ pl.box.1 2 ∧
      pl.zcells = trunc (2 * (l / (max (size pl.source 0) (size pl.source 1) : Nat)) / ((pl.box.2 2 - pl.box.1 2) / (size pl.source 2 : Nat)) + 1 / 2)) := by
  obtain ⟨p, hp, hs, _, hz, _, _, h1, h2, _⟩ := main_go h
  have hq := (C129_linsolver pi g p hp).2.2.2.2.2.2.2.1
  rw [hq, ← hs] at hz
  rw [← hs] at h1 h2
  refine ⟨h1, h2, fun hn => ?_, fun z hn hne => ?_, fun hn => ?_⟩
  · rw [hn] at hz
    simp only [Option.getD_none, zcells] at hz
    rw [if_neg (by decide)] at hz
    exact (Option.some.inj hz).symm
  · rw [hn] at hz
    simp only [Option.getD_some, zcells] at hz
    rw [if_neg hne] at hz
    exact (Option.some.inj hz).symm
  · rw [hn] at hz
    simp only [Option.getD_some, zcells, if_true, Option.bind_eq_bind] at hz
    obtain ⟨hz1, ha, hz⟩ := Option.bind_eq_some_iff.mp hz
    obtain ⟨l, hl, hz⟩ := Option.bind_eq_some_iff.mp hz
    obtain ⟨hp1, hb, hz⟩ := Option.bind_eq_some_iff.mp hz
    obtain ⟨q, hc, hz⟩ := Option.bind_eq_some_iff.mp hz
    unfold Upscale.quot at ha hb hc
    split at ha
    · cases ha
    split at hb
    · cases hb
    split at hc
    · cases hc
    rename_i hne
    cases ha; cases hb; cases hc
    refine ⟨l, hl, fun he => hne (by rw [he, sub_self, zero_div]), (Option.some.inj hz).symm⟩

/-! ### Load cases and files -/

/-- C129. All six load cases are treated: assembled and solved, with right-hand side and solution stored if `inspect=load`; with `inspect=results` the solutions are loaded from the files that `inspect=load` writes. -/
theorem C129_cases {pi : K} {sqrt : K → Option K} {trunc : K → Int} {size : Source K → Fin 3 → Nat} {found : Source K → (Fin 3 → K) × (Fin 3 → K)} {g : Group K} {pl : Plan K}
    (h : main pi sqrt trunc size found g = .go pl) : pl.cases.length = 6 ∧ ∀ i < 6, pl.cases[i]? = some (match g.str "inspect" with
      | some "results" => [.load "x" (i + 1)]
      | some "load" => [.assemble i, .store "b" (i + 1), .solve i, .store "x" (i + 1)]
      | _ => [.assemble i, .solve i]) := by
  obtain ⟨p, hp, _, _, _, _, _, _, _, _, _, hc⟩ := main_go h
  have hi := ((C129_parameters pi g).2 p hp).2.2.2.2.1
  rw [hc, hi]
  refine ⟨by simp, fun i h6 => ?_⟩
  rw [List.getElem?_map, List.getElem?_range h6]
  simp only [Option.map_some, Option.some.injEq]
  rcases hq : g.str "inspect" with _ | s
  · rfl
  simp only [Option.getD_some]
  by_cases h1 : s = "results"
  · subst h1; rfl
  by_cases h2 : s = "load"
  · subst h2; rfl
  unfold actions
  rw [if_neg h1, if_neg h2]
  split <;> simp_all

/-- C129. With `inspect=mesh` nothing is computed. -/
theorem C129_mesh (pi : K) (sqrt : K → Option K) (trunc : K → Int) (size : Source K → Fin 3 → Nat) (found : Source K → (Fin 3 → K) × (Fin 3 → K)) (g : Group K)
    (hg : g.str "gridfilename" ≠ none) (hi : g.str "inspect" = some "mesh") (hz : g.int "linsolver_zcells" ≠ some (-1)) : main pi sqrt trunc size found g = .mesh := by
  unfold main
  rcases hp : parse pi g with _ | p
  · exact absurd ((C129_parameters pi g).1.mp hp) hg
  have h1 := ((C129_parameters pi g).2 p hp).2.2.2.2.1
  have h2 := (C129_linsolver pi g p hp).2.2.2.2.2.2.2.1
  rw [hi] at h1
  have h3 : p.linsolver.zcells ≠ -1 := by
    rw [h2]
    rcases hq : g.int "linsolver_zcells" with _ | z
    · decide
    · intro hh; apply hz; rw [hq]; simpa using hh
  simp only [zcells, if_neg h3]
  simp [h1]

theorem cut_append (a : List Char) (h : ∀ b c, a ++ ['.', 'v', 't', 'u'] = b ++ ['.', 'v', 't', 'u'] ++ c → c = []) : cutVtu (a ++ ['.', 'v', 't', 'u']) = a := by
  induction a with
  | nil => rfl
  | cons x a ih =>
    simp only [List.cons_append, cutVtu]
    rw [if_neg]
    · rw [ih]
      intro b c hbc
      exact h (x :: b) c (by simp only [List.cons_append, hbc, List.append_assoc])
    · intro hp
      obtain ⟨t, ht⟩ := List.isPrefixOf_iff_prefix.mp hp
      have := h [] t (by rw [List.nil_append, ht]; rfl)
      subst this
      simp at ht
      obtain ⟨_, ht⟩ := ht
      have := congrArg List.length ht
      simp at this

/-- C129. The name of the vtu file is used without its suffix, provided the suffix does not also occur further to the left. -/
theorem C129_vtu (pi : K) (g : Group K) (p : Params K) (h : parse pi g = some p) :
    (g.str "vtufilename" = none → p.vtufile = []) ∧
    ∀ name, g.str "vtufilename" = some name → ∀ a : List Char, name.toList = a ++ ".vtu".toList →
      (∀ b c, name.toList = b ++ ".vtu".toList ++ c → c = []) → p.vtufile = a := by
  unfold parse at h
  obtain ⟨f, hf, rfl⟩ := Option.map_eq_some_iff.mp h
  refine ⟨fun hn => by simp [hn, cutVtu], fun name hn a ha hb => ?_⟩
  simp only [hn, Option.getD_some]
  rw [ha] at hb ⊢
  exact cut_append a hb

/-- C129. A suffix in the name of a directory cuts the whole rest off. -/
theorem C129_violated_vtu (pi : K) (p : Params K) (h : parse pi ((only "grid").withStr "vtufilename" "out.vtu.d/a.vtu") = some p) : p.vtufile = "out".toList := by
  unfold parse at h
  obtain ⟨f, hf, rfl⟩ := Option.map_eq_some_iff.mp h
  have : ((only (K := K) "grid").withStr "vtufilename" "out.vtu.d/a.vtu").str "vtufilename" = some "out.vtu.d/a.vtu" := rfl
  simp only [this, Option.getD_some]
  decide

/-! ### Hypotheses are met -/

/-- A command line with all coordinates reaches the computations. -/
example : ∃ pl, main (K := ℚ) 3 flatRoot (fun _ => 0) (fun _ => ![3, 3, 1]) flatFound
    ((((((((only "flat").withInt "xmin" 0).withInt "ymin" 0).withInt "zmin" 0).withInt "xmax" 30).withInt "ymax" 30).withInt "zmax" 1).withStr "linsolver_pre" "schwarz") = .go pl ∧
      pl.announced = .schwarz ∧ pl.family = .schwarz ∧ pl.box.2 0 = 30 := by
  exact ⟨_, rfl, by decide +kernel, by decide +kernel, by decide +kernel⟩

example : SameBut (K := ℚ) "mortar_precond" (only "a") ((only "a").withStr "mortar_precond" "schur-amg") := by
  intro s hs
  simp [Group.withStr, hs]

end Verif.ElasticTool
