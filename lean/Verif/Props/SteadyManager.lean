import Verif.Spec.SteadyManager
import Verif.Props.Control
import Verif.Props.Sampling
import Verif.Lemmas.Pattern

/-!
C145: the files of the steady state upscaling.
-/

namespace Verif.SteadyManager

open Verif.Dense Verif.Control Verif.Spec

variable {K : Type} [Field K]

theorem first_start (P : Params K) (U : Upscaler K) (s : K) : Spec.First P U s (start P U s) := by
  unfold Spec.First start
  by_cases h : P.startFromCl = some false
  · rw [h]
    exact Or.inr ⟨Or.inl rfl, by simp, fun x hx => (List.mem_replicate.mp hx).2⟩
  · have : P.startFromCl.getD true = true := by
      cases hh : P.startFromCl with
      | none => rfl
      | some b => cases b with
        | false => exact absurd hh h
        | true => rfl
    rw [this]
    cases hc : U.capLimit s with
    | none => exact Or.inr ⟨Or.inr rfl, by simp, fun x hx => (List.mem_replicate.mp hx).2⟩
    | some l => exact Or.inl ⟨h, rfl⟩

/-- The rows of the loop are those of computations. -/
theorem loop_rows (U : Upscaler K) (hl : ∀ s, U.limit (U.limit s) = U.limit s) (dir : Int) (st : K → List K) (sch : List (K × List K)) :
    ∃ outs : List (List (Spec.Comp K)), outs.length ≤ sch.length ∧
      (satLoop U.limit st (U.steady dir) sch).1 =
        ((sch.zip outs).flatMap fun x => (x.1.2.zip x.2).map fun y => (y.1, y.2.usat, y.2.lambda, y.2.success)) ∧
      (∀ (i : Nat) s ps os, sch[i]? = some (s, ps) → outs[i]? = some os → Spec.Computed U dir s ps (st s) os ∧
        (i + 1 < outs.length → os.length = ps.length)) ∧
      ((satLoop U.limit st (U.steady dir) sch).2 = true →
        outs.length = sch.length ∧ ∀ (i : Nat) s ps os, sch[i]? = some (s, ps) → outs[i]? = some os → os.length = ps.length) ∧
      ((satLoop U.limit st (U.steady dir) sch).2 = false →
        ∃ s ps os p, sch[outs.length - 1]? = some (s, ps) ∧ outs.getLast? = some os ∧ ps[os.length]? = some p ∧
          U.steady dir s p (U.limit (lastGood (st s) os)) = none) := by
  induction sch with
  | nil => exact ⟨[], le_refl _, rfl, by simp, by simp [satLoop], by simp [satLoop]⟩
  | cons r rest ih =>
    obtain ⟨s, ps⟩ := r
    obtain ⟨os, h1, h2, h3, h4, h5⟩ := C64_pressure_drops U.limit hl (U.steady dir s) ps (st s)
    have hC : Spec.Computed U dir s ps (st s) os := ⟨h2, fun k o ho => by
      obtain ⟨p, e1, e2, _⟩ := h3 k o ho
      exact ⟨p, e1, e2⟩⟩
    have hrow : (pdropLoop U.limit (U.steady dir s) ps (st s)).1 = (ps.zip os).map fun y => (y.1, y.2.usat, y.2.lambda, y.2.success) := by
      apply List.ext_getElem?
      intro k
      rw [List.getElem?_map]
      by_cases hk : k < os.length
      · obtain ⟨p, e1, _, e3⟩ := h3 k os[k] (List.getElem?_eq_getElem hk)
        rw [e3, (show (ps.zip os)[k]? = some (p, os[k]) from List.getElem?_zip_eq_some.mpr ⟨e1, List.getElem?_eq_getElem hk⟩)]
        rfl
      · rw [List.getElem?_eq_none (by omega), List.getElem?_eq_none (by simp; omega)]
        rfl
    unfold satLoop
    by_cases hr : (pdropLoop U.limit (U.steady dir s) ps (st s)).2 = true
    · simp only [hr, if_true]
      obtain ⟨outs, i1, i2, i3, i4, i5⟩ := ih
      have hfull := h4.mp hr
      refine ⟨os :: outs, by simpa using i1, by rw [i2, hrow]; simp, ?_, ?_, ?_⟩
      · intro i s' ps' os' e1 e2
        cases i with
        | zero =>
          simp only [List.getElem?_cons_zero, Option.some.injEq, Prod.mk.injEq] at e1 e2
          obtain ⟨rfl, rfl⟩ := e1
          subst e2
          exact ⟨hC, fun _ => hfull⟩
        | succ i =>
          rw [List.getElem?_cons_succ] at e1 e2
          obtain ⟨a, b⟩ := i3 i s' ps' os' e1 e2
          exact ⟨a, fun h => b (by simpa using h)⟩
      · intro h
        obtain ⟨a, b⟩ := i4 h
        refine ⟨by simp [a], fun i s' ps' os' e1 e2 => ?_⟩
        cases i with
        | zero =>
          simp only [List.getElem?_cons_zero, Option.some.injEq, Prod.mk.injEq] at e1 e2
          obtain ⟨rfl, rfl⟩ := e1
          subst e2
          exact hfull
        | succ i =>
          rw [List.getElem?_cons_succ] at e1 e2
          exact b i s' ps' os' e1 e2
      · intro h
        obtain ⟨s', ps', os', p, e1, e2, e3, e4⟩ := i5 h
        have hne : outs ≠ [] := by rintro rfl; simp at e2
        obtain ⟨o, t, rfl⟩ := List.exists_cons_of_ne_nil hne
        refine ⟨s', ps', os', p, ?_, by rw [List.getLast?_cons_cons]; exact e2, e3, e4⟩
        simpa using e1
    · have hrf : (pdropLoop U.limit (U.steady dir s) ps (st s)).2 = false := by simpa using hr
      simp only [hrf, Bool.false_eq_true, if_false]
      refine ⟨[os], by simp, by rw [hrow]; simp, ?_, by simp, ?_⟩
      · intro i s' ps' os' e1 e2
        cases i with
        | zero =>
          simp only [List.getElem?_cons_zero, Option.some.injEq, Prod.mk.injEq] at e1 e2
          obtain ⟨rfl, rfl⟩ := e1
          subst e2
          exact ⟨hC, fun h => by simp at h⟩
        | succ i => simp at e2
      · intro _
        obtain ⟨p, e1, e2⟩ := h5 hrf
        exact ⟨s, ps, os, p, rfl, rfl, e1, e2⟩

/-- The schedule that is worked off: of the file, or every saturation of the one range with every pressure drop of the other. -/
theorem C145_schedule (N : NumFmt K) (exp log : K → K) (P : Params K) :
    (P.file = some none → schedule N exp log P = none) ∧
    (∀ sats pdrops rest text, P.file = some (some text) → readControl N text = some ((sats, pdrops), rest) →
      schedule N exp log P = some (sats.zip pdrops)) ∧
    (P.file = none → ∀ sats ps, linRange (P.numSats.getD 4) (P.minSat.getD (1 / 5)) (P.maxSat.getD (4 / 5)) = some sats →
      expRange exp log (P.numPdrops.getD 5) (P.minPdrop.getD 100) (P.maxPdrop.getD 1000000) = some ps →
      schedule N exp log P = some (sats.map fun s => (s, ps))) := by
  refine ⟨fun h => ?_, fun sats pdrops rest text h h' => ?_, fun h sats ps h1 h2 => ?_⟩
  · unfold schedule; rw [h]
  · unfold schedule; rw [h]; simp only [h']; rfl
  · have e2 : (10 : K) ^ 2 = 100 := by norm_num
    have e6 : (10 : K) ^ 6 = 1000000 := by norm_num
    unfold schedule
    rw [h]
    simp only [e2, e6, h1, h2, Option.bind_some, Option.map_some]

/-- Without a schedule the run ends with an exception and no file has been touched. -/
theorem C145_refused (N : NumFmt K) (exp log : K → K) (P : Params K) (U : Option (Upscaler K)) :
    upscale N exp log P U = some .refused ↔ schedule N exp log P = none := by
  unfold upscale
  cases h : schedule N exp log P with
  | none => simp
  | some sch =>
    cases U with
    | none => simp
    | some U =>
      simp only [reduceCtorEq, iff_false]
      intro hh
      obtain ⟨w, _, hw⟩ := Option.bind_eq_some_iff.mp hh
      obtain ⟨o, _, ho⟩ := Option.map_eq_some_iff.mp hw
      cases ho

/-- If the upscaler cannot be set up, both files have been overwritten and hold the header alone. -/
theorem C145_setup_fails (N : NumFmt K) (exp log : K → K) (P : Params K) (sch : List (K × List K)) (h : schedule N exp log P = some sch) :
    ∃ w o : File K, upscale N exp log P none = some (.files w o false) ∧ w.lines = [] ∧ o.lines = [] ∧
      w.header = ["# Result from steady state upscaling", "# Pressuredrop  Sw  Krxx  Kryy  Krzz"] ∧ o.header = w.header := by
  refine ⟨⟨(names P).1, header, []⟩, ⟨(names P).2, header, []⟩, by unfold upscale; rw [h], rfl, rfl, rfl, rfl⟩

theorem lines_rows (phase : FullMatrix K × FullMatrix K → FullMatrix K) (cs : List (K × Spec.Comp K)) (h : ∀ c ∈ cs, IsTensor (phase c.2.lambda)) :
    ∃ ls, lines phase (cs.map fun y => (y.1, y.2.usat, y.2.lambda, y.2.success)) = some ls ∧
      List.Forall₂ (fun (c : K × Spec.Comp K) l => Spec.Line phase c.1 c.2 l) cs ls := by
  induction cs with
  | nil => exact ⟨[], rfl, .nil⟩
  | cons c cs ih =>
    obtain ⟨ls, e, f⟩ := ih fun x hx => h x (List.mem_cons_of_mem _ hx)
    obtain ⟨l, h1, h2, h3, h4, h5, _⟩ := C25_line_partial (phase c.2.lambda) (h c List.mem_cons_self) c.2.usat c.1
    refine ⟨(l, c.2.success) :: ls, ?_, .cons ⟨rfl, h2, h3, h4, h5⟩ f⟩
    unfold lines at e ⊢
    rw [List.map_cons, List.mapM_cons, e]
    simp [h1]

/-- The two files. There are computations `outs`, for a beginning of the schedule, each block in order of the pressure drops and started as the parameters say, such that the
lines of either file are the lines of these computations in order, the water file with the first tensor and the oil file with the second; the run is complete iff every scheduled
computation was made, otherwise it ended at the first one that threw an exception. -/
theorem C145_files (N : NumFmt K) (exp log : K → K) (P : Params K) (U : Upscaler K) (sch : List (K × List K)) (hs : schedule N exp log P = some sch)
    (hl : ∀ s, U.limit (U.limit s) = U.limit s)
    (ht : ∀ dir s p st o, U.steady dir s p st = some o → IsTensor o.lambda.1 ∧ IsTensor o.lambda.2) :
    ∃ (water oil : File K) (complete : Bool) (outs : List (List (Spec.Comp K))),
      upscale N exp log P (some U) = some (.files water oil complete) ∧
      water.name = P.outputWater.getD (P.krFilename.getD "upscaled_relperm" ++ "_water") ∧
      oil.name = P.outputOil.getD (P.krFilename.getD "upscaled_relperm" ++ "_oil") ∧
      List.Forall₂ (fun (c : K × Spec.Comp K) l => Spec.Line (fun t => t.1) c.1 c.2 l) ((sch.zip outs).flatMap fun x => x.1.2.zip x.2) water.lines ∧
      List.Forall₂ (fun (c : K × Spec.Comp K) l => Spec.Line (fun t => t.2) c.1 c.2 l) ((sch.zip outs).flatMap fun x => x.1.2.zip x.2) oil.lines ∧
      outs.length ≤ sch.length ∧
      (∀ (i : Nat) s ps os, sch[i]? = some (s, ps) → outs[i]? = some os →
        (∃ first, Spec.First P U s first ∧ Spec.Computed U (P.flowDirection.getD 0) s ps first os) ∧ (i + 1 < outs.length → os.length = ps.length)) ∧
      (complete = true → outs.length = sch.length ∧ ∀ (i : Nat) s ps os, sch[i]? = some (s, ps) → outs[i]? = some os → os.length = ps.length) ∧
      (complete = false → ∃ s ps os p first, sch[outs.length - 1]? = some (s, ps) ∧ outs.getLast? = some os ∧ ps[os.length]? = some p ∧ Spec.First P U s first ∧
        U.steady (P.flowDirection.getD 0) s p (U.limit (lastGood first os)) = none) := by
  obtain ⟨outs, h1, h2, h3, h4, h5⟩ := loop_rows U hl (P.flowDirection.getD 0) (start P U) sch
  have hT : ∀ c ∈ ((sch.zip outs).flatMap fun x => x.1.2.zip x.2), IsTensor c.2.lambda.1 ∧ IsTensor c.2.lambda.2 := by
    intro c hc
    obtain ⟨x, hx, hc⟩ := List.mem_flatMap.mp hc
    obtain ⟨i, hi⟩ := List.mem_iff_getElem?.mp hx
    obtain ⟨k, hk⟩ := List.mem_iff_getElem?.mp hc
    obtain ⟨⟨s, ps⟩, os⟩ := x
    obtain ⟨a, b⟩ := List.getElem?_zip_eq_some.mp hi
    obtain ⟨p, o⟩ := c
    obtain ⟨_, d⟩ := List.getElem?_zip_eq_some.mp hk
    obtain ⟨⟨_, hC⟩, _⟩ := h3 i s ps os a b
    obtain ⟨p', _, e⟩ := hC k o d
    exact ht _ _ _ _ _ e
  obtain ⟨w, hw, fw⟩ := lines_rows (Prod.fst (α := FullMatrix K) (β := FullMatrix K)) _ fun c hc => (hT c hc).1
  obtain ⟨o, ho, fo⟩ := lines_rows (Prod.snd (α := FullMatrix K) (β := FullMatrix K)) _ fun c hc => (hT c hc).2
  have e2 : (satLoop U.limit (start P U) (U.steady (P.flowDirection.getD 0)) sch).1 =
      ((sch.zip outs).flatMap fun x => x.1.2.zip x.2).map fun y => (y.1, y.2.usat, y.2.lambda, y.2.success) := by
    rw [h2, List.map_flatMap]
  refine ⟨⟨(names P).1, header, w⟩, ⟨(names P).2, header, o⟩, (satLoop U.limit (start P U) (U.steady (P.flowDirection.getD 0)) sch).2, outs, ?_, rfl, rfl, fw, fo, h1,
    fun i s ps os a b => ⟨⟨_, first_start P U s, (h3 i s ps os a b).1⟩, (h3 i s ps os a b).2⟩, h4, fun h => ?_⟩
  · unfold upscale
    rw [hs]
    simp only [e2, hw, ho, Option.bind_some, Option.map_some]
  · obtain ⟨s, ps, os, p, a, b, c, d⟩ := h5 h
    exact ⟨s, ps, os, p, _, a, b, c, first_start P U s, d⟩

/-- The header of the files names five columns; every line has eleven numbers and the flag. -/
theorem C145_violated_header (N : NumFmt K) (exp log : K → K) (P : Params K) (U : Upscaler K) (water oil : File K) (complete : Bool)
    (h : upscale N exp log P (some U) = some (.files water oil complete)) :
    water.header = ["# Result from steady state upscaling", "# Pressuredrop  Sw  Krxx  Kryy  Krzz"] ∧ oil.header = water.header ∧
    (∀ l ∈ water.lines, l.1.length = 11) ∧ (∀ l ∈ oil.lines, l.1.length = 11) := by
  have hlen : ∀ (phase : FullMatrix K × FullMatrix K → FullMatrix K) rows ls, lines phase rows = some ls → ∀ l ∈ ls, l.1.length = 11 := by
    intro phase rows
    induction rows with
    | nil =>
      intro ls e l hl
      cases (Option.some.inj e : [] = ls)
      cases hl
    | cons r rows ih =>
      intro ls e l hl
      unfold lines at e
      rw [List.mapM_cons] at e
      obtain ⟨x, hx, e⟩ := Option.bind_eq_some_iff.mp e
      obtain ⟨xs, hxs, e⟩ := Option.bind_eq_some_iff.mp e
      cases (Option.some.inj e : x :: xs = ls)
      rcases List.mem_cons.mp hl with rfl | hl
      · obtain ⟨y, hy, rfl⟩ := Option.map_eq_some_iff.mp hx
        unfold writeRelPerm relPermColumns at hy
        obtain ⟨z, hz, rfl⟩ := Option.map_eq_some_iff.mp hy
        simp only [List.mapM_cons, List.mapM_nil, Option.bind_eq_bind, Option.bind_eq_some_iff, Option.pure_def, Option.some.injEq] at hz
        obtain ⟨_, _, _, ⟨_, _, _, ⟨_, _, _, ⟨_, _, _, ⟨_, _, _, ⟨_, _, _, ⟨_, _, _, ⟨_, _, _, ⟨_, _, _, rfl, rfl⟩, rfl⟩, rfl⟩, rfl⟩, rfl⟩, rfl⟩, rfl⟩, rfl⟩, rfl⟩ := hz
        rfl
      · exact ih xs hxs l hl
  unfold upscale at h
  cases hs : schedule N exp log P with
  | none => rw [hs] at h; cases h
  | some sch =>
    rw [hs] at h
    obtain ⟨w, hw, h⟩ := Option.bind_eq_some_iff.mp h
    obtain ⟨o, ho, h⟩ := Option.map_eq_some_iff.mp h
    cases h
    exact ⟨rfl, rfl, hlen _ _ _ hw, hlen _ _ _ ho⟩

/-! ### An example -/

/-- Two cells between 0 and 1, tensors from the pressure drop; the pressure drop 7 makes a computation throw, and the capillary limit of a saturation above 1/2 is not found. -/
def exU : Upscaler ℚ :=
  ⟨2, List.map fun x => min 1 (max 0 x), fun s => if s ≤ 1 / 2 then some [s, s / 2] else none,
    fun _ s p st => if p = 7 then none else some ⟨(⟨.c, 3, 3, [p, 0, 0, 0, 2, 0, 0, 0, 3]⟩, ⟨.c, 3, 3, [1, 0, 0, 0, p, 0, 0, 0, 5]⟩), st.map (· / 2), s, p ≠ 3⟩⟩

/-- Two saturations from 1/5 to 4/5 and one pressure drop, oil file named. -/
def exP : Params ℚ := ⟨none, some 2, none, none, some 1, some 3, none, none, none, some "kr", none, some "oil.txt"⟩

def exN : NumFmt ℚ := ⟨fun _ => [], fun _ => none⟩

theorem ex_schedule : schedule exN id id exP = some [(1 / 5, [3]), (4 / 5, [3])] := by decide +kernel

example : upscale exN id id exP (some exU) = some (.files
    ⟨"kr_water", header, [([3, 1 / 5, 3, 2, 3, 0, 0, 0, 0, 0, 0], false), ([3, 4 / 5, 3, 2, 3, 0, 0, 0, 0, 0, 0], false)]⟩
    ⟨"oil.txt", header, [([3, 1 / 5, 1, 3, 5, 0, 0, 0, 0, 0, 0], false), ([3, 4 / 5, 1, 3, 5, 0, 0, 0, 0, 0, 0], false)]⟩ true) := by
  decide +kernel

example : (∀ s, exU.limit (exU.limit s) = exU.limit s) ∧
    (∀ dir s p st o, exU.steady dir s p st = some o → IsTensor o.lambda.1 ∧ IsTensor o.lambda.2) := by
  refine ⟨fun s => ?_, fun dir s p st o h => ?_⟩
  · simp only [exU, List.map_map]
    apply List.map_congr_left
    intro x _
    simp only [Function.comp]
    rw [max_eq_right (le_min (by norm_num) (le_max_left _ _)), min_eq_right (min_le_left _ _)]
  · simp only [exU] at h
    split at h
    · cases h
    · cases h
      exact ⟨⟨rfl, rfl, rfl, rfl⟩, ⟨rfl, rfl, rfl, rfl⟩⟩

/-- A run that is cut off: the second pressure drop throws. -/
example : upscale exN id id { exP with numPdrops := some 2, maxPdrop := some 7 } (some exU) = some (.files
    ⟨"kr_water", header, [([3, 1 / 5, 3, 2, 3, 0, 0, 0, 0, 0, 0], false)]⟩
    ⟨"oil.txt", header, [([3, 1 / 5, 1, 3, 5, 0, 0, 0, 0, 0, 0], false)]⟩ false) := by
  decide +kernel

example : upscale exN id id { exP with file := some none } (some exU) = some .refused := by decide +kernel

end Verif.SteadyManager
