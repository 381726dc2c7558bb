import Mathlib.Tactic.Linarith
import Mathlib.Tactic.NormNum
import Mathlib.Tactic.FieldSimp
import Mathlib.Algebra.Order.Ring.Rat
import Mathlib.Data.Rat.Floor
import Verif.Model.SimOutput
import Verif.Spec.SimOutput
import Verif.Props.FracFlow
import Verif.Props.SteadyFlows
import Verif.Props.Reservoir
import Verif.Props.Compare

/-!
C136: what the simulators write to files.
-/

namespace Verif.SimOutput

open Verif.SimOutput.Spec
open Verif.Euler (Vec Face Cell Err)

theorem scatter_fold {α : Type} (v : Nat → α) (order : List Nat) : ∀ (l : List α), (∀ c ∈ order, c < l.length) →
    ∃ l', order.foldlM (fun l c => if c < l.length then some (l.set c (v c)) else none) l = some l' ∧ l'.length = l.length ∧
      ∀ i, i < l.length → l'[i]? = if i ∈ order then some (v i) else l[i]? := by
  induction order with
  | nil => intro l _; exact ⟨l, rfl, rfl, fun i _ => by simp⟩
  | cons c order ih =>
    intro l h
    have hc := h c (by simp)
    rw [List.foldlM_cons, if_pos hc]
    obtain ⟨l', h1, h2, h3⟩ := ih (l.set c (v c)) (by intro x hx; rw [List.length_set]; exact h x (by simp [hx]))
    rw [List.length_set] at h2 h3
    refine ⟨l', h1, h2, fun i hi => ?_⟩
    rw [h3 i hi]
    by_cases hio : i ∈ order
    · simp [hio]
    · rw [if_neg hio, List.getElem?_set]
      by_cases e : c = i
      · subst e; simp [hi]
      · rw [if_neg e, if_neg (by simp [hio, Ne.symm e])]

theorem scatter_spec {α : Type} (zero : α) (n : Nat) (order : List Nat) (v : Nat → α) (h : order.Perm (List.range n)) :
    scatter zero n order v = some ((List.range n).map v) := by
  unfold scatter
  have hm : ∀ c, c ∈ order ↔ c < n := fun c => by rw [h.mem_iff, List.mem_range]
  obtain ⟨l', h1, h2, h3⟩ := scatter_fold v order (List.replicate n zero) (fun c hc => by rw [List.length_replicate]; exact (hm c).mp hc)
  rw [h1]
  rw [List.length_replicate] at h2 h3
  congr 1
  apply List.ext_getElem?
  intro i
  by_cases hi : i < n
  · rw [h3 i hi, if_pos ((hm i).mpr hi), List.getElem?_map, List.getElem?_range hi]
    rfl
  · rw [List.getElem?_eq_none (by omega), List.getElem?_eq_none (by simp; omega)]

theorem zipIdx_range_map {α : Type} (n : Nat) (f : Nat → α) : ((List.range n).map f).zipIdx = (List.range n).map fun i => (f i, i) := by
  apply List.ext_getElem?
  intro i
  rw [List.getElem?_zipIdx, List.getElem?_map, List.getElem?_map]
  by_cases hi : i < n
  · rw [List.getElem?_range hi]; simp
  · rw [List.getElem?_eq_none (l := List.range n) (by simpa using hi)]; rfl

theorem list_range {α : Type} (l : List α) (d : α) : l = (List.range l.length).map fun i => l.getD i d := by
  apply List.ext_getElem?
  intro i
  rw [List.getElem?_map]
  by_cases hi : i < l.length
  · rw [List.getElem?_range hi, Option.map_some, List.getD_eq_getElem?_getD, List.getElem?_eq_getElem hi]; rfl
  · rw [List.getElem?_eq_none (by omega), List.getElem?_eq_none (l := List.range l.length) (by simpa using hi)]; rfl

theorem mapM_range {α β : Type} (l : List α) (f : α → Option β) (g : α → β) (h : ∀ x ∈ l, f x = some (g x)) : l.mapM f = some (l.map g) := by
  induction l with
  | nil => rfl
  | cons a l ih =>
    rw [List.mapM_cons, h a (by simp), ih fun x hx => h x (by simp [hx])]
    rfl

section vtk

variable {K : Type} [Field K] [LinearOrder K] [IsStrictOrderedRing K]

theorem flatten_map (n : Nat) (hn : 0 < n) (v : Nat → Vec K) : flatten ((List.range n).map v) = some (vectors n v) := by
  unfold vectors
  obtain ⟨m, rfl⟩ : ∃ m, n = m + 1 := ⟨n - 1, by omega⟩
  have h : ∀ l : List (Vec K), l ≠ [] → flatten l = some (l.flatMap fun v => [v 0, v 1, v 2]) := by
    intro l hl
    cases l with
    | nil => exact absurd rfl hl
    | cons a l => rfl
  rw [h _ (by simp [List.range_succ]), List.flatMap_map]

omit [IsStrictOrderedRing K] in
theorem phases_map (n : Nat) (ff : Nat → K → Option K) (s f : Nat → K) (v : Nat → Vec K) (hf : ∀ i, i < n → ff i (s i) = some (f i)) :
    FracFlow.computePhaseVelocities ff ((List.range n).map s) ((List.range n).map v) =
      some ((List.range n).map (fun i k => v i k * f i), (List.range n).map (fun i k => v i k * (1 - f i))) := by
  unfold FracFlow.computePhaseVelocities
  rw [if_pos (by simp)]
  have hz : ((List.range n).map s).zip ((List.range n).map v) = (List.range n).map fun i => (s i, v i) := by
    rw [List.zip_map']
  rw [hz, zipIdx_range_map]
  have := mapM_range ((List.range n).map fun i => ((s i, v i), i)) (fun e : (K × Vec K) × Nat => (ff e.2 e.1.1).bind fun f => some (FracFlow.phaseVelocities f e.1.2))
    (fun e => FracFlow.phaseVelocities (f e.2) e.1.2) (by
      intro x hx
      obtain ⟨i, hi, rfl⟩ := List.mem_map.mp hx
      dsimp only
      rw [hf i (List.mem_range.mp hi)]
      rfl)
  have e : (((List.range n).map fun i => ((s i, v i), i)).mapM fun e => do
      let f ← ff e.2 e.1.1
      return FracFlow.phaseVelocities f e.1.2) = _ := this
  rw [e]
  simp only [Option.bind_eq_bind, Option.bind_some, List.map_map]
  rfl

/-- The data of a VTK file: for every cell, at its index, saturation, pressure, capillary pressure, fractional flow, and the three components of the
velocity and of the velocities of both phases, which are the fractions of the velocity. -/
theorem C136_vtk_partial (n : Nat) (hn : 0 < n) (order : List Nat) (ho : order.Perm (List.range n)) (cell : Nat → Cell K) (pressure : Nat → K)
    (ff : Nat → K → Option K) (pc : Nat → K → K) (sat : List K) (hs : sat.length = n) (f : Nat → K)
    (hf : ∀ i, i < n → ff i (sat.getD i 0) = some (f i)) :
    vtk n order cell pressure ff pc sat = some
      [⟨"saturation", 1, sat⟩, ⟨"pressure", 1, (List.range n).map pressure⟩, ⟨"capillary pressure", 1, (List.range n).map fun i => pc i (sat.getD i 0)⟩,
        ⟨"fractional flow [water]", 1, (List.range n).map f⟩, ⟨"velocity", 3, vectors n fun i => velocity (cell i)⟩,
        ⟨"phase velocity [water]", 3, vectors n fun i k => velocity (cell i) k * f i⟩,
        ⟨"phase velocity [oil]", 3, vectors n fun i k => velocity (cell i) k * (1 - f i)⟩] := by
  obtain ⟨s, hsd⟩ : ∃ s : Nat → K, s = fun i => sat.getD i 0 := ⟨_, rfl⟩
  have hsat : sat = (List.range n).map s := by rw [hsd, ← hs]; exact list_range sat 0
  have hf' : ∀ i, i < n → ff i (s i) = some (f i) := by rw [hsd]; exact hf
  have hvel : (fun i => FracFlow.cellVelocity (cell i)) = fun i => velocity (cell i) := by
    funext i k
    unfold FracFlow.cellVelocity velocity
    rw [FracFlow.cellVelocity_fold, zero_add]
  have hm := mapM_range ((List.range n).map fun i => (s i, i)) (fun e : K × Nat => ff e.2 e.1) (fun e => f e.2) (by
    intro x hx
    obtain ⟨i, hi, rfl⟩ := List.mem_map.mp hx
    exact hf' i (List.mem_range.mp hi))
  have hpc : ((List.range n).map fun i => pc i (sat.getD i 0)) = (List.range n).map fun i => pc i (s i) := by rw [hsd]
  rw [hpc]
  unfold vtk
  rw [scatter_spec _ n order _ ho, hvel]
  simp only [Option.bind_eq_bind, Option.bind_some]
  rw [hsat, phases_map n ff s f _ hf', zipIdx_range_map]
  simp only [Option.bind_some, flatten_map n hn, scatter_spec _ n order _ ho, hm, List.map_map]
  rfl

omit [IsStrictOrderedRing K] in
/-- A grid without cells: the output takes the first of no vectors. -/
theorem C136_violated_empty (cell : Nat → Cell K) (pressure : Nat → K) (ff : Nat → K → Option K) (pc : Nat → K → K) :
    vtk 0 [] cell pressure ff pc [] = none := by
  rfl

omit [IsStrictOrderedRing K] in
/-- Cell pressures of a part of the grid: the pressure in the cells of the part, zero elsewhere. -/
theorem C136_part (n : Nat) (order : List Nat) (ho : order.Perm (List.range n)) (pressure : Nat → K) (part : Nat → Int) (mine : Int) :
    partPressure n order pressure part mine = some ((List.range n).map fun i => if part i = mine then pressure i else 0) := by
  unfold partPressure
  rw [scatter_spec _ n order _ ho]
  congr 1
  refine List.map_congr_left fun i _ => ?_
  by_cases h : part i = mine <;> simp [h]

/-- A field as text: read word by word it is the number of values followed by the values in order. -/
theorem C136_field (nat : Nat → List Char) (dbl : K → List Char) (hn : ∀ n, Compare.Spec.Word (nat n)) (hd : ∀ x, Compare.Spec.Word (dbl x)) (field : List K) :
    Compare.words [] (writeField nat dbl field) = nat field.length :: field.map dbl := by
  have key : ∀ (w rest : List Char), Compare.Spec.Word w → Compare.words [] (w ++ '\n' :: rest) = w :: Compare.words [] rest := by
    intro w rest hw
    rw [Compare.words_word w [] _ hw.2.1, Compare.words, if_pos (by decide), if_neg (by simpa using hw.1)]
    simp
  unfold writeField
  rw [key _ _ (hn _)]
  congr 1
  induction field with
  | nil => rfl
  | cons x l ih =>
    rw [List.flatMap_cons, List.append_assoc, List.singleton_append, key _ _ (hd x), ih]
    rfl

end vtk

section ecl

variable {K : Type} [Field K] [LinearOrder K] [IsStrictOrderedRing K] [FloorRing K]

theorem toInt_spec (t : K) (h0 : 0 ≤ t) (h1 : t < 2147483648) : toInt t = some ⌊t⌋ := by
  have a : 0 ≤ ⌊t⌋ := Int.floor_nonneg.mpr h0
  have b : ⌊t⌋ < 2147483648 := Int.floor_lt.mpr (by push_cast; exact h1)
  unfold toInt
  rw [if_pos h0]
  exact if_pos ⟨by omega, b⟩

theorem eclLoop_spec (base : List Char) (g : Grid) (pressure : Nat → K) (ho : g.order.Perm (List.range g.n)) (l : List (Steady.Rec K)) :
    ∀ (it : Nat) (t : K), 0 ≤ t → (∀ r ∈ l, 0 ≤ r.dt) → t + elapsed l l.length < 2147483648 →
    ∃ out, eclLoop base g pressure it t l = some out ∧ (∀ x, x ∈ out ↔ ∃ (k : Nat) (r : Steady.Rec K), l[k]? = some r ∧ r.converged = true ∧
      x = writeECLData g.dims g.n [("PRESSURE", (List.range g.n).map pressure), ("SWAT", r.after)] (it + k) (t + elapsed l (k + 1))
        (startDate + ⌊t + elapsed l (k + 1)⌋) base) ∧ out.Pairwise (fun x y => x.step < y.step) := by
  induction l with
  | nil =>
    intro it t _ _ _
    exact ⟨[], rfl, fun x => by simp, List.Pairwise.nil⟩
  | cons r l ih =>
    intro it t h0 hd h1
    have hr := hd r (by simp)
    have hd' : ∀ q ∈ l, 0 ≤ q.dt := fun q hq => hd q (by simp [hq])
    have hpos : ∀ k, 0 ≤ elapsed l k := by
      intro k
      unfold elapsed
      refine List.sum_nonneg fun x hx => ?_
      obtain ⟨q, hq, rfl⟩ := List.mem_map.mp hx
      exact hd' q (List.mem_of_mem_take (List.mem_of_mem_filter hq))
    have hsucc : ∀ k, elapsed (r :: l) (k + 1) = (if r.converged then r.dt else 0) + elapsed l k := by
      intro k
      unfold elapsed
      rw [List.take_succ_cons, List.filter_cons]
      by_cases hc : r.converged = true
      · simp [hc]
      · simp [hc]
    rw [List.length_cons, hsucc] at h1
    unfold eclLoop
    by_cases hc : r.converged = true
    · rw [if_pos hc]
      rw [if_pos hc] at h1
      obtain ⟨out, e1, e2, e3⟩ := ih (it + 1) (t + r.dt) (by linarith) hd' (by linarith)
      have hlt : t + r.dt < 2147483648 := by linarith [hpos l.length]
      rw [scatter_spec _ g.n g.order _ ho, (Steady.C35_roundtrip r.after).1]
      simp only [Option.bind_eq_bind, Option.bind_some, toInt_spec _ (show 0 ≤ t + r.dt by linarith) hlt, e1]
      refine ⟨_, rfl, fun x => ?_, ?_⟩
      · rw [List.mem_cons, e2]
        constructor
        · rintro (rfl | ⟨k, q, h2, h3, rfl⟩)
          · refine ⟨0, r, rfl, hc, ?_⟩
            rw [hsucc, if_pos hc]
            simp [elapsed]
          · refine ⟨k + 1, q, by simpa using h2, h3, ?_⟩
            rw [hsucc (k + 1), if_pos hc, show it + 1 + k = it + (k + 1) by omega, add_assoc]
        · rintro ⟨k, q, h2, h3, rfl⟩
          cases k with
          | zero =>
            left
            obtain rfl := Option.some.inj h2
            rw [hsucc, if_pos hc]
            simp [elapsed]
          | succ k =>
            right
            refine ⟨k, q, by simpa using h2, h3, ?_⟩
            rw [hsucc (k + 1), if_pos hc, show it + 1 + k = it + (k + 1) by omega, add_assoc]
      · refine List.pairwise_cons.mpr ⟨fun y hy => ?_, e3⟩
        obtain ⟨k, q, -, -, rfl⟩ := (e2 y).mp hy
        simp only [writeECLData]
        omega
    · rw [if_neg hc]
      rw [if_neg hc, zero_add] at h1
      obtain ⟨out, e1, e2, e3⟩ := ih (it + 1) t h0 hd' h1
      refine ⟨out, e1, fun x => ?_, e3⟩
      rw [e2]
      constructor
      · rintro ⟨k, q, h2, h3, rfl⟩
        refine ⟨k + 1, q, by simpa using h2, h3, ?_⟩
        rw [hsucc (k + 1), if_neg hc, zero_add, show it + 1 + k = it + (k + 1) by omega]
      · rintro ⟨k, q, h2, h3, rfl⟩
        cases k with
        | zero =>
          obtain rfl := Option.some.inj h2
          exact absurd h3 hc
        | succ k =>
          refine ⟨k, q, by simpa using h2, h3, ?_⟩
          rw [hsucc (k + 1), if_neg hc, zero_add, show it + 1 + k = it + (k + 1) by omega]

/-- The restart file of a run that covers less than 2^31 seconds: there is one report for every pass that converged and no other, in order of the passes;
its number is the number of the pass, its time the sum of the time steps that converged, its date New Year 2012 plus that time in whole seconds, and it
holds the pressure and the water saturation of every cell after the pass. -/
theorem C136_ecl_partial (base : List Char) (g : Grid) (ho : g.order.Perm (List.range g.n)) (pressure : Nat → K) (l : List (Steady.Rec K))
    (hd : ∀ r ∈ l, 0 ≤ r.dt) (hT : elapsed l l.length < 2 ^ 31) :
    ∃ out, eclOutput base g pressure l = some out ∧ out.Pairwise (fun x y => x.step < y.step) ∧
      (∀ x ∈ out, ∃ (k : Nat) (r : Steady.Rec K), l[k]? = some r ∧ r.converged = true ∧ IsReport base g pressure l k r x) ∧
      ∀ (k : Nat) (r : Steady.Rec K), l[k]? = some r → r.converged = true → ∃ x ∈ out, IsReport base g pressure l k r x := by
  obtain ⟨out, h1, h2, h3⟩ := eclLoop_spec base g pressure ho l 0 0 (le_refl _) hd (by rw [zero_add]; norm_num at hT; exact hT)
  have hrep : ∀ (k : Nat) (r : Steady.Rec K), IsReport base g pressure l k r (writeECLData g.dims g.n
      [("PRESSURE", (List.range g.n).map pressure), ("SWAT", r.after)] (0 + k) (0 + elapsed l (k + 1)) (startDate + ⌊0 + elapsed l (k + 1)⌋) base) := by
    intro k r
    rw [zero_add, zero_add]
    have e : startDate = newYear2012 := by decide
    rw [e]
    have a := Int.floor_le (elapsed l (k + 1))
    have b := Int.lt_floor_add_one (elapsed l (k + 1))
    refine ⟨rfl, rfl, rfl, rfl, rfl, rfl, ?_, ?_, rfl⟩
    · simp only [writeECLData]; push_cast; linarith
    · simp only [writeECLData]; push_cast; linarith
  refine ⟨out, h1, h3, fun x hx => ?_, fun k r hk hc => ⟨_, (h2 _).mpr ⟨k, r, hk, hc, rfl⟩, hrep k r⟩⟩
  obtain ⟨k, r, hk, hc, rfl⟩ := (h2 x).mp hx
  exact ⟨k, r, hk, hc, hrep k r⟩

/-- A run beyond 2^31 seconds (68 years) converts a time to `int` that does not fit: undefined. -/
theorem C136_violated_time (base : List Char) (g : Grid) (pressure : Nat → K) (r : Steady.Rec K) (l : List (Steady.Rec K)) (hc : r.converged = true)
    (hT : 2 ^ 31 ≤ r.dt) : eclOutput base g pressure (r :: l) = none := by
  unfold eclOutput eclLoop
  rw [if_pos hc, zero_add]
  have h0 : 0 ≤ r.dt := le_trans (by positivity) hT
  have hf : (2147483648 : Int) ≤ ⌊r.dt⌋ := Int.le_floor.mpr (by push_cast; norm_num at hT; exact hT)
  have : toInt r.dt = none := by
    unfold toInt
    rw [if_pos h0]
    exact if_neg (by omega)
  simp only [this, Option.bind_eq_bind, Option.bind_none]
  cases scatter 0 g.n g.order pressure with
  | none => rfl
  | some p =>
    cases Steady.destripe (Steady.waterSatToBothSat r.after) 2 0 <;> rfl

/-- The header says METRIC units, but the pressure is in Pascal: read as the header says, every pressure that is not zero is wrong. -/
theorem C136_violated_unit (base : List Char) (g : Grid) (ho : g.order.Perm (List.range g.n)) (pressure : Nat → K) (r : Steady.Rec K)
    (hc : r.converged = true) (h0 : 0 ≤ r.dt) (hT : r.dt < 2 ^ 31) (i : Nat) (hi : i < g.n) (hp : pressure i ≠ 0) :
    ∃ x p, eclOutput base g pressure [r] = some [x] ∧ x.arrays.lookup "PRESSURE" = some p ∧ ∃ v, p[i]? = some v ∧ metricPressure v ≠ pressure i := by
  unfold eclOutput eclLoop
  rw [if_pos hc, zero_add, scatter_spec _ g.n g.order _ ho, (Steady.C35_roundtrip r.after).1]
  have ht : toInt r.dt = some ⌊r.dt⌋ := toInt_spec _ h0 (by norm_num at hT; exact hT)
  simp only [Option.bind_eq_bind, Option.bind_some, ht]
  refine ⟨_, _, rfl, rfl, pressure i, by rw [List.getElem?_map, List.getElem?_range hi]; rfl, ?_⟩
  unfold metricPressure
  intro e
  have : pressure i * (100000 - 1) = 0 := by rw [mul_sub, e]; ring
  rcases mul_eq_zero.mp this with h | h
  · exact hp h
  · norm_num at h

end ecl

theorem plain_split {a b r s : List Char} (ha : Plain a) (hb : Plain b) (h : a ++ '-' :: r = b ++ '-' :: s) : a = b ∧ r = s := by
  induction a generalizing b with
  | nil =>
    cases b with
    | nil => simpa using h
    | cons c b =>
      simp at h
      exact absurd (by simp [← h.1]) hb
  | cons c a ih =>
    cases b with
    | nil =>
      simp at h
      exact absurd (by simp [h.1]) ha
    | cons d b =>
      simp only [List.cons_append, List.cons.injEq] at h
      obtain ⟨e1, e2⟩ := ih (fun hm => ha (by simp [hm])) (fun hm => hb (by simp [hm])) h.2
      exact ⟨by rw [h.1, e1], e2⟩

/-- VTK files of different calls, directions or passes have different names. -/
theorem C136_vtk_names (nat : Nat → List Char) (hn : Function.Injective nat) (hp : ∀ n, Plain (nat n)) (c d i c' d' i' : Nat)
    (h : vtkName nat c d i = vtkName nat c' d' i') : c = c' ∧ d = d' ∧ i = i' := by
  unfold vtkName at h
  simp only [List.append_assoc, List.cons_append] at h
  have h := List.append_cancel_left h
  simp only [List.cons.injEq, true_and] at h
  obtain ⟨h1, h⟩ := plain_split (hp _) (hp _) h
  obtain ⟨h2, h3⟩ := plain_split (hp _) (hp _) h
  exact ⟨hn h1, hn h2, hn h3⟩

/-- Result sets with the same name belong to the same direction, and to boundary saturations and pressure drops that differ by at most a millionth. -/
theorem C136_ecl_names_partial {K : Type} [Field K] [LinearOrder K] [IsStrictOrderedRing K] (nat : Nat → List Char) (hn : Function.Injective nat)
    (hp : ∀ n, Plain (nat n)) (dbl : K → List Char) (hdp : ∀ x, 0 ≤ x → Plain (dbl x)) (hd : ∀ x y, dbl x = dbl y → |x - y| ≤ 1 / 1000000)
    (b p b' p' : K) (d d' : Nat) (hb : 0 ≤ b) (hb' : 0 ≤ b') (h : eclName nat dbl b d p = eclName nat dbl b' d' p') :
    d = d' ∧ |b - b'| ≤ 1 / 1000000 ∧ |p - p'| ≤ 1 / 1000000 := by
  unfold eclName at h
  simp only [List.append_assoc, List.cons_append] at h
  have h := List.append_cancel_left h
  simp only [List.cons.injEq, true_and] at h
  obtain ⟨h1, h⟩ := plain_split (hdp _ hb) (hdp _ hb') h
  obtain ⟨h2, h3⟩ := plain_split (hp _) (hp _) h
  have := hn h2
  unfold letter at this
  exact ⟨by omega, hd _ _ h1, hd _ _ h3⟩

/-- Pressure drops below half a millionth have the same name: the second run overwrites the file of the first. -/
theorem C136_violated_names (nat : Nat → List Char) (micro : Rat → Int) (hm : ∀ x, |x * 1000000 - micro x| ≤ 1 / 2) (dec : Int → List Char) (b : Rat) (d : Nat) :
    eclName nat (fun x => dec (micro x)) b d (1 / 10000000) = eclName nat (fun x => dec (micro x)) b d (2 / 10000000) := by
  have h0 : ∀ x : Rat, |x * 1000000| < 1 / 2 → micro x = 0 := by
    intro x hx
    have h1 := hm x
    rw [abs_lt] at hx
    rw [abs_le] at h1
    have a : ((micro x : Int) : Rat) < 1 := by linarith [hx.2, h1.1]
    have c : (-1 : Rat) < ((micro x : Int) : Rat) := by linarith [hx.1, h1.2]
    have a' : micro x < 1 := by exact_mod_cast a
    have c' : -1 < micro x := by exact_mod_cast c
    omega
  unfold eclName
  dsimp only
  rw [h0 (1 / 10000000) (by norm_num [abs_lt]), h0 (2 / 10000000) (by norm_num [abs_lt])]

/-- A cell of the example: two faces, flux 3 through both. -/
def exCell (i : Nat) : Cell Rat :=
  ⟨[⟨.interior 0, 1, fun _ => 0, fun k => if k = 0 then i + 1 else 0, 3⟩, ⟨.interior 0, 1, fun _ => 0, fun k => if k = 0 then i else 0, -3⟩],
    fun _ => 0, 2⟩

example : vtk 2 [1, 0] exCell (fun i => (i : Rat) + 7) (fun _ s => some (s / 2)) (fun i s => s + i) [1, 1/2] = some
    [⟨"saturation", 1, [1, 1/2]⟩, ⟨"pressure", 1, [7, 8]⟩, ⟨"capillary pressure", 1, [1, 3/2]⟩, ⟨"fractional flow [water]", 1, [1/2, 1/4]⟩,
      ⟨"velocity", 3, [3/2, 0, 0, 3/2, 0, 0]⟩, ⟨"phase velocity [water]", 3, [3/4, 0, 0, 3/8, 0, 0]⟩,
      ⟨"phase velocity [oil]", 3, [3/4, 0, 0, 9/8, 0, 0]⟩] := by
  decide +kernel

/-- The passes of the example: two cells, a pass that fails and two that converge. -/
def exRecs : List (Steady.Rec Rat) :=
  [⟨4, [0, 0], [0, 0], false⟩, ⟨2, [0, 0], [1/2, 0], true⟩, ⟨5/2, [1/2, 0], [1/2, 1/4], true⟩]

example : eclOutput "a".toList ⟨2, [1, 0], (2, 1, 1)⟩ (fun i => (i : Rat) + 7) exRecs =
    some [⟨"a".toList, 1, (2, 1, 1), 2, 1325376002, 1325376000, 2, [("PRESSURE", [7, 8]), ("SWAT", [1/2, 0])]⟩,
      ⟨"a".toList, 2, (2, 1, 1), 2, 1325376004, 1325376000 - 1/2, 9/2, [("PRESSURE", [7, 8]), ("SWAT", [1/2, 1/4])]⟩] := by
  decide +kernel

example : (∀ r ∈ exRecs, 0 ≤ r.dt) ∧ elapsed exRecs exRecs.length < 2 ^ 31 := by decide +kernel

example : writeField (fun n => if n = 2 then ['2'] else ['?']) (fun x : Rat => if x = 0 then ['0'] else ['1']) [1, 0] = "2\n1\n0\n".toList := by decide +kernel

end Verif.SimOutput
