import Verif.Lemmas.EulerThreads
import Verif.Lemmas.EulerCfl
import Mathlib.Algebra.Order.Ring.Unbundled.Rat
import Mathlib.Algebra.Field.Rat
import Mathlib.Tactic.NormNum
import Mathlib.Tactic.IntervalCases
import Mathlib.Data.Rat.Floor

/-!
Properties of explicit transport: C10 (conservation), C11 (order and splitting), C13 (limiting), C14 (CFL),
C58 (gravity switch), C59 (upstream weighting).
-/

namespace Verif.Euler

open Spec
open scoped BigOperators

variable {K M : Type} [Field K] [LinearOrder K]

/-! ### Concrete grids for the examples -/

/-- A face with unit normal. -/
def exFace (k : FaceKind) (q : ℚ) : Face ℚ := ⟨k, 1, ![1, 0, 0], ![0, 0, 0], q⟩

/-- Two cells in a row: inflow with saturation 1 on the left (id 1), outflow on the right (id 2). -/
def exRow : Setup ℚ ℚ where
  grid := [⟨[exFace (.boundary 1) (-1), exFace (.interior 1) 1], ![0, 0, 0], 1⟩,
           ⟨[exFace (.interior 0) (-1), exFace (.boundary 2) 1], ![1, 0, 0], 1⟩]
  bcs := ⟨fun b => .dirichlet (if b = 1 then 1 else 0), fun _ => 0⟩
  rock := ⟨fun _ _ _ => 1, fun p _ s => if p then 1 - s else s, fun _ s => s, fun _ _ => 0, 0⟩
  ops := scalarMob
  gravity := fun _ => 0
  method := ⟨true, false, false⟩
  rate := fun _ => 0
  norm := fun v => v 0

/-- Two cells on a periodic ring. -/
def exRing : Setup ℚ ℚ :=
  { exRow with
    grid := [⟨[exFace (.boundary 1) (-1), exFace (.interior 1) 1], ![0, 0, 0], 1⟩,
             ⟨[exFace (.interior 0) (-1), exFace (.boundary 2) 1], ![1, 0, 0], 1⟩]
    bcs := ⟨fun _ => .periodic, fun b => if b = 1 then 2 else 1⟩ }

theorem exRow_viscous : Viscous exRow := by
  refine ⟨rfl, rfl, Or.inl rfl, ?_⟩
  intro c f hf
  have : inner (![1, 0, 0] : Vec ℚ) ![1, 0, 0] = 1 := by decide +kernel
  rcases c with _ | _ | c
  · simp [facesOf, exRow] at hf; rcases hf with rfl | rfl <;> exact this
  · simp [facesOf, exRow] at hf; rcases hf with rfl | rfl <;> exact this
  · simp [facesOf, exRow] at hf

theorem exRow_mob : GoodMob exRow := by
  constructor
  · intro p c s h0 h1
    cases p <;> simp [exRow] <;> linarith
  · intro c s h0 h1
    simp [exRow]

theorem exRow_connected : Connected exRow := by
  intro c hc f hf
  have : c = 0 ∨ c = 1 := by simp [exRow] at hc; omega
  rcases this with rfl | rfl
  · simp [facesOf, exRow] at hf; rcases hf with rfl | rfl <;> simp [exFace, exRow]
  · simp [facesOf, exRow] at hf; rcases hf with rfl | rfl <;> simp [exFace, exRow]

theorem exRow_consistent : Consistent exRow := by
  intro i hi
  have : i = 0 ∨ i = 1 := by simp [exRow] at hi; omega
  rcases this with rfl | rfl
  · decide +kernel
  · decide +kernel

/-- Saturation 1/2 in both cells. -/
def exSat : Nat → ℚ := fun _ => 1 / 2

theorem exRow_inRange : InRange exRow exSat := by
  constructor
  · intro i _; unfold exSat; norm_num
  · intro b s h
    simp only [exRow, SatBC.dirichlet.injEq] at h
    subst h
    split <;> norm_num

/-- A solver for the row of two cells, initialised once. -/
def exSolver : Solver ℚ ℚ := ⟨exRow, itersAfter 2 1, [1, 1], true, false⟩

/-! ### C10 -/

/-- **C10** One explicit step, without clamping, changes the water volume by exactly `dt` times the net boundary inflow
plus sources; for any number of (re-)initialisations, any flux field, any mobilities (scalar or tensor), any
combination of viscous, gravity and capillary terms. -/
theorem C10_conservation (E : Solver K M) (k : Nat) (dt : K) (sat s' : Nat → K)
    (hn : 0 < E.setup.grid.length) (hit : E.iters = itersAfter E.setup.grid.length (k + 1))
    (hcl : E.clampSat = false)
    (h : smallTimeStep E dt sat = ⟨s', none⟩) :
    waterVolume E.setup.grid.length E.porevol s' - waterVolume E.setup.grid.length E.porevol sat
      = dt * (boundaryInflow E.setup sat + sources E.setup sat) := by
  unfold smallTimeStep at h
  rw [hit] at h
  cases hr : computeResidual E.setup (itersAfter E.setup.grid.length (k + 1)) sat with
  | error e => simp [hr] at h
  | ok res =>
    simp only [hr] at h
    have hu : updateSat E.porevol dt res (List.range E.setup.grid.length) sat = ⟨s', none⟩ := by
      cases hu : updateSat E.porevol dt res (List.range E.setup.grid.length) sat with
      | mk s e =>
        cases e with
        | some e => simp [hu] at h
        | none =>
          simp only [hu] at h
          split at h
          · rw [hcl] at h
            have hv := clampLoop_noclamp (List.range E.setup.grid.length) s
            unfold checkAndClamp at h
            rw [h] at hv
            simp only at hv
            rw [hv]
          · exact h
    have hsp := (updateSat_spec _ _ _ _ List.nodup_range _ _ hu).1
    rw [← residual_total E.setup sat k hn res hr]
    unfold waterVolume
    rw [← Finset.sum_sub_distrib, Finset.mul_sum]
    apply Finset.sum_congr rfl
    intro i hi
    rw [Finset.mem_range] at hi
    obtain ⟨p, hp, hp0, hs⟩ := hsp i (List.mem_range.2 hi)
    have : E.porevol.getD i 0 = p := by rw [List.getD_eq_getElem?_getD, hp]; rfl
    rw [this, hs]
    field_simp
    ring

/-- **C10** Cell by cell: the residual of cell `i` is its source minus what leaves through its own Dirichlet faces and the
faces to higher-numbered neighbours plus exactly what the lower-numbered neighbours lose through their faces to `i`. -/
theorem C10_local_balance (S : Setup K M) (sat : Nat → K) (k : Nat) (hn : 0 < S.grid.length) (res : Nat → K)
    (h : computeResidual S (itersAfter S.grid.length (k + 1)) sat = .ok res) (i : Nat) (hi : i < S.grid.length) :
    res i = netInflow S sat i :=
  residual_eq S sat k hn res h i hi

/-- Without outer boundary and sources the water volume does not change at all. -/
theorem C10_closed_system (E : Solver K M) (k : Nat) (dt : K) (sat s' : Nat → K)
    (hn : 0 < E.setup.grid.length) (hit : E.iters = itersAfter E.setup.grid.length (k + 1))
    (hcl : E.clampSat = false)
    (hnb : ∀ c < E.setup.grid.length, ∀ f ∈ facesOf E.setup.grid c, (neighbour E.setup f).isSome)
    (hsrc : ∀ c, E.setup.rate c = 0)
    (h : smallTimeStep E dt sat = ⟨s', none⟩) :
    waterVolume E.setup.grid.length E.porevol s' = waterVolume E.setup.grid.length E.porevol sat := by
  have := C10_conservation E k dt sat s' hn hit hcl h
  have hb : boundaryInflow E.setup sat = 0 := by
    unfold boundaryInflow
    rw [Finset.sum_eq_zero, neg_zero]
    intro c hc
    rw [Finset.mem_range] at hc
    have : (facesOf E.setup.grid c).filter (fun f => (neighbour E.setup f).isNone) = [] := by
      rw [List.filter_eq_nil_iff]
      intro f hf
      have := hnb c hc f hf
      cases hx : neighbour E.setup f <;> simp_all
    rw [this]; simp
  have hs : sources E.setup sat = 0 := by
    unfold sources
    apply Finset.sum_eq_zero
    intro c _
    simp [hsrc c]
  rw [hb, hs, add_zero, mul_zero, sub_eq_zero] at this
  exact this

/-- The hypotheses of C10 are met by a step on the row of two cells that changes the saturations. -/
example : (smallTimeStep exSolver (1 / 2) exSat).err = none ∧ (smallTimeStep exSolver (1 / 2) exSat).val 0 = 3 / 4 := by
  decide +kernel

/-- …and by one on the periodic ring with unequal saturations. -/
example : let E : Solver ℚ ℚ := { exSolver with setup := exRing }
    let s : Nat → ℚ := fun i => if i = 0 then 1 / 4 else 3 / 4
    (smallTimeStep E (1 / 2) s).err = none ∧ (smallTimeStep E (1 / 2) s).val 0 = 1 / 2 ∧
      (smallTimeStep E (1 / 2) s).val 1 = 1 / 2 := by
  decide +kernel

/-! ### C11 -/

/-- **C11** The residual does not depend on the order in which cells are processed. -/
theorem C11_order (S : Setup K M) (sat : Nat → K) (k : Nat) (hn : 0 < S.grid.length) (l : List Nat)
    (hl : l.Perm (List.range S.grid.length)) (res : Nat → K)
    (h : computeResidual S (itersAfter S.grid.length (k + 1)) sat = .ok res) :
    updateCells S sat (fun _ => 0) l = .ok res := by
  rw [computeResidual_eq S sat k hn] at h
  exact updateCells_perm S sat hl.symm h

/-- **C11** A range is divided exactly if it holds more than one position, and then neither part is empty, they meet, and each is smaller than the range. -/
theorem C11_divide (r : IRange) : (r.divisible = true ↔ 2 ≤ r.fin - r.beg) ∧
    (r.divisible = true → ∃ m, r.split = (⟨r.beg, m⟩, ⟨m, r.fin⟩) ∧ r.beg < m ∧ m < r.fin) := by
  have h : r.divisible = true ↔ 2 ≤ r.fin - r.beg := by
    unfold IRange.divisible
    rw [decide_eq_true_iff]
    omega
  refine ⟨h, fun hd => ⟨(r.beg + r.fin) / 2, rfl, ?_, ?_⟩⟩ <;> have := h.1 hd <;> omega

example : (⟨0, 3⟩ : IRange).divisible = true ∧ (⟨0, 3⟩ : IRange).split = (⟨0, 1⟩, ⟨1, 3⟩) ∧ (⟨0, 1⟩ : IRange).divisible = false := by decide +kernel

/-- **C11** For every splitting tree of the range of an object initialised once, each cell belongs to exactly one
processed range: the cells of the ranges, in order, are `0, …, n-1`. -/
theorem C11_each_cell_once (n : Nat) (hn : 0 < n) (t : SplitTree) (r : IRange)
    (hr : IRange.mk' (itersAfter n 1) = .ok r) :
    ∃ ls, (leaves r t).mapM (fun q => q.cells (itersAfter n 1)) = .ok ls ∧ ls.flatten = List.range n := by
  have hlen : 2 ≤ (itersAfter n 1).length := itersAfter_len n 0 hn
  unfold IRange.mk' at hr
  rw [if_pos hlen] at hr
  injection hr with hr
  subst hr
  obtain ⟨ls, cs, h1, h2, h3⟩ := leaves_cells (itersAfter n 1) (initIters_mono n) t
    ⟨0, (itersAfter n 1).length - 1⟩ (Nat.zero_le _) (by simp only; omega)
  refine ⟨ls, h1, ?_⟩
  rw [h3]
  unfold IRange.cells at h2
  simp only at h2
  rw [itersAfter_head n 0 hn] at h2
  have hl := initIters_last (itersAfter n 0) n
  change (itersAfter n 1)[(itersAfter n 1).length - 1]? = some n at hl
  rw [hl] at h2
  simp only at h2
  rw [cellsBetween_zero] at h2
  injection h2 with h2
  exact h2.symm

/-- **C11** The residual is the same for every splitting tree and every order in which the resulting ranges are processed, as
long as they do not run at the same time. -/
theorem C11_splitting (S : Setup K M) (sat : Nat → K) (hn : 0 < S.grid.length) (t : SplitTree) (r : IRange)
    (hr : IRange.mk' (itersAfter S.grid.length 1) = .ok r) (rs : List IRange) (hp : rs.Perm (leaves r t))
    (res : Nat → K) (h : computeResidual S (itersAfter S.grid.length 1) sat = .ok res) :
    runRanges S (itersAfter S.grid.length 1) sat (fun _ => 0) rs = .ok res := by
  obtain ⟨ls, h1, h2⟩ := C11_each_cell_once S.grid.length hn t r hr
  have hok : ∀ q ∈ rs, ∃ cs, q.cells (itersAfter S.grid.length 1) = .ok cs := by
    have : ∀ (qs : List IRange) (ls : List (List Nat)),
        qs.mapM (fun q => q.cells (itersAfter S.grid.length 1)) = .ok ls →
        ∀ q ∈ qs, ∃ cs, q.cells (itersAfter S.grid.length 1) = .ok cs := by
      intro qs
      induction qs with
      | nil => intro _ _ q hq; cases hq
      | cons a qs ih =>
        intro ls hm q hq
        rw [List.mapM_cons] at hm
        cases ha : a.cells (itersAfter S.grid.length 1) with
        | error x => simp [ha, bind, Except.bind] at hm
        | ok ca =>
          cases hqs : qs.mapM (fun q => q.cells (itersAfter S.grid.length 1)) with
          | error x => simp [ha, hqs, bind, Except.bind] at hm
          | ok l' =>
            rw [List.mem_cons] at hq
            rcases hq with rfl | hq
            · exact ⟨ca, ha⟩
            · exact ih l' hqs q hq
    exact fun q hq => this _ _ h1 q (hp.mem_iff.1 hq)
  obtain ⟨ls', hl', hf⟩ := mapM_ok (fun q : IRange => q.cells (itersAfter S.grid.length 1)) rs hok
  rw [runRanges_eq S _ sat rs ls' hl']
  apply C11_order S sat 0 hn _ ?_ res h
  rw [← h2]
  obtain ⟨ls2, hl2, hf2⟩ := mapM_ok (fun q : IRange => q.cells (itersAfter S.grid.length 1)) (leaves r t)
    (fun q hq => hok q (hp.mem_iff.2 hq))
  rw [h1] at hl2
  injection hl2 with hl2
  subst hl2
  have hg : ∀ (qs : List IRange) (l : List (List Nat)),
      List.Forall₂ (fun (q : IRange) b => q.cells (itersAfter S.grid.length 1) = .ok b) qs l →
      l = qs.map (fun q => match q.cells (itersAfter S.grid.length 1) with | .ok c => c | .error _ => []) := by
    intro qs l hh
    induction hh with
    | nil => rfl
    | cons h _ ih => rw [List.map_cons, h, ← ih]
  rw [hg _ _ hf, hg _ _ hf2]
  exact (hp.map _).flatten

/-- **C11** A serial residual evaluation does not depend on how often the object has been initialised. -/
theorem C11_serial_history_independent (S : Setup K M) (sat : Nat → K) (hn : 0 < S.grid.length) (k : Nat) :
    computeResidual S (itersAfter S.grid.length (k + 1)) sat = computeResidual S (itersAfter S.grid.length 1) sat := by
  rw [computeResidual_eq S sat k hn, computeResidual_eq S sat 0 hn]

/-- **C11** (violated after re-initialisation) `cell_iters_` is not cleared: after a second `initObj` a fully split range
contains an invalid sub-range, and the remaining ones process each cell twice. -/
theorem C11_violated_reinit :
    ∃ (r : IRange) (t : SplitTree), IRange.mk' (itersAfter 1 2) = .ok r ∧
      (leaves r t).map (fun q => q.cells (itersAfter 1 2)) = [.ok [0], .error .ub, .ok [0]] := by
  refine ⟨⟨0, 3⟩, .node .leaf (.node .leaf .leaf), by decide +kernel, by rfl⟩

/-- **C11** If the cells processed by two threads never touch a common entry, every interleaving of their loads and stores that
lets both finish gives the sum of all additions. -/
theorem C11_parallel_disjoint (a b : List (Nat × K)) (mem : Nat → K)
    (hd : ∀ x ∈ a, ∀ y ∈ b, x.1 ≠ y.1) (sch : List Bool)
    (hfa : (runSchedule sch (mem, ⟨a, none⟩, ⟨b, none⟩)).2.1.todo = [])
    (hfb : (runSchedule sch (mem, ⟨a, none⟩, ⟨b, none⟩)).2.2.todo = []) (i : Nat) :
    (runSchedule sch (mem, ⟨a, none⟩, ⟨b, none⟩)).1 i =
      mem i + ((a ++ b).map fun e => if e.1 = i then e.2 else 0).sum := by
  have := runSchedule_inv sch mem ⟨a, none⟩ ⟨b, none⟩ ?_ ?_ ?_ i
  · rw [hfa, hfb, pend_nil, add_zero, add_zero] at this
    rw [this, add_assoc, ← pend_append]; rfl
  · rintro j ⟨e, he, hj⟩ ⟨e', he', hj'⟩
    exact hd e he e' he' (hj.trans hj'.symm)
  · intro v j x r h; simp at h
  · intro v j x r h; simp at h

/-- **C11** (violated in parallel) Whenever two threads each contain an addition to the same entry `i`, some interleaving lets
both finish and loses the first one's addition. -/
theorem C11_violated_lost_update (a b : List (Nat × K)) (i : Nat) (x y : K) (ha : (i, x) ∈ a) (hb : (i, y) ∈ b)
    (mem : Nat → K) :
    ∃ sch, (runSchedule sch (mem, ⟨a, none⟩, ⟨b, none⟩)).2 = (⟨[], none⟩, ⟨[], none⟩) ∧
      (runSchedule sch (mem, ⟨a, none⟩, ⟨b, none⟩)).1 i =
        mem i + ((a ++ b).map fun e => if e.1 = i then e.2 else 0).sum - x := by
  obtain ⟨a1, a2, rfl⟩ := List.append_of_mem ha
  obtain ⟨b1, b2, rfl⟩ := List.append_of_mem hb
  obtain ⟨sch, hs⟩ := lost_update a1 a2 b1 b2 i x y mem
  refine ⟨sch, by rw [hs], ?_⟩
  rw [hs]
  simp only [if_true]
  rw [add_assoc, ← pend_append]; rfl

/-- A row of `n+1` cells with unit flux to the right; the first cell has an inflow face. -/
def rowGrid (n : Nat) : Grid ℚ :=
  (List.range (n + 1)).map fun c =>
    ⟨(if c = 0 then [exFace (.boundary 1) (-1)] else [exFace (.interior (c - 1)) (-1)]) ++
     (if c = n then [exFace (.boundary 2) 1] else [exFace (.interior (c + 1)) 1]), ![0, 0, 0], 1⟩

/-- **C11** (violated in parallel, instance) On a row of 51 cells the range is split into the chunks `0…49` and `50`; cell 49
(first chunk) and cell 50 (second chunk) both add to entry 50. -/
theorem C11_violated_instance :
    let S : Setup ℚ ℚ := { exRow with grid := rowGrid 50 }
    itersAfter 51 1 = [0, 50, 51] ∧
    (∃ l, cellEvents S exSat 49 = .ok l ∧ (50, (1 : ℚ) / 2) ∈ l) ∧
    (∃ l, cellEvents S exSat 50 = .ok l ∧ (50, -(1 : ℚ) / 2) ∈ l) := by
  refine ⟨by decide +kernel, ?_, ?_⟩
  · refine ⟨[(49, -1/2), (50, 1/2), (49, 0)], by decide +kernel, by decide +kernel⟩
  · refine ⟨[(50, -1/2), (50, 0)], by decide +kernel, by decide +kernel⟩

/-- The additions used above are those the cell update performs. -/
theorem C11_events (S : Setup K M) (sat : Nat → K) (c : Nat) (r r' : Nat → K) (h : updateCell S sat r c = .ok r') :
    ∃ l, cellEvents S sat c = .ok l ∧ ∀ i, r' i = r i + (l.map fun e => if e.1 = i then e.2 else 0).sum :=
  cellEvents_spec S sat c r r' h

/-- The hypotheses of C11 are met: the row of 51 cells has a residual and its range can be split. -/
example : ∃ r res, IRange.mk' (itersAfter 2 1) = .ok r ∧ computeResidual exRow (itersAfter 2 1) exSat = .ok res :=
  ⟨⟨0, 1⟩, (computeResidual_ok exRow exRow_viscous exRow_mob exSat exRow_connected exRow_inRange 0 (by decide)).choose,
    by decide +kernel,
    (computeResidual_ok exRow exRow_viscous exRow_mob exSat exRow_connected exRow_inRange 0 (by decide)).choose_spec⟩

example : (leaves ⟨0, 2⟩ (.node .leaf .leaf)).length = 2 := by decide +kernel

/-! ### C13 -/

theorem clampLoop_true (l : List Nat) (hl : l.Nodup) (s : Nat → K) :
    (clampLoop true l s).err = none ∧
    (∀ i ∈ l, (clampLoop true l s).val i = max (min (s i) 1) 0 ∨ ((clampLoop true l s).val i = s i ∧ ¬ (s i > 1 ∨ s i < 0))) ∧
    (∀ i, i ∉ l → (clampLoop true l s).val i = s i) := by
  induction l generalizing s with
  | nil => simp [clampLoop]
  | cons a l ih =>
    rw [List.nodup_cons] at hl
    have hcell : ∃ v, clampCell true (s a) = .ok v ∧ (v = max (min (s a) 1) 0 ∨ (v = s a ∧ ¬ (s a > 1 ∨ s a < 0))) := by
      unfold clampCell
      by_cases h : s a > 1 ∨ s a < 0
      · exact ⟨_, by rw [if_pos h]; rfl, Or.inl rfl⟩
      · exact ⟨_, by rw [if_neg h], Or.inr ⟨rfl, h⟩⟩
    obtain ⟨v, hv, hv'⟩ := hcell
    unfold clampLoop
    simp only [hv]
    obtain ⟨i1, i2, i3⟩ := ih hl.2 (fun j => if j = a then v else s j)
    refine ⟨i1, ?_, ?_⟩
    · intro i hi
      rw [List.mem_cons] at hi
      rcases hi with rfl | hi
      · rw [i3 i hl.1]; simpa using hv'
      · have hne : i ≠ a := fun e => hl.1 (e ▸ hi)
        have := i2 i hi
        simpa [hne] using this
    · intro i hi
      rw [List.mem_cons, not_or] at hi
      rw [i3 i hi.2]; simp [hi.1]

variable [IsStrictOrderedRing K]

/-- **C13** With clamping every saturation ends up in `[0,1]` without an error, and as close as possible to its old value: an
in-range value is untouched, a value above 1 becomes 1, a negative value becomes 0. -/
theorem C13_clamp (n : Nat) (s : Nat → K) :
    (checkAndClamp true n s).err = none ∧
    ∀ i < n, 0 ≤ (checkAndClamp true n s).val i ∧ (checkAndClamp true n s).val i ≤ 1 ∧
      (0 ≤ s i → s i ≤ 1 → (checkAndClamp true n s).val i = s i) ∧
      (1 < s i → (checkAndClamp true n s).val i = 1) ∧ (s i < 0 → (checkAndClamp true n s).val i = 0) := by
  obtain ⟨h1, h2, _⟩ := clampLoop_true (List.range n) List.nodup_range s
  refine ⟨h1, fun i hi => ?_⟩
  have := h2 i (List.mem_range.2 hi)
  unfold checkAndClamp
  rcases this with h | ⟨h, h'⟩
  · rw [h]
    have h01 : (0 : K) ≤ 1 := zero_le_one
    refine ⟨le_max_right _ _, max_le (min_le_right _ _) h01, ?_, ?_, ?_⟩
    · intro a b; rw [min_eq_left b, max_eq_left a]
    · intro a; rw [min_eq_right a.le, max_eq_left h01]
    · intro a; rw [min_eq_left (a.le.trans h01), max_eq_right a.le]
  · rw [h]
    rw [not_or, not_lt, not_lt] at h'
    exact ⟨h'.2, h'.1, fun _ _ => rfl, fun a => absurd a (not_lt.2 h'.1), fun a => absurd a (not_lt.2 h'.2)⟩

/-- **C13** Without clamping the field is never modified, and the check throws exactly when some value is above 1.001 or below
-0.001. -/
theorem C13_noclamp (n : Nat) (s : Nat → K) :
    (checkAndClamp false n s).val = s ∧
    ((checkAndClamp false n s).err = none ↔ ∀ i < n, -(1 / 1000) ≤ s i ∧ s i ≤ 1 + 1 / 1000) ∧
    ((checkAndClamp false n s).err = some .thrown ↔ ∃ i < n, s i < -(1 / 1000) ∨ 1 + 1 / 1000 < s i) := by
  refine ⟨clampLoop_noclamp _ s, ?_⟩
  have key : ∀ l : List Nat,
      ((∀ i ∈ l, -(1 / 1000) ≤ s i ∧ s i ≤ 1 + 1 / 1000) ∧ (clampLoop false l s).err = none) ∨
      ((∃ i ∈ l, s i < -(1 / 1000) ∨ 1 + 1 / 1000 < s i) ∧ (clampLoop false l s).err = some .thrown) := by
    intro l
    induction l with
    | nil => left; exact ⟨by simp, rfl⟩
    | cons a l ih =>
      have hs : (fun j => if j = a then s a else s j) = s := by funext j; by_cases h : j = a <;> simp [h]
      by_cases hb : s a > 1 + 1 / 1000 ∨ s a < -(1 / 1000)
      · right
        have ho : s a > 1 ∨ s a < 0 := by
          rcases hb with hb | hb
          · left; have : (0 : K) < 1 / 1000 := by positivity
            linarith
          · right; have : (0 : K) < 1 / 1000 := by positivity
            linarith
        refine ⟨⟨a, List.mem_cons_self, hb.symm⟩, ?_⟩
        unfold clampLoop clampCell
        rw [if_pos ho, if_neg (by simp), if_pos hb]
      · have hcell : clampCell false (s a) = .ok (s a) := by
          unfold clampCell
          by_cases ho : s a > 1 ∨ s a < 0
          · rw [if_pos ho, if_neg (by simp), if_neg hb]
          · rw [if_neg ho]
        unfold clampLoop
        simp only [hcell, hs]
        rw [not_or, not_lt, not_lt] at hb
        rcases ih with ⟨h1, h2⟩ | ⟨⟨i, hi, h1⟩, h2⟩
        · left
          refine ⟨?_, h2⟩
          intro i hi
          rw [List.mem_cons] at hi
          rcases hi with rfl | hi
          · exact ⟨hb.2, hb.1⟩
          · exact h1 i hi
        · right
          exact ⟨⟨i, List.mem_cons_of_mem _ hi, h1⟩, h2⟩
  have k := key (List.range n)
  simp only [List.mem_range] at k
  unfold checkAndClamp
  rcases k with ⟨h1, h2⟩ | ⟨⟨i, hi, h1⟩, h2⟩
  · rw [h2]
    refine ⟨⟨fun _ => h1, fun _ => rfl⟩, ⟨fun h => by simp at h, ?_⟩⟩
    rintro ⟨i, hi, h⟩
    have := h1 i hi
    rcases h with h | h
    · exact absurd this.1 (not_le.2 h)
    · exact absurd this.2 (not_le.2 h)
  · rw [h2]
    refine ⟨⟨fun h => by simp at h, fun h => ?_⟩, ⟨fun _ => ⟨i, hi, h1⟩, fun _ => rfl⟩⟩
    have := h i hi
    rcases h1 with h1 | h1
    · exact absurd this.1 (not_le.2 h1)
    · exact absurd this.2 (not_le.2 h1)

/-- **C13** A small step that returns normally with clamping on leaves all saturations in `[0,1]`; with checking on (and clamping off) in
`[-0.001, 1.001]`. -/
theorem C13_step (E : Solver K M) (dt : K) (sat s' : Nat → K) (h : smallTimeStep E dt sat = ⟨s', none⟩) :
    (E.clampSat = true → ∀ i < E.setup.grid.length, 0 ≤ s' i ∧ s' i ≤ 1) ∧
    (E.clampSat = false → E.checkSat = true → ∀ i < E.setup.grid.length, -(1 / 1000) ≤ s' i ∧ s' i ≤ 1 + 1 / 1000) := by
  unfold smallTimeStep at h
  cases hr : computeResidual E.setup E.iters sat with
  | error e => simp [hr] at h
  | ok res =>
    simp only [hr] at h
    cases hu : updateSat E.porevol dt res (List.range E.setup.grid.length) sat with
    | mk s e =>
      cases e with
      | some e => simp [hu] at h
      | none =>
        simp only [hu] at h
        constructor
        · intro hc i hi
          rw [hc, Bool.or_true, if_pos rfl] at h
          have := (C13_clamp E.setup.grid.length s).2 i hi
          rw [h] at this
          exact ⟨this.1, this.2.1⟩
        · intro hc hk i hi
          rw [hc, hk, Bool.or_false, if_pos rfl] at h
          obtain ⟨h1, h2, _⟩ := C13_noclamp E.setup.grid.length s
          rw [h] at h1 h2
          rw [show s' = s from h1]
          exact h2.1 rfl i hi

/-! ### C10: the partner of a periodic face -/

/-- `f` is face number `lf` of cell `c`, on the boundary with id `bid`, and that id has a periodic condition. -/
def IsPeriodicFace (g : Grid K) (b : BCs K) (bid c lf : Nat) (f : Face K) : Prop :=
  (∃ cell, g[c]? = some cell ∧ cell.faces[lf]? = some f) ∧ f.kind = .boundary bid ∧ b.cond bid = .periodic

theorem mem_periodicEntries (g : Grid K) (b : BCs K) (bid c lf : Nat) (f : Face K) :
    (bid, (c, lf, f)) ∈ periodicEntries g b ↔ IsPeriodicFace g b bid c lf f := by
  unfold periodicEntries allFaces IsPeriodicFace
  rw [List.mem_filterMap]
  constructor
  · rintro ⟨⟨c', lf', f'⟩, hm, he⟩
    rw [List.mem_flatMap] at hm
    obtain ⟨⟨cell, c2⟩, hc, hm⟩ := hm
    rw [List.mem_map] at hm
    obtain ⟨⟨f2, lf2⟩, hf, hm⟩ := hm
    simp only [Prod.mk.injEq] at hm
    obtain ⟨rfl, rfl, rfl⟩ := hm
    cases hk : f2.kind with
    | interior nb => simp [hk] at he
    | boundary bid' =>
      simp only [hk] at he
      split at he
      · rename_i hp
        simp only [Option.some.injEq, Prod.mk.injEq] at he
        obtain ⟨rfl, rfl, rfl, rfl⟩ := he
        refine ⟨⟨cell, ?_, ?_⟩, hk, ?_⟩
        · exact List.mem_zipIdx_iff_getElem?.1 hc
        · exact List.mem_zipIdx_iff_getElem?.1 hf
        · unfold BCs.isPeriodic at hp
          cases hb : b.cond bid' with
          | periodic => rfl
          | dirichlet s => simp [hb] at hp
      · cases he
  · rintro ⟨⟨cell, hc, hf⟩, hk, hb⟩
    refine ⟨(c, lf, f), ?_, ?_⟩
    · rw [List.mem_flatMap]
      refine ⟨(cell, c), List.mem_zipIdx_iff_getElem?.2 hc, ?_⟩
      rw [List.mem_map]
      exact ⟨(f, lf), List.mem_zipIdx_iff_getElem?.2 hf, rfl⟩
    · simp only [hk]
      have : b.isPeriodic bid = true := by unfold BCs.isPeriodic; rw [hb]
      rw [if_pos this]

/-- **C10** The face looked up as the other side of a periodic connection carries the id that was looked up, and it is found whenever
some face carries it; it is determined when the id is unique. -/
theorem C10_partner_face (g : Grid K) (b : BCs K) (bid : Nat) :
    (∀ c lf f, bidToFace g b bid = some (c, lf, f) → IsPeriodicFace g b bid c lf f) ∧
    (∀ c lf f, IsPeriodicFace g b bid c lf f → (bidToFace g b bid).isSome) := by
  unfold bidToFace
  constructor
  · intro c lf f h
    rw [← mem_periodicEntries]
    rw [List.lookup_eq_some_iff] at h
    obtain ⟨l1, l2, h, _⟩ := h
    rw [← List.mem_reverse, h]
    simp
  · intro c lf f h
    rw [← mem_periodicEntries, ← List.mem_reverse] at h
    rw [Option.isSome_iff_ne_none, Ne, List.lookup_eq_none_iff]
    intro hn
    have := hn _ h
    simp at this

example : IsPeriodicFace exRing.grid exRing.bcs 2 1 1 (exFace (.boundary 2) 1) ∧
    (bidToFace exRing.grid exRing.bcs (exRing.bcs.partner 1)).map (fun e => (e.1, e.2.1)) = some (1, 1) :=
  ⟨⟨⟨_, rfl, rfl⟩, rfl, rfl⟩, by decide +kernel⟩

/-! ### C59: upstream weighting -/

/-- **C59** With scalar mobilities and no gravity or capillary term, the water flux through a face is the total flux times the
fractional flow of the cell (or boundary value) the flux comes from, evaluated with that cell's mobility curves. -/
theorem C59_upstream (S : Setup K K) (hg : S.rock.deltaRho = 0 ∨ S.gravity = 0) (ho : S.ops = scalarMob)
    (hm : S.method = ⟨true, false, false⟩) (sat : Nat → K) (c : Nat) (f : Face K) (o : Other K)
    (hn : inner f.normal f.normal = 1)
    (hp : ∀ c s, S.rock.mob false c s + S.rock.mob true c s ≠ 0) :
    waterFlux S sat c f o = .ok (if 0 ≤ f.flux then f.flux * fw S c (sat c) else f.flux * fw S o.cell o.sat) := by
  rw [waterFlux_viscous S hg ho hm sat c f o hn]
  · split <;> rfl
  · split
    · exact hp _ _
    · exact hp _ _

example : waterFlux exRow exSat 0 (exFace (.interior 1) 1) ⟨1, 1 / 4, exFace (.interior 1) 1⟩ = .ok (1 / 2) ∧
    waterFlux exRow exSat 0 (exFace (.interior 1) (-1)) ⟨1, 1 / 4, exFace (.interior 1) 1⟩ = .ok (-1 / 4) := by
  decide +kernel

/-- **C59** Capillary flux alone, scalar mobilities, through an interior or periodic face: `|A| λw λo / (λw + λo)` with mobilities averaged over the two cells at the mean
saturation, times the normal component of the mean permeability applied to the difference of capillary pressure over the distance of the cell centres via the face
centres, in their direction. -/
theorem C59_capillary (S : Setup K K) (ho : S.ops = scalarMob) (hm : S.method = ⟨false, false, true⟩) (sat : Nat → K) (c : Nat) (f : Face K) (o : Other K)
    (cc nb : Cell K) (hc : S.grid[c]? = some cc) (hn : S.grid[o.cell]? = some nb) (hb : ∀ bid s, f.kind = .boundary bid → S.bcs.cond bid ≠ .dirichlet s)
    (aw ao d r : K) (haw : aw = (1 / 2) * (S.rock.mob false c ((sat c + o.sat) / 2) + S.rock.mob false o.cell ((sat c + o.sat) / 2)))
    (hao : ao = (1 / 2) * (S.rock.mob true c ((sat c + o.sat) / 2) + S.rock.mob true o.cell ((sat c + o.sat) / 2)))
    (hd : d = S.norm (fun i => cc.centroid i - f.centroid i) + S.norm (fun i => nb.centroid i - o.nbFace.centroid i))
    (hr : r = S.norm (fun i => nb.centroid i - o.nbFace.centroid i + f.centroid i - cc.centroid i)) (ha0 : aw + ao ≠ 0) (hd0 : d ≠ 0) (hr0 : r ≠ 0) :
    waterFlux S sat c f o = .ok (f.area * (aw * ao / (aw + ao)) * ((S.rock.capPress o.cell (sat o.cell) - S.rock.capPress c (sat c)) / d) *
      ∑ i, f.normal i * ∑ j, (S.rock.perm c i j + S.rock.perm o.cell i j) / 2 *
        ((nb.centroid j - o.nbFace.centroid j + f.centroid j - cc.centroid j) / r)) := by
  have hg : capGradient S sat c f o = .ok (scale ((S.rock.capPress o.cell (sat o.cell) - S.rock.capPress c (sat c)) / d)
      (fun i => (nb.centroid i - o.nbFace.centroid i + f.centroid i - cc.centroid i) / r)) := by
    have hne : ¬ (d = 0 ∨ r = 0) := by
      rintro (h | h)
      · exact hd0 h
      · exact hr0 h
    unfold capGradient
    cases hk : f.kind with
    | interior n =>
      simp only [hc, hn, Bool.false_eq_true, if_false]
      rw [← hd, ← hr, if_neg hne]
    | boundary bid =>
      cases hcd : S.bcs.cond bid with
      | periodic =>
        simp only [hc, hn, BCs.isPeriodic, hcd, Bool.not_true, Bool.false_eq_true, if_false]
        rw [← hd, ← hr, if_neg hne]
      | dirichlet s => exact absurd hcd (hb bid s hk)
  unfold waterFlux
  rw [hm]
  simp only [optTerm, capTerm, Bool.false_eq_true, if_false, if_true, ho, scalarMob]
  rw [← haw, ← hao, hg]
  simp only [if_neg ha0, bind, Except.bind, pure, Except.pure]
  congr 1
  unfold inner scale matVec averMat
  rw [Finset.mul_sum, zero_add, zero_add, Finset.mul_sum]
  apply Finset.sum_congr rfl
  intro i _
  have e : ∑ j, (S.rock.perm c i j + S.rock.perm o.cell i j) / 2 * ((S.rock.capPress o.cell (sat o.cell) - S.rock.capPress c (sat c)) / d *
      ((nb.centroid j - o.nbFace.centroid j + f.centroid j - cc.centroid j) / r)) =
      (S.rock.capPress o.cell (sat o.cell) - S.rock.capPress c (sat c)) / d * ∑ j, (S.rock.perm c i j + S.rock.perm o.cell i j) / 2 *
        ((nb.centroid j - o.nbFace.centroid j + f.centroid j - cc.centroid j) / r) := by
    rw [Finset.mul_sum]
    apply Finset.sum_congr rfl
    intro j _
    ring
  rw [e]
  ring

/-- Two cells with capillary pressure `4 - 4 s` (saturations 1/2 and 1/4), centres at distance 1. -/
def exCap : Setup ℚ ℚ :=
  { exRow with
    rock := ⟨fun _ i j => if i = j then 1 else 0, fun p _ s => if p then 1 - s else s, fun _ s => s, fun _ s => 4 - 4 * s, 0⟩
    method := ⟨false, false, true⟩
    norm := fun v => |v 0| }

example : waterFlux exCap (fun c => if c = 0 then 1 / 2 else 1 / 4) 0 { exFace (.interior 1) 0 with centroid := ![1 / 2, 0, 0] }
    ⟨1, 1 / 4, { exFace (.interior 1) 0 with centroid := ![1 / 2, 0, 0] }⟩ = .ok (15 / 64) := by decide +kernel

/-- **C59** There is no capillary flux through a face of the outer boundary. -/
theorem C59_capillary_outer (S : Setup K K) (ho : S.ops = scalarMob) (hm : S.method = ⟨false, false, true⟩) (sat : Nat → K) (c : Nat) (f : Face K) (o : Other K)
    (bid : Nat) (s : K) (hk : f.kind = .boundary bid) (hb : S.bcs.cond bid = .dirichlet s)
    (ha : S.rock.mob false c ((sat c + o.sat) / 2) + S.rock.mob false o.cell ((sat c + o.sat) / 2) +
      (S.rock.mob true c ((sat c + o.sat) / 2) + S.rock.mob true o.cell ((sat c + o.sat) / 2)) ≠ 0) (h2 : (2 : K) ≠ 0) :
    waterFlux S sat c f o = .ok 0 := by
  have hg : capGradient S sat c f o = .ok (fun _ => 0) := by
    unfold capGradient
    simp only [hk, BCs.isPeriodic, hb, Bool.not_false, if_true]
  have ha0 : (1 / 2 : K) * (S.rock.mob false c ((sat c + o.sat) / 2) + S.rock.mob false o.cell ((sat c + o.sat) / 2)) +
      (1 / 2) * (S.rock.mob true c ((sat c + o.sat) / 2) + S.rock.mob true o.cell ((sat c + o.sat) / 2)) ≠ 0 := by
    rw [← mul_add]
    exact mul_ne_zero (one_div_ne_zero h2) ha
  unfold waterFlux
  rw [hm]
  simp only [optTerm, capTerm, Bool.false_eq_true, if_false, if_true, ho, scalarMob, hg, if_neg ha0, bind, Except.bind, pure, Except.pure]
  simp [inner, scale, matVec]

example : waterFlux exCap (fun _ => 1 / 2) 0 (exFace (.boundary 1) 1) ⟨0, 1, exFace (.boundary 1) 1⟩ = .ok 0 := by decide +kernel

/-! ### C58: disabling gravity -/

/-- **C58** (partial) With the gravity term disabled the water flux does not depend on the gravity vector, provided the phase densities
are equal. What is missing: the case of different densities, see `C58_violated`. -/
theorem C58_gravity_off_partial (S : Setup K K) (hd : S.rock.deltaRho = 0) (g : Vec K)
    (sat : Nat → K) (c : Nat) (f : Face K) (o : Other K) :
    waterFlux { S with gravity := g } sat c f o = waterFlux S sat c f o := by
  have h1 : ∀ c0 c1, gravInfluence { S with gravity := g } c0 c1 = gravInfluence S c0 c1 := by
    intro c0 c1
    rw [gravInfluence_zero S (Or.inl hd)]
    exact gravInfluence_zero { S with gravity := g } (Or.inl hd) c0 c1
  unfold waterFlux upstreamMobs gravTerm
  simp only [h1]
  rfl

/-- **C58** (violated) The gravity term is disabled, and still the gravity vector changes the flux: the upstream direction of the
second phase is chosen with the gravity influence regardless of the switch. -/
theorem C58_violated :
    ∃ (S : Setup ℚ ℚ) (g : Vec ℚ) (sat : Nat → ℚ) (f : Face ℚ) (o : Other ℚ), S.method.gravity = false ∧
      waterFlux { S with gravity := g } sat 0 f o ≠ waterFlux S sat 0 f o := by
  refine ⟨{ exRow with rock := { exRow.rock with deltaRho := 1 } }, fun _ => 100, fun i => if i = 0 then 1 / 2 else 1 / 4,
    exFace (.interior 1) 1, ⟨1, 1 / 4, exFace (.interior 1) 1⟩, rfl, by decide +kernel⟩

/-! ### C59 with gravity -/

/-- **C59** (partial) Scalar mobilities, viscous and gravity terms: if the total flux leaves the visited cell, the water and the oil mobility
are each taken from the cell the phase flows out of. What is missing: a total flux into the visited cell, see
`C59_violated_countercurrent`. -/
theorem C59_gravity_partial (S : Setup K K) (ho : S.ops = scalarMob) (hm : S.method = ⟨true, true, false⟩)
    (sat : Nat → K) (c : Nat) (f : Face K) (o : Other K) (hco : c ≠ o.cell) (hn : inner f.normal f.normal = 1)
    (hp : ∀ p c s, 0 < S.rock.mob p c s) (hq : 0 ≤ f.flux) :
    ∃ mw mo W, waterFlux S sat c f o = .ok W ∧
      W = mw / (mw + mo) * (f.flux + mo * (f.area * inner f.normal (gravInfluence S c o.cell))) ∧
      (0 < W → mw = S.rock.mob false c (sat c)) ∧ (W < 0 → mw = S.rock.mob false o.cell o.sat) ∧
      (0 < f.flux - W → mo = S.rock.mob true c (sat c)) ∧ (f.flux - W < 0 → mo = S.rock.mob true o.cell o.sat) := by
  set gi := gravInfluence S c o.cell with hgi
  set G := f.area * inner f.normal gi with hG
  have hsum : ∀ a : K, inner f.normal (scale a gi) = a * inner f.normal gi := by
    intro a; unfold inner scale; rw [Finset.mul_sum]; apply Finset.sum_congr rfl; intro i _; ring
  have key : ∀ mw mo : K, 0 < mw → 0 < mo → upstreamMobs S (sat c) c f o = (mw, mo) →
      waterFlux S sat c f o = .ok (mw / (mw + mo) * (f.flux + mo * G)) := by
    intro mw mo h1 h2 hu
    have hne : mw + mo ≠ 0 := (add_pos h1 h2).ne'
    unfold waterFlux
    rw [hu, hm]
    simp only [optTerm, viscTerm, gravTerm, ho, scalarMob, hne, if_false, bind, Except.bind, pure, Except.pure, hco, ne_eq,
      not_false_eq_true, if_true]
    simp only [Bool.false_eq_true, if_false, add_zero]
    congr 1
    have e1 : inner f.normal (scale mw (scale (1 / (mw + mo)) (scale f.flux f.normal))) = f.flux * (mw / (mw + mo)) := by
      have : inner f.normal (scale mw (scale (1 / (mw + mo)) (scale f.flux f.normal))) =
          (f.flux * (mw / (mw + mo))) * inner f.normal f.normal := by
        unfold inner scale; rw [Finset.mul_sum]; apply Finset.sum_congr rfl; intro i _; ring
      rw [this, hn, mul_one]
    have e2 : inner f.normal (scale mw (scale (1 / (mw + mo)) (scale mo gi))) = mw * mo / (mw + mo) * inner f.normal gi := by
      unfold inner scale; rw [Finset.mul_sum]; apply Finset.sum_congr rfl; intro i _; ring
    rw [e1, ← hgi, e2, hG]
    ring
  have hq' : decide (¬ 0 ≤ f.flux) = false := by simpa using hq
  by_cases hGs : 0 ≤ G
  · -- water is the trivial phase
    set mw := S.rock.mob false c (sat c) with hmw
    have hmwp : 0 < mw := hp _ _ _
    by_cases hN : 0 ≤ f.flux - mw * G
    · set mo := S.rock.mob true c (sat c) with hmo
      have hmop : 0 < mo := hp _ _ _
      have hu : upstreamMobs S (sat c) c f o = (mw, mo) := by
        unfold upstreamMobs
        rw [hm, ho]
        simp only [← hgi, ← hG, hGs, hq', if_true, scalarMob, hsum, not_true_eq_false, decide_false, Bool.false_eq_true, if_false, Bool.not_false]
        have : (0 : K) ≤ f.flux + -1 * f.area * (mw * inner f.normal gi) := by rw [hG] at hN; linarith
        have this' : ¬ f.flux < f.area * (mw * inner f.normal gi) := not_lt.2 (by linarith)
        simp [← hmw, this', ← hmo]
      refine ⟨mw, mo, _, key mw mo hmwp hmop hu, rfl, fun _ => rfl, ?_, fun _ => rfl, ?_⟩
      · intro h
        exfalso
        have h1 : 0 ≤ mw / (mw + mo) := by positivity
        have h2 : 0 ≤ f.flux + mo * G := by positivity
        linarith [mul_nonneg h1 h2]
      · intro h
        exfalso
        have h1 : f.flux - mw / (mw + mo) * (f.flux + mo * G) = mo / (mw + mo) * (f.flux - mw * G) := by
          field_simp; ring
        rw [h1] at h
        have h2 : 0 ≤ mo / (mw + mo) := by positivity
        linarith [mul_nonneg h2 hN]
    · set mo := S.rock.mob true o.cell o.sat with hmo
      have hmop : 0 < mo := hp _ _ _
      have hu : upstreamMobs S (sat c) c f o = (mw, mo) := by
        unfold upstreamMobs
        rw [hm, ho]
        simp only [← hgi, ← hG, hGs, hq', if_true, scalarMob, hsum, not_true_eq_false, decide_false, Bool.false_eq_true, if_false, Bool.not_false]
        have : ¬ (0 : K) ≤ f.flux + -1 * f.area * (mw * inner f.normal gi) := by rw [hG] at hN; intro h; apply hN; linarith
        rw [not_le] at this
        have this' : f.flux < f.area * (mw * inner f.normal gi) := by linarith
        simp [← hmw, this', ← hmo]
      refine ⟨mw, mo, _, key mw mo hmwp hmop hu, rfl, fun _ => rfl, ?_, ?_, fun _ => rfl⟩
      · intro h
        exfalso
        have h1 : 0 ≤ mw / (mw + mo) := by positivity
        have h2 : 0 ≤ f.flux + mo * G := by positivity
        linarith [mul_nonneg h1 h2]
      · intro h
        exfalso
        have h1 : f.flux - mw / (mw + mo) * (f.flux + mo * G) = mo / (mw + mo) * (f.flux - mw * G) := by
          field_simp; ring
        rw [h1] at h
        have h2 : 0 < mo / (mw + mo) := by positivity
        have := (pos_iff_pos_of_mul_pos h).1 h2
        linarith
  · -- oil is the trivial phase
    set mo := S.rock.mob true c (sat c) with hmo
    have hmop : 0 < mo := hp _ _ _
    rw [not_le] at hGs
    have hGs' : ¬ 0 ≤ G := not_le.2 hGs
    by_cases hN : 0 ≤ f.flux + mo * G
    · set mw := S.rock.mob false c (sat c) with hmw
      have hmwp : 0 < mw := hp _ _ _
      have hu : upstreamMobs S (sat c) c f o = (mw, mo) := by
        unfold upstreamMobs
        rw [hm, ho]
        simp only [← hgi, ← hG, hGs', hq', if_true, scalarMob, hsum, not_false_eq_true, decide_true, Bool.false_eq_true, if_false, Bool.not_true]
        have : (0 : K) ≤ f.flux + 1 * f.area * (mo * inner f.normal gi) := by rw [hG] at hN; linarith
        have this' : ¬ f.flux + f.area * (mo * inner f.normal gi) < 0 := not_lt.2 (by linarith)
        simp [← hmo, this', ← hmw]
      refine ⟨mw, mo, _, key mw mo hmwp hmop hu, rfl, fun _ => rfl, ?_, fun _ => rfl, ?_⟩
      · intro h
        exfalso
        have h1 : 0 ≤ mw / (mw + mo) := by positivity
        linarith [mul_nonneg h1 hN]
      · intro h
        exfalso
        have h1 : f.flux - mw / (mw + mo) * (f.flux + mo * G) = mo / (mw + mo) * (f.flux - mw * G) := by
          field_simp; ring
        rw [h1] at h
        have h2 : 0 ≤ mo / (mw + mo) := by positivity
        have h3 : 0 ≤ f.flux - mw * G := by nlinarith
        linarith [mul_nonneg h2 h3]
    · set mw := S.rock.mob false o.cell o.sat with hmw
      have hmwp : 0 < mw := hp _ _ _
      rw [not_le] at hN
      have hu : upstreamMobs S (sat c) c f o = (mw, mo) := by
        unfold upstreamMobs
        rw [hm, ho]
        simp only [← hgi, ← hG, hGs', hq', if_true, scalarMob, hsum, not_false_eq_true, decide_true, Bool.false_eq_true, if_false, Bool.not_true]
        have : f.flux + 1 * f.area * (mo * inner f.normal gi) < 0 := by rw [hG] at hN; linarith
        have this' : f.flux + f.area * (mo * inner f.normal gi) < 0 := by linarith
        simp [← hmo, this', ← hmw]
      refine ⟨mw, mo, _, key mw mo hmwp hmop hu, rfl, ?_, fun _ => rfl, fun _ => rfl, ?_⟩
      · intro h
        exfalso
        have h1 : 0 < mw / (mw + mo) := by positivity
        have := (pos_iff_pos_of_mul_pos h).1 h1
        linarith
      · intro h
        exfalso
        have h1 : f.flux - mw / (mw + mo) * (f.flux + mo * G) = mo / (mw + mo) * (f.flux - mw * G) := by
          field_simp; ring
        rw [h1] at h
        have h2 : 0 ≤ mo / (mw + mo) := by positivity
        have h3 : 0 ≤ f.flux - mw * G := by nlinarith
        linarith [mul_nonneg h2 h3]

/-- Two cells with positive mobilities, water in the first cell and mostly oil in the second, and gravity along the face normal. -/
def exGrav : Setup ℚ ℚ :=
  { exRow with
    rock := ⟨fun _ _ _ => 1, fun p _ s => if p then 2 - s else 1 + s, fun _ s => s, fun _ _ => 0, 1⟩
    gravity := ![10, 0, 0]
    method := ⟨true, true, false⟩ }

example : inner (exFace (.interior 1) 1).normal (exFace (.interior 1) 1).normal = 1 ∧
    waterFlux exGrav (fun i => if i = 0 then 1 else 0) 0 (exFace (.interior 1) 1) ⟨1, 0, exFace (.interior 1) 1⟩ = .ok (21 / 2) := by
  decide +kernel

/-- **C59** (violated) Countercurrent flow with the total flux into the visited cell: the water flows out of cell 0 (its flux is positive), but its
mobility is that of cell 1. -/
theorem C59_violated_countercurrent :
    ∃ (S : Setup ℚ ℚ) (sat : Nat → ℚ) (f : Face ℚ) (o : Other ℚ) (W : ℚ), S.method = ⟨true, true, false⟩ ∧
      inner f.normal f.normal = 1 ∧ o.sat = sat o.cell ∧ waterFlux S sat 0 f o = .ok W ∧ 0 < W ∧
      (upstreamMobs S (sat 0) 0 f o).1 = S.rock.mob false o.cell o.sat ∧
      (upstreamMobs S (sat 0) 0 f o).1 ≠ S.rock.mob false 0 (sat 0) :=
  ⟨exGrav, fun i => if i = 0 then 1 else 0, exFace (.interior 1) (-1), ⟨1, 0, exFace (.interior 1) (-1)⟩, 19 / 3, rfl, by decide +kernel, rfl,
    by decide +kernel, by decide +kernel, by decide +kernel, by decide +kernel⟩

/-- **C59** (violated) Consequently the flux through a face depends on which of its two cells has the lower number: seen from the other
cell the water flux is not the opposite one. -/
theorem C59_violated_orientation :
    ∃ (S : Setup ℚ ℚ) (sat : Nat → ℚ) (f f' : Face ℚ) (W W' : ℚ), f'.normal = (fun i => - f.normal i) ∧ f'.area = f.area ∧ f'.flux = - f.flux ∧
      waterFlux S sat 0 f ⟨1, sat 1, f'⟩ = .ok W ∧ waterFlux S sat 1 f' ⟨0, sat 0, f⟩ = .ok W' ∧ W' ≠ - W :=
  ⟨exGrav, fun i => if i = 0 then 1 else 0, exFace (.interior 1) (-1), { exFace (.interior 0) 1 with normal := fun i => - (exFace (.interior 0) 1).normal i },
    19 / 3, -19 / 2, rfl, rfl, by decide +kernel, by decide +kernel, by decide +kernel, by decide +kernel⟩

/-! ### C14 -/

/-- **C14** The velocity time-step limit is at most (factor × pore volume) / max(total inflow, total outflow) for every cell with a flux,
and is attained by some cell unless it is the initial bound. -/
theorem C14_limit (big factor : K) (poro : Nat → K) (g : Grid K) (dt : K) (h : cflVelocity big factor poro g = .ok dt) :
    (∀ c, ∀ cell, g[c]? = some cell → max (totalIn g c) (totalOut g c) ≠ 0 →
      dt ≤ factor * (cell.volume * poro c) / max (totalIn g c) (totalOut g c)) ∧
    dt ≤ big ∧
    (dt = big ∨ ∃ c cell, g[c]? = some cell ∧ max (totalIn g c) (totalOut g c) ≠ 0 ∧
      dt = factor * (cell.volume * poro c) / max (totalIn g c) (totalOut g c)) := by
  have hm : ∀ (c : Nat) (cell : Cell K), g[c]? = some cell → maxFlux cell.faces = max (totalIn g c) (totalOut g c) := by
    intro c cell hc
    unfold maxFlux totalIn totalOut facesOf
    rw [fluxPN_eq, hc]
  obtain ⟨h1, h2, h3⟩ := cflVelocity_fold factor poro _ big dt h
  refine ⟨?_, h1, ?_⟩
  · intro c cell hc hne
    have := h2 (cell, c) (by rw [List.mem_zipIdx_iff_getElem?]; simpa using hc)
    simp only [hm c cell hc] at this
    rw [← mul_assoc]
    exact this hne
  · rcases h3 with h3 | ⟨⟨cell, c⟩, hc, hne, hd⟩
    · exact Or.inl h3
    · right
      rw [List.mem_zipIdx_iff_getElem?] at hc
      simp only at hc hne hd
      have hc' : g[c]? = some cell := by simpa using hc
      rw [hm c cell hc'] at hne hd
      exact ⟨c, cell, hc', hne, by rw [hd, mul_assoc]⟩

example : cflVelocity (100 : ℚ) 1 (fun _ => 1 / 2) exRow.grid = .ok (1 / 2) := by decide +kernel

/-- **C14** Maximum principle. Viscous transport with scalar non-negative mobilities; fractional flow going from 0 to 1 with slopes at
most `1/factor` at the ends; divergence-free fluxes seen consistently from both sides of each connection; no sources; pore
volumes positive; time step within the velocity limit. Then the step succeeds and all saturations stay in `[0,1]`. -/
theorem C14_maximum_principle (E : Solver K K) (k : Nat) (big factor dt limit : K) (poro : Nat → K) (sat : Nat → K)
    (hn : 0 < E.setup.grid.length) (hit : E.iters = itersAfter E.setup.grid.length (k + 1))
    (hv : Viscous E.setup) (hg : GoodMob E.setup) (hc : Connected E.setup) (hr : InRange E.setup sat)
    (hcons : Consistent E.setup) (hsrc : ∀ c, E.setup.rate c = 0)
    (hdiv : ∀ i < E.setup.grid.length, ((facesOf E.setup.grid i).map (·.flux)).sum = 0)
    (hpv : E.porevol = E.setup.grid.zipIdx.map fun c => c.1.volume * poro c.2)
    (hpos : ∀ p ∈ E.porevol, 0 < p)
    (hfac : 0 < factor)
    (hlow : ∀ c s, 0 ≤ s → s ≤ 1 → fw E.setup c s ≤ s / factor)
    (hup : ∀ c s, 0 ≤ s → s ≤ 1 → 1 - fw E.setup c s ≤ (1 - s) / factor)
    (hlim : cflVelocity big factor poro E.setup.grid = .ok limit) (hdt0 : 0 ≤ dt) (hdt : dt ≤ limit) :
    (smallTimeStep E dt sat).err = none ∧
      ∀ i < E.setup.grid.length, 0 ≤ (smallTimeStep E dt sat).val i ∧ (smallTimeStep E dt sat).val i ≤ 1 := by
  obtain ⟨res, hres⟩ := computeResidual_ok E.setup hv hg sat hc hr k hn
  have hpvi : ∀ (i : Nat) (cell : Cell K), E.setup.grid[i]? = some cell → E.porevol[i]? = some (cell.volume * poro i) := by
    intro i cell hcell
    rw [hpv, List.getElem?_map, List.getElem?_zipIdx, hcell]
    simp
  have hue : (updateSat E.porevol dt res (List.range E.setup.grid.length) sat).err = none := by
    apply updateSat_ok
    intro i hi
    rw [List.mem_range] at hi
    have h1 := hpvi i _ (List.getElem?_eq_getElem hi)
    exact ⟨_, h1, (hpos _ (List.mem_of_getElem? h1)).ne'⟩
  obtain ⟨s', hu⟩ : ∃ s', updateSat E.porevol dt res (List.range E.setup.grid.length) sat = ⟨s', none⟩ :=
    ⟨_, by rw [← hue]⟩
  have hsp := (updateSat_spec _ _ _ _ List.nodup_range _ _ hu).1
  have hrange : ∀ i < E.setup.grid.length, 0 ≤ s' i ∧ s' i ≤ 1 := by
    intro i hi
    obtain ⟨p, hp, hp0, hs⟩ := hsp i (List.mem_range.2 hi)
    have hcell := List.getElem?_eq_getElem hi
    have hpe : p = E.setup.grid[i].volume * poro i := by
      have := hpvi i _ hcell
      rw [hp] at this
      exact (Option.some.inj this)
    have hppos : 0 < p := hpos p (List.mem_of_getElem? hp)
    obtain ⟨hs0, hs1⟩ := hr.sat i hi
    obtain ⟨hf0, hf1⟩ := fw_range E.setup hg i (sat i) hs0 hs1
    have hri : res i = - ((facesOf E.setup.grid i).map fun f => f.flux * upFw E.setup sat i f).sum := by
      rw [residual_eq E.setup sat k hn res hres i hi]
      exact netInflow_viscous E.setup hv hg sat hc hr hcons hsrc i hi
    obtain ⟨b1, b2⟩ := flux_bounds E.setup hg sat hc hr i hi _ (fun _ h => h)
    rw [← hri] at b1 b2
    change - totalOut E.setup.grid i * _ ≤ _ at b1
    change _ ≤ - totalOut E.setup.grid i * _ + totalIn E.setup.grid i at b2
    have hio : totalIn E.setup.grid i = totalOut E.setup.grid i := by
      have hd := hdiv i hi
      have : ∀ l : List (Face K), (l.map (·.flux)).sum =
          ((l.filter fun f => 0 < f.flux).map (·.flux)).sum - ((l.filter fun f => ¬ 0 < f.flux).map (fun f => - f.flux)).sum := by
        intro l
        induction l with
        | nil => simp
        | cons f l ih =>
          rw [List.map_cons, List.sum_cons, ih]
          by_cases h : 0 < f.flux
          · rw [List.filter_cons_of_pos (by simp [h]), List.filter_cons_of_neg (by simp [h])]
            simp only [List.map_cons, List.sum_cons]; ring
          · rw [List.filter_cons_of_neg (by simp [h]), List.filter_cons_of_pos (by simp [h])]
            simp only [List.map_cons, List.sum_cons]; ring
      rw [this] at hd
      unfold totalIn totalOut
      linarith
    rw [hio] at b2
    set Q := totalOut E.setup.grid i with hQ
    have hQ0 : 0 ≤ Q := by
      apply List.sum_nonneg
      intro x hx
      rw [List.mem_map] at hx
      obtain ⟨f, hf, rfl⟩ := hx
      rw [List.mem_filter] at hf
      exact (of_decide_eq_true hf.2).le
    -- dt * Q ≤ factor * p
    have hdq : dt * Q ≤ factor * p := by
      rcases hQ0.lt_or_eq with h | h
      · have := (C14_limit big factor poro E.setup.grid limit hlim).1 i _ hcell
        rw [hio, max_self] at this
        have := this h.ne'
        rw [← hpe] at this
        have h2 := hdt.trans this
        rwa [le_div_iff₀ h] at h2
      · rw [← h, mul_zero]; positivity
    rw [hs]
    constructor
    · have h1 : dt * res i ≥ - (p * sat i) := by
        have : dt * res i ≥ dt * (- Q * fw E.setup i (sat i)) := mul_le_mul_of_nonneg_left b1 hdt0
        have h2 : dt * Q * fw E.setup i (sat i) ≤ factor * p * (sat i / factor) :=
          mul_le_mul hdq (hlow i _ hs0 hs1) hf0 (by positivity)
        have h3 : factor * p * (sat i / factor) = p * sat i := by field_simp
        rw [h3] at h2
        nlinarith
      have : dt * res i / p ≥ - sat i := by
        rw [ge_iff_le, le_div_iff₀ hppos]; linarith
      linarith
    · have h1 : dt * res i ≤ p * (1 - sat i) := by
        have : dt * res i ≤ dt * (- Q * fw E.setup i (sat i) + Q) := mul_le_mul_of_nonneg_left b2 hdt0
        have h2 : dt * Q * (1 - fw E.setup i (sat i)) ≤ factor * p * ((1 - sat i) / factor) :=
          mul_le_mul hdq (hup i _ hs0 hs1) (by linarith) (by positivity)
        have h3 : factor * p * ((1 - sat i) / factor) = p * (1 - sat i) := by field_simp
        rw [h3] at h2
        nlinarith
      have : dt * res i / p ≤ 1 - sat i := by
        rw [div_le_iff₀ hppos]; linarith
      linarith
  have hstep : smallTimeStep E dt sat = ⟨s', none⟩ ∨ ((smallTimeStep E dt sat) = checkAndClamp E.clampSat E.setup.grid.length s') := by
    unfold smallTimeStep
    rw [hit, hres]
    simp only [hu]
    by_cases h : (E.checkSat || E.clampSat) = true
    · rw [if_pos h]; exact Or.inr rfl
    · rw [if_neg h]; exact Or.inl rfl
  rcases hstep with h | h
  · rw [h]; exact ⟨rfl, hrange⟩
  · rw [h]
    cases hcl : E.clampSat with
    | true =>
      obtain ⟨c1, c2⟩ := C13_clamp E.setup.grid.length s'
      exact ⟨c1, fun i hi => ⟨(c2 i hi).1, (c2 i hi).2.1⟩⟩
    | false =>
      obtain ⟨c1, c2, _⟩ := C13_noclamp E.setup.grid.length s'
      refine ⟨c2.2 (fun i hi => ?_), ?_⟩
      · have := hrange i hi
        have h0 : (0 : K) < 1 / 1000 := by positivity
        constructor <;> linarith
      · rw [c1]; exact hrange

/-- The hypotheses of the maximum principle are met by the row of two cells with a step at the limit. -/
example : ∃ limit, cflVelocity (100 : ℚ) 1 (fun _ => 1) exSolver.setup.grid = .ok limit ∧
    ((smallTimeStep exSolver limit exSat).err = none ∧
      ∀ i < exSolver.setup.grid.length, 0 ≤ (smallTimeStep exSolver limit exSat).val i ∧ (smallTimeStep exSolver limit exSat).val i ≤ 1) := by
  refine ⟨1, by decide +kernel, C14_maximum_principle exSolver 0 100 1 1 1 (fun _ => 1) exSat (by decide) rfl
    exRow_viscous exRow_mob exRow_connected exRow_inRange exRow_consistent (fun _ => rfl) ?_ (by decide +kernel)
    (by decide +kernel) one_pos ?_ ?_ (by decide +kernel) (by norm_num) le_rfl⟩
  · intro i hi
    have : i = 0 ∨ i = 1 := by simp [exSolver, exRow] at hi; omega
    rcases this with rfl | rfl <;> decide +kernel
  · intro c s h0 h1
    simp [fw, exSolver, exRow]
  · intro c s h0 h1
    simp [fw, exSolver, exRow]

end Verif.Euler
