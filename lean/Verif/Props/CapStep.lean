import Verif.Spec.CapStep
import Verif.Props.Capillary
import Verif.Props.Transport
import Verif.Props.SolverControl
import Verif.Lemmas.Pattern

/-! C109: one step of the implicit capillarity solver. -/

namespace Verif.CapStep

open Verif.Hybrid Verif.Capillary Verif.CapStep.Spec

variable {K : Type} [Field K] [LinearOrder K] [IsStrictOrderedRing K] {nc : Nat}

/-! ### Capillary pressures of a closed domain without residual -/

/-- A cell without sources, gravity and prescribed data. -/
def Quiet (c : Cell K) : Prop :=
  c.src = 0 ∧ (∀ i, c.gflux i = 0) ∧ ∀ k, c.ext k = .interior ∨ (∃ q, c.ext k = .periodic 0 q) ∨ c.ext k = .neumann 0

omit [LinearOrder K] [IsStrictOrderedRing K] in
theorem quiet_g {c : Cell K} (h : Quiet c) : c.g = 0 := by
  unfold Cell.g
  rw [h.1, Finset.sum_eq_zero fun i _ => h.2.1 i, sub_zero]

omit [LinearOrder K] [IsStrictOrderedRing K] in
theorem quiet_rhs {c : Cell K} (h : Quiet c) (i : Fin c.nf) : c.rhs i = 0 := by
  unfold Cell.rhs
  rw [quiet_g h, h.2.1 i]
  have : extRhs (c.ext i) = 0 := by
    rcases h.2.2 i with e | ⟨q, e⟩ | e <;> rw [e] <;> rfl
  rw [this]
  simp

omit [LinearOrder K] [IsStrictOrderedRing K] in
theorem quiet_row {c : Cell K} (h : Quiet c) (r : Fin c.nf) (ii : Nat) (s : Sys K) (hs : ∀ d, s.rhs d = 0) :
    ∀ d, (addRow c r ii s).rhs d = 0 := by
  have key : ∀ (l : List (Fin c.nf)) (s : Sys K), (∀ d, s.rhs d = 0) → ∀ d, (l.foldl (addColumn c r ii) s).rhs d = 0 := by
    intro l
    induction l with
    | nil => exact fun s hs => hs
    | cons k l ih =>
      intro s hs
      rw [List.foldl_cons]
      refine ih _ fun d => ?_
      unfold addColumn
      rcases h.2.2 k with e | ⟨q, e⟩ | e
      · rw [e]; exact hs d
      · rw [e]
        simp only
        split
        · simp only [Sys.add, Sys.addRhs, mul_zero, neg_zero, add_zero, hs, ite_self]
        · exact hs d
      · rw [e]; exact hs d
  intro d
  unfold addRow
  simp only [Sys.addRhs, key _ s hs, quiet_rhs h, add_zero, ite_self]

omit [LinearOrder K] [IsStrictOrderedRing K] in
theorem quiet_assemble (cells : Fin nc → Cell K) (h : ∀ i, Quiet (cells i)) (d : Nat) : (assemble cells).rhs d = 0 := by
  have inner : ∀ i (l : List (Fin (cells i).nf)) (s : Sys K), (∀ d, s.rhs d = 0) →
      ∀ d, (l.foldl (faceStep (cells i)) s).rhs d = 0 := by
    intro i l
    induction l with
    | nil => exact fun s hs => hs
    | cons k l ih =>
      intro s hs
      rw [List.foldl_cons]
      refine ih _ fun d => ?_
      unfold faceStep
      rcases (h i).2.2 k with e | ⟨q, e⟩ | e
      · rw [e]; exact quiet_row (h i) _ _ _ hs d
      · rw [e]
        refine quiet_row (h i) _ _ _ (fun d => ?_) d
        simp only [addPeriodic, Sys.add, Sys.addRhs, mul_zero, neg_zero, add_zero, hs, ite_self]
      · rw [e]; exact quiet_row (h i) _ _ _ hs d
  have outer : ∀ (l : List (Fin nc)) (s : Sys K), (∀ d, s.rhs d = 0) →
      ∀ d, (l.foldl (fun s i => (List.finRange (cells i).nf).foldl (faceStep (cells i)) s) s).rhs d = 0 := by
    intro l
    induction l with
    | nil => exact fun s hs => hs
    | cons i l ih =>
      intro s hs
      rw [List.foldl_cons]
      exact ih _ (inner i _ s hs)
  exact outer _ _ (fun _ => rfl) d

/-- Without sources the pressure is the same in all cells. -/
theorem quiet_constant (cells : Fin nc → Cell K) (N : Nat) (hp : Posed cells N) (h : ∀ i, Quiet (cells i)) (x : Nat → K)
    (hx : Solves (linearSystem cells) N x) : ∃ t, ∀ i, (cells i).pressure x = t := by
  have hc : Compatible cells := by
    right
    rw [Finset.sum_eq_zero fun i _ => (h i).1]
    symm
    refine Finset.sum_eq_zero fun p _ => ?_
    unfold kind
    rcases (h p.1).2.2 p.2 with e | ⟨q, e⟩ | e <;> rw [e] <;> rfl
  have hx' := solves_assembled hp.consistent hp.elliptic hc x hx
  obtain ⟨⟨t, ht⟩, _⟩ := SolverControl.kernel ⟨nc, cells, N, 0, false, 0⟩ ⟨hp.consistent, hp.elliptic, hp.anchored, hp.two⟩ x
    fun d hd => by
      have := hx' d hd
      rw [quiet_assemble cells h] at this
      exact this
  refine ⟨t, fun i => ?_⟩
  have hL := (elliptic_L hp.elliptic i).ne'
  unfold Cell.pressure
  have hxt : ∀ j, x ((cells i).dof j) = t := fun j => ht _ (hp.consistent.num_lt ⟨i, j⟩)
  simp only [hxt]
  rw [← Finset.sum_mul, quiet_g (h i), zero_add]
  have : ∑ j, (cells i).F j = (cells i).L := rfl
  rw [this, mul_div_cancel_left₀ _ hL]

omit [IsStrictOrderedRing K] in
theorem capCells_quiet (cells : Fin nc → PCell K) (m : List K) (hc : Closed cells) (hr : ∀ i, (cells i).residual = 0) (i : Fin nc) :
    Quiet (capCells cells m i) := by
  refine ⟨by simp [capCells, capCell, hr], fun _ => rfl, fun k => ?_⟩
  change capExt ((cells i).ext k) = _ ∨ (∃ q, capExt ((cells i).ext k) = _) ∨ capExt ((cells i).ext k) = _
  rcases hc i k with e | ⟨d, q, e⟩ | e
  · rw [e]; exact .inl rfl
  · rw [e]; exact .inr (.inl ⟨q, rfl⟩)
  · rw [e]; exact .inr (.inr rfl)

/-- C109: in a closed or periodic domain, if viscous and gravity flow leave every cell in balance, the capillary pressure is the
same in all cells, whatever the pressure drops of the flow problem and the mobilities. -/
theorem C109_uniform (cells : Fin nc → PCell K) (m : List K) (N : Nat) (hp : Posed (capCells cells m) N)
    (hc : Closed cells) (hr : ∀ i, (cells i).residual = 0) (x : Nat → K) (hx : Solves (linearSystem (capCells cells m)) N x) :
    ∃ t, ∀ i, (capCells cells m i).pressure x = t :=
  quiet_constant _ N hp (capCells_quiet cells m hc hr) x hx

/-- C109: capillary flow makes up for the residual: what leaves a cell by capillary flow and the residual of the other flows cancel,
for any face pressures; and if the residuals cancel in sum, capillary flow is conservative over interior and periodic faces. -/
theorem C109_balance (cells : Fin nc → PCell K) (m : List K) (N : Nat) (hp : Posed (capCells cells m) N) (x : Nat → K) :
    (∀ i, ∑ k, (capCells cells m i).flux x k = -(cells i).residual) ∧
    (Closed cells → ∑ i, (cells i).residual = 0 → Solves (linearSystem (capCells cells m)) N x →
      (∀ p q : Pos (capCells cells m), p ≠ q → kind _ p = .interior → kind _ q = .interior →
        (∀ t, num (capCells cells m) t = num _ p ↔ t = p ∨ t = q) → outflux _ x p = -outflux _ x q) ∧
      (∀ (p q : Pos (capCells cells m)) (d : K), (cells p.1).ext p.2 = .periodic d (num _ q) → outflux _ x p = -outflux _ x q) ∧
      ∀ p : Pos (capCells cells m), (cells p.1).ext p.2 = .neumann 0 → (∀ t, num (capCells cells m) t = num _ p → t = p) →
        outflux _ x p = 0) := by
  constructor
  · intro i
    refine C37_balance _ ?_ x
    have := (elliptic_L hp.elliptic i).ne'
    unfold Cell.L Cell.F at this
    rw [Finset.sum_comm] at this
    simpa using this
  · intro hc hs hx
    have hcomp : Compatible (capCells cells m) := by
      right
      have : ∑ i, (capCells cells m i).src = 0 := by
        rw [← neg_zero, ← hs, ← Finset.sum_neg_distrib]
        rfl
      rw [this]
      symm
      refine Finset.sum_eq_zero fun p _ => ?_
      change prescribed (capExt ((cells p.1).ext p.2)) = 0
      rcases hc p.1 p.2 with e | ⟨d, q, e⟩ | e <;> rw [e] <;> rfl
    refine ⟨fun p q hpq h1 h2 h3 => C38_interior hp.consistent hp.elliptic hcomp x hx p q hpq h1 h2 h3, fun p q d h1 => ?_,
      fun p h1 h2 => ?_⟩
    · refine (C38_periodic hp.consistent hp.elliptic hcomp x hx p q 0 ?_).2
      change capExt ((cells p.1).ext p.2) = _
      rw [h1]
      rfl
    · refine C38_neumann hp.consistent hp.elliptic hcomp x hx p 0 ?_ h2
      change capExt ((cells p.1).ext p.2) = _
      rw [h1]
      rfl

/-! ### Equilibrium -/

theorem sum_eq_of_le {ι : Type} (l : List ι) (w a b : ι → K) (hw : ∀ i ∈ l, 0 < w i) (hab : ∀ i ∈ l, a i ≤ b i)
    (h : (l.map fun i => w i * a i).sum = (l.map fun i => w i * b i).sum) : ∀ i ∈ l, a i = b i := by
  induction l with
  | nil => simp
  | cons j l ih =>
    simp only [List.map_cons, List.sum_cons] at h
    have h1 := sum_le_map l (fun i => w i * a i) (fun i => w i * b i) fun i hi =>
      mul_le_mul_of_nonneg_left (hab i (by simp [hi])) (hw i (by simp [hi])).le
    have h2 := mul_le_mul_of_nonneg_left (hab j (by simp)) (hw j (by simp)).le
    intro i hi
    rcases List.mem_cons.mp hi with rfl | hi
    · exact mul_left_cancel₀ (hw i (by simp)).ne' (le_antisymm h2 (by linarith))
    · exact ih (fun i hi => hw i (by simp [hi])) (fun i hi => hab i (by simp [hi])) (le_antisymm h1 (by linarith)) i hi

/-- At a root of the matching function, a uniform capillary pressure reproduces a state of equilibrium. -/
theorem root_equilibrium {sq : K → K} (hsq : ∀ x, 0 ≤ sq x) {g : Grid K} (hidx : ∀ c, c < g.length → ∃ v, (c, v) ∈ g)
    {rp : RP K} (hd : rp.Decreasing) (hpor : Porous g rp.st.porosity) (hin : ∀ c ∈ g, c.1 < g.length) {sat : List K}
    (hlen : sat.length = g.length) (heq : Equilibrium sq rp sat) {v : K × K} (hv : poreSatVolumes g rp.st.porosity sat = some v)
    {t dp : K} {new : List K} (h : eval sq g rp (List.replicate g.length t) v.2 dp = some (0, new)) : new = sat := by
  obtain ⟨hne, h0, hl, hs⟩ := C53_value hv h
  obtain ⟨pc, hpc⟩ := heq
  have havg := sub_eq_zero.mp h0.symm
  unfold average at havg
  rw [div_left_inj' hne] at havg
  have hget : ∀ c, c < g.length → ∃ a b, new[c]? = some a ∧ sat[c]? = some b ∧ rp.satFrom sq c (t + dp) = some a ∧
      rp.satFrom sq c pc = some b := by
    intro c hc
    obtain ⟨p, s, h1, h2, h3⟩ := hs c hc
    rw [List.getElem?_replicate, if_pos hc] at h1
    obtain rfl := Option.some.inj h1
    have : sat[c]? = some (sat[c]'(by omega)) := List.getElem?_eq_getElem _
    exact ⟨s, _, h3, this, h2, hpc c _ this⟩
  have hpt : ∀ c ∈ g, new.getD c.1 0 = sat.getD c.1 0 := by
    rcases le_total (t + dp) pc with hle | hle
    · intro c hc
      symm
      refine sum_eq_of_le g (fun c => c.2 * rp.st.porosity.getD c.1 0) (fun c => sat.getD c.1 0) (fun c => new.getD c.1 0)
        hpor (fun c hc => ?_) havg.symm c hc
      obtain ⟨a, b, h1, h2, h3, h4⟩ := hget c.1 (hin c hc)
      rw [List.getD_eq_getElem?_getD, List.getD_eq_getElem?_getD, h1, h2]
      exact C52_monotone hsq hd hle h3 h4
    · refine sum_eq_of_le g (fun c => c.2 * rp.st.porosity.getD c.1 0) (fun c => new.getD c.1 0) (fun c => sat.getD c.1 0)
        hpor (fun c hc => ?_) havg
      obtain ⟨a, b, h1, h2, h3, h4⟩ := hget c.1 (hin c hc)
      rw [List.getD_eq_getElem?_getD, List.getD_eq_getElem?_getD, h1, h2]
      exact C52_monotone hsq hd hle h4 h3
  refine List.ext_getElem? fun c => ?_
  by_cases hc : c < g.length
  · obtain ⟨a, b, h1, h2, _, _⟩ := hget c hc
    obtain ⟨w, hw⟩ := hidx c hc
    have := hpt _ hw
    rw [List.getD_eq_getElem?_getD, List.getD_eq_getElem?_getD, h1, h2] at this
    rw [h1, h2]
    exact congrArg some this
  · rw [List.getElem?_eq_none (by omega), List.getElem?_eq_none (by omega)]

omit [LinearOrder K] [IsStrictOrderedRing K] in
theorem relax_same (relax : K) (sat : List K) :
    (sat.zipIdx.mapM fun a : K × Nat => (sat[a.2]?).map fun b => (1 - relax) * a.1 + relax * b) = some sat := by
  rw [Pattern.mapM_total _ _ (fun a : K × Nat => a.1)]
  · congr 1
    exact List.zipIdx_map_fst 0 sat
  · rintro ⟨a, i⟩ hm
    have hi : sat[i]? = some a := List.mem_zipIdx_iff_getElem?.mp hm
    simp only [hi, Option.map_some]
    congr 1
    ring

/-- C109: the capillary mobilities exist where some phase is mobile, one for each cell, and none is below 1e-10. -/
theorem C109_mobilities (cells : Fin nc → PCell K) (hmob : ∀ i, 0 < (cells i).mob.1 + (cells i).mob.2) :
    ∃ m, mobilities cells = some m ∧ m.length = nc ∧ ∀ i : Fin nc, 1 / 10 ^ 10 ≤ m.getD i 0 ∧
      m.getD i 0 = max ((cells i).mob.1 * (cells i).mob.2 / ((cells i).mob.1 + (cells i).mob.2)) (1 / 10 ^ 10) := by
  have h : mobilities cells = some ((List.finRange nc).map fun i =>
      max ((cells i).mob.1 * (cells i).mob.2 / ((cells i).mob.1 + (cells i).mob.2)) (1 / 10 ^ 10)) := by
    unfold mobilities
    refine Pattern.mapM_total _ _ _ fun i _ => ?_
    unfold capMobility
    rw [quot_ok (hmob i).ne', Option.map_some]
    congr 2
    field_simp
  refine ⟨_, h, by simp, fun i => ?_⟩
  have : ((List.finRange nc).map fun i =>
      max ((cells i).mob.1 * (cells i).mob.2 / ((cells i).mob.1 + (cells i).mob.2)) (1 / 10 ^ 10)).getD i 0 =
      max ((cells i).mob.1 * (cells i).mob.2 / ((cells i).mob.1 + (cells i).mob.2)) (1 / 10 ^ 10) := by
    rw [List.getD_eq_getElem?_getD, List.getElem?_eq_getElem (by simp), List.getElem_map, List.getElem_finRange]
    rfl
  rw [this]
  exact ⟨le_max_right _ _, rfl⟩

/-- C109: in a closed or periodic domain a state of capillary equilibrium with balanced viscous and gravity flow is a fixed
point: if the linear system is solved and the root finder ends in a root, the saturations are those before, for every relaxation
factor, with or without clamping, and nothing is thrown. (Missing: other boundary conditions, see `C109_violated_pressure`.) -/
theorem C109_fixed_partial {sq : K → K} (hsq : ∀ x, 0 ≤ sq x) (cells : Fin nc → PCell K) {g : Grid K} {rp : RP K} {m : List K}
    (hm : mobilities cells = some m) (N : Nat) (hp : Posed (capCells cells m) N)
    (hc : Closed cells) (hr : ∀ i, (cells i).residual = 0) (hg : g.length = nc)
    (hidx : ∀ c, c < g.length → ∃ v, (c, v) ∈ g) (hin : ∀ c ∈ g, c.1 < g.length)
    (hd : rp.Decreasing) (hpor : Porous g rp.st.porosity) {sat : List K} (hlen : sat.length = nc)
    (h01 : ∀ s ∈ sat, 0 ≤ s ∧ s ≤ 1) (heq : Equilibrium sq rp sat) (x : Nat → K)
    (hx : Solves (linearSystem (capCells cells m)) N x)
    (relax : K) (check clamp : Bool) (points : List K) (dp : K)
    (hroot : ∀ v, poreSatVolumes g rp.st.porosity sat = some v → ∃ new,
      eval sq g rp ((List.finRange nc).map fun i => (capCells cells m i).pressure x) v.2 dp = some (0, new))
    (hrun : (transportSolve sq cells g rp relax check clamp x (points ++ [dp]) sat).isSome) :
    ∃ r, transportSolve sq cells g rp relax check clamp x (points ++ [dp]) sat = some r ∧ r.err = none ∧
      ∀ i s, sat[i]? = some s → r.val i = s := by
  obtain ⟨t, ht⟩ := C109_uniform cells m N hp hc hr x hx
  have hcp : ((List.finRange nc).map fun i => (capCells cells m i).pressure x) = List.replicate g.length t := by
    rw [hg]
    refine List.eq_replicate_iff.mpr ⟨by simp, fun b hb => ?_⟩
    obtain ⟨i, _, rfl⟩ := List.mem_map.mp hb
    exact ht i
  unfold transportSolve at hrun ⊢
  rw [hm, Option.bind_some] at hrun ⊢
  rw [hcp] at hrun hroot ⊢
  unfold capillaryUpdate at hrun ⊢
  cases hl : lastSaturations sq g rp (List.replicate g.length t) sat (points ++ [dp]) with
  | none => rw [hl] at hrun; cases hrun
  | some new =>
    obtain ⟨v, y, hv, hy⟩ := last_eq hl
    obtain ⟨new', hnew⟩ := hroot v hv
    have e := hy.symm.trans hnew
    obtain ⟨rfl, rfl⟩ := Prod.mk.inj (Option.some.inj e)
    have hsame := root_equilibrium hsq hidx hd hpor hin (by omega) heq hv hnew
    subst hsame
    rw [Option.bind_some, relax_same, Option.map_some]
    refine ⟨_, rfl, ?_⟩
    have hget : ∀ i s, new[i]? = some s → new.getD i 0 = s := fun i s h => by
      rw [List.getD_eq_getElem?_getD, h]; rfl
    have hrange : ∀ i, i < new.length → 0 ≤ new.getD i 0 ∧ new.getD i 0 ≤ 1 := by
      intro i hi
      have := h01 _ (List.getElem_mem hi)
      rw [hget i _ (List.getElem?_eq_getElem hi)]
      exact this
    by_cases hcc : (check || clamp) = true
    · rw [if_pos hcc]
      cases clamp
      · obtain ⟨h1, h2, _⟩ := Euler.C13_noclamp new.length fun i => new.getD i 0
        refine ⟨h2.mpr fun i hi => ?_, fun i s h => ?_⟩
        · obtain ⟨a, b⟩ := hrange i hi
          have : (0 : K) < 1 / 1000 := by positivity
          constructor <;> linarith
        · rw [h1]; exact hget i s h
      · obtain ⟨h1, h2⟩ := Euler.C13_clamp new.length fun i => new.getD i 0
        refine ⟨h1, fun i s h => ?_⟩
        have hi := (List.getElem?_eq_some_iff.mp h).1
        obtain ⟨a, b⟩ := hrange i hi
        rw [(h2 i hi).2.2.1 a b]
        exact hget i s h
    · rw [if_neg hcc]
      exact ⟨rfl, fun i s h => hget i s h⟩

/-- C109: the result of a step: every saturation is the mean, weighted with the relaxation factor, of the old one and of the one
that belongs to the cell's capillary pressure, shifted as the root finder says; then cut to [0,1] if that is asked for, or else
checked against [-0.001, 1.001] if that is asked for. -/
theorem C109_result {sq : K → K} (cells : Fin nc → PCell K) {g : Grid K} {rp : RP K} {sat : List K} (hg : g.length = nc)
    (hlen : sat.length = nc) {x : Nat → K} {relax : K} {check clamp : Bool} {points : List K} {dp : K} {r : Euler.InPlace (Nat → K)}
    (h : transportSolve sq cells g rp relax check clamp x (points ++ [dp]) sat = some r) :
    ∃ (m : List K) (s : Nat → K), mobilities cells = some m ∧
      (∀ c : Fin nc, ∃ old new, sat[c.val]? = some old ∧ rp.satFrom sq c ((capCells cells m c).pressure x + dp) = some new ∧
        s c.val = (1 - relax) * old + relax * new) ∧
      (check = false → clamp = false → r.err = none ∧ ∀ c < nc, r.val c = s c) ∧
      (clamp = true → r.err = none ∧ ∀ c < nc, r.val c = max (min (s c) 1) 0) ∧
      (check = true → clamp = false → (∀ c < nc, r.val c = s c) ∧
        (r.err = none ↔ ∀ c < nc, -(1 / 1000) ≤ s c ∧ s c ≤ 1 + 1 / 1000)) := by
  unfold transportSolve at h
  obtain ⟨m, hm, h⟩ := Option.bind_eq_some_iff.mp h
  obtain ⟨s, hs, h⟩ := Option.map_eq_some_iff.mp h
  unfold capillaryUpdate at hs
  obtain ⟨new, hn, hs⟩ := Option.bind_eq_some_iff.mp hs
  obtain ⟨v, y, hv, hy⟩ := last_eq hn
  obtain ⟨_, _, hl, hnew⟩ := C53_value hv hy
  obtain ⟨hl', hget⟩ := mapM_get hs
  have hsl : s.length = nc := by rw [hl', List.length_zipIdx, hlen]
  refine ⟨m, fun i => s.getD i 0, hm, fun c => ?_, ?_, ?_, ?_⟩
  · obtain ⟨p, q, h1, h2, h3⟩ := hnew c (by omega)
    have hc : c.val < sat.length := by omega
    have hold : sat[c.val]? = some sat[c.val] := List.getElem?_eq_getElem hc
    have hz : sat.zipIdx[c.val]? = some (sat[c.val], c.val) := by
      rw [List.getElem?_zipIdx, hold]; simp
    have hp : p = (capCells cells m c).pressure x := by
      rw [List.getElem?_eq_getElem (by simp), List.getElem_map, List.getElem_finRange] at h1
      exact (Option.some.inj h1).symm
    obtain ⟨e1, _⟩ := hget c.val _ hz
    simp only [h3, Option.map_some] at e1
    refine ⟨sat[c.val], q, hold, by rw [← hp]; exact h2, ?_⟩
    beta_reduce
    rw [List.getD_eq_getElem?_getD, ← e1]
    rfl
  · rintro rfl rfl
    rw [if_neg (by simp)] at h
    subst h
    exact ⟨rfl, fun _ _ => rfl⟩
  · rintro rfl
    rw [if_pos (by simp)] at h
    subst h
    obtain ⟨h1, h2⟩ := Euler.C13_clamp s.length fun i => s.getD i 0
    refine ⟨h1, fun c hc => ?_⟩
    obtain ⟨a, b, e1, e2, e3⟩ := h2 c (by omega)
    beta_reduce
    rcases lt_trichotomy (s.getD c 0) 0 with hlt | heq | hgt
    · rw [e3 hlt, min_eq_left (by linarith), max_eq_right hlt.le]
    · rw [e1 heq.ge (by rw [heq]; exact zero_le_one), min_eq_left (by rw [heq]; exact zero_le_one), max_eq_left heq.ge]
    · by_cases h1 : s.getD c 0 ≤ 1
      · rw [e1 hgt.le h1, min_eq_left h1, max_eq_left hgt.le]
      · rw [e2 (not_le.mp h1), min_eq_right (not_le.mp h1).le, max_eq_left zero_le_one]
  · rintro rfl rfl
    rw [if_pos (by simp)] at h
    subst h
    obtain ⟨h1, h2, _⟩ := Euler.C13_noclamp s.length fun i => s.getD i 0
    rw [hsl] at h1 h2 ⊢
    exact ⟨fun c _ => by rw [h1], h2⟩

/-! ### Cases -/

/-- Two cells in a row with faces 0 (shared), 1 and 2, mobilities 1, and the given conditions at faces 1 and 2. -/
def row (a b : Ext ℚ) : Fin 2 → PCell ℚ :=
  ![⟨2, ![1, 0], ![![2, 0], ![0, 2]], ![a, .interior], (1, 1), 0⟩,
    ⟨2, ![0, 2], ![![2, 0], ![0, 2]], ![.interior, b], (1, 1), 0⟩]

/-- A rock with capillary pressure `1 - s` in both cells, with saturations from 1/10 to 9/10. -/
def rowRP : RP ℚ := { exRP with rocks := [{ exRock with scaling := false }] }

theorem rowRP_decreasing : rowRP.Decreasing := by
  intro r hr
  obtain rfl := List.mem_singleton.mp hr
  exact ⟨fun x y h => by simp only [exRock]; linarith, fun h => by simp at h⟩

theorem rowRP_porous : Porous exGrid rowRP.st.porosity := by unfold Porous; decide +kernel

theorem rowRP_equilibrium : Equilibrium (fun x : ℚ => |x|) rowRP [1/2, 1/2] := by
  refine ⟨1/2, fun c s h => ?_⟩
  match c with
  | 0 => obtain rfl := Option.some.inj h; decide +kernel
  | 1 => obtain rfl := Option.some.inj h; decide +kernel
  | c + 2 => simp at h

/-- Capillary mobilities do not harm definiteness. -/
theorem capCells_elliptic (cells : Fin nc → PCell K) (m : List K) (h2 : ∀ i, 2 ≤ (cells i).nf)
    (hs : ∀ i, Mimetic.Symm (cells i).Binv) (hd : ∀ i, Mimetic.PosDef (cells i).Binv) (hm : ∀ i : Fin nc, 0 < m.getD i 0) :
    Elliptic (capCells cells m) := by
  intro i
  refine ⟨h2 i, fun a b => ?_, fun v hv => ?_⟩
  · change m.getD i 0 * (cells i).Binv a b = m.getD i 0 * (cells i).Binv b a
    rw [hs i a b]
  · have := mul_pos (hm i) (hd i v hv)
    unfold Mimetic.quadForm at this ⊢
    rw [Finset.mul_sum] at this
    refine lt_of_lt_of_eq this (Finset.sum_congr rfl fun a _ => ?_)
    rw [Finset.mul_sum]
    refine Finset.sum_congr rfl fun b _ => ?_
    change _ = v a * (m.getD i 0 * (cells i).Binv a b) * v b
    ring

/-- The periodic row is a posed problem. -/
theorem row_posed : Posed (capCells (row (.periodic 4 2) (.periodic (-4) 1)) [1/2, 1/2]) 3 where
  consistent := consistent_of _ _ (by decide +kernel) (by decide +kernel) (by decide +kernel)
  elliptic := capCells_elliptic _ _ (by decide +kernel)
    (fun i => by fin_cases i <;> · unfold Mimetic.Symm; decide +kernel)
    (fun i => by fin_cases i <;> exact posdef_two 2 0 2 (by norm_num) (by norm_num)) (by decide +kernel)
  anchored := by
    set cs := capCells (row (.periodic 4 2) (.periodic (-4) 1)) [1/2, 1/2] with hcs
    refine ⟨by decide +kernel, fun p => ?_⟩
    have h0 : Linked cs ⟨0, (1 : Fin 2)⟩ ⟨0, (0 : Fin 2)⟩ := .cell (cells := cs) (i := 0) (0 : Fin 2) (.refl _)
    have h1 : Linked cs ⟨0, (1 : Fin 2)⟩ ⟨1, (1 : Fin 2)⟩ := .periodic h0 (r := ⟨1, (1 : Fin 2)⟩) (v := 0) rfl
    have h2 : Linked cs ⟨0, (1 : Fin 2)⟩ ⟨1, (0 : Fin 2)⟩ := .cell (cells := cs) (i := 1) (0 : Fin 2) h1
    refine .inr ⟨(reg_iff cs).mp (by decide +kernel), ⟨0, (1 : Fin 2)⟩, rfl, ?_⟩
    obtain ⟨i, r⟩ := p
    fin_cases i
    · change Fin 2 at r
      fin_cases r
      · exact h0
      · exact .refl _
    · change Fin 2 at r
      fin_cases r
      · exact h2
      · exact h1
  two := by decide

/-- The hypotheses hold: a periodic row with a pressure drop of 4, saturations 1/2, any face pressures that solve the system. -/
example : ∃ r, transportSolve (fun x : ℚ => |x|) (row (.periodic 4 2) (.periodic (-4) 1)) exGrid rowRP (1/3) true false
    (fun _ => 0) ([0, 1] ++ [1/2]) [1/2, 1/2] = some r ∧ r.err = none ∧ ∀ i s, [(1/2 : ℚ), 1/2][i]? = some s → r.val i = s := by
  refine C109_fixed_partial (fun x => abs_nonneg x) _ (m := [1/2, 1/2]) (by decide +kernel) 3 row_posed ?_ (by decide +kernel) rfl
    ?_ (by decide +kernel) rowRP_decreasing rowRP_porous rfl (by decide +kernel) rowRP_equilibrium (fun _ => 0)
    (by unfold Solves; decide +kernel) (1/3) true false [0, 1] (1/2) ?_ ?_
  · intro i k
    fin_cases i
    · change Fin 2 at k
      fin_cases k
      · exact .inr (.inl ⟨_, _, rfl⟩)
      · exact .inl rfl
    · change Fin 2 at k
      fin_cases k
      · exact .inl rfl
      · exact .inr (.inl ⟨_, _, rfl⟩)
  · intro c hc
    match c with
    | 0 => exact ⟨1, by decide +kernel⟩
    | 1 => exact ⟨2, by decide +kernel⟩
    | c + 2 => simp [exGrid] at hc
  · intro v hv
    have : poreSatVolumes exGrid rowRP.st.porosity [1/2, 1/2] = some (2/5, 1/5) := by decide +kernel
    rw [this] at hv
    obtain rfl := Option.some.inj hv
    exact ⟨[1/2, 1/2], by decide +kernel⟩
  · decide +kernel

/-- C109, violated: prescribed pressures of the flow problem are taken for prescribed capillary pressures. Between pressures 1 and 0 a
row in capillary equilibrium, without any residual, does not stay as it is, although the linear system is solved and the root is
exact. -/
theorem C109_violated_pressure :
    let cs := row (.dirichlet 1) (.dirichlet 0)
    let x : Nat → ℚ := fun n => [1/2, 1, 0].getD n 0
    mobilities cs = some [1/2, 1/2] ∧ Solves (linearSystem (capCells cs [1/2, 1/2])) 3 x ∧ (∀ i, (cs i).residual = 0) ∧
    Equilibrium (fun x : ℚ => |x|) rowRP [1/2, 1/2] ∧
    eval (fun x : ℚ => |x|) exGrid rowRP ((List.finRange 2).map fun i => (capCells cs [1/2, 1/2] i).pressure x) (1/5) 0 =
      some (0, [1/4, 3/4]) ∧
    (transportSolve (fun x : ℚ => |x|) cs exGrid rowRP 1 true false x [0] [1/2, 1/2]).map (fun r => (r.val 0, r.val 1)) =
      some (1/4, 3/4) := by
  refine ⟨by decide +kernel, by unfold Solves; decide +kernel, by decide +kernel, rowRP_equilibrium, by decide +kernel, by decide +kernel⟩

end Verif.CapStep
