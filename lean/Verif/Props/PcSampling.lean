import Verif.Spec.PcSampling
import Verif.Props.RelPerm
import Mathlib.Tactic.Linarith
import Mathlib.Tactic.Ring
import Mathlib.Tactic.NormNum
import Mathlib.Tactic.Positivity
import Mathlib.Data.List.Chain
import Mathlib.Data.Real.Basic
import Mathlib.Topology.UniformSpace.HeineCantor
import Mathlib.Topology.MetricSpace.Pseudo.Defs
import Mathlib.Topology.Order.Compact
import Mathlib.Topology.Algebra.Ring.Real
import Mathlib.Algebra.Order.Archimedean.Basic

/-!
C88: sampling the upscaled capillary pressure curve.
-/

namespace Verif.RelPerm

open Verif.Upscale

section

variable {K : Type} [Field K] [LinearOrder K] [IsStrictOrderedRing K]
variable {parts : K}

omit [IsStrictOrderedRing K] in
theorem addPair_mem (l : List (K × K)) (x w : K) : ∀ e ∈ addPair l x w, e = (x, w) ∨ e ∈ l := by
  induction l with
  | nil => intro e he; simp [addPair] at he; exact Or.inl he
  | cons a l ih =>
    intro e he
    unfold addPair at he
    split_ifs at he
    · rcases List.mem_cons.mp he with h | h
      · exact Or.inl h
      · exact Or.inr h
    · rcases List.mem_cons.mp he with h | h
      · exact Or.inl h
      · exact Or.inr (by simp [h])
    · rcases List.mem_cons.mp he with h | h
      · exact Or.inr (by simp [h])
      · rcases ih e h with h | h
        · exact Or.inl h
        · exact Or.inr (by simp [h])

omit [IsStrictOrderedRing K] in
theorem addPair_head (l : List (K × K)) (x w z : K) (hx : z < x) (hl : ∀ e ∈ l, z < e.1) : ∀ e ∈ addPair l x w, z < e.1 := by
  intro e he
  rcases addPair_mem l x w e he with rfl | h
  · exact hx
  · exact hl e h

omit [IsStrictOrderedRing K] in
theorem addPair_sorted (l : List (K × K)) (x w : K) (hl : l.Pairwise fun a b => a.1 < b.1) :
    (addPair l x w).Pairwise fun a b => a.1 < b.1 := by
  induction l with
  | nil => unfold addPair; simp
  | cons e l ih =>
    obtain ⟨h1, h2⟩ := List.pairwise_cons.mp hl
    unfold addPair
    split_ifs with ha hb
    · refine List.pairwise_cons.mpr ⟨fun b hb => ?_, hl⟩
      rcases List.mem_cons.mp hb with rfl | hb
      · exact ha
      · exact lt_trans ha (h1 b hb)
    · exact List.pairwise_cons.mpr ⟨fun b hb' => by change x < b.1; rw [hb]; exact h1 b hb', h2⟩
    · refine List.pairwise_cons.mpr ⟨addPair_head l x w e.1 ?_ h1, ih h2⟩
      exact lt_of_le_of_ne (not_lt.mp ha) (Ne.symm hb)

omit [IsStrictOrderedRing K] in
/-- **C88** (one value per pressure). At any time, whatever the test pressures are, the pressures of the table increase strictly. -/
theorem C88_increasing (sw : K → Option K) (missing : List (K × K) → K × K) (R : Range K) (n : Nat) (s : Samp K) (done : Bool)
    (h : sampRun parts sw missing R n (sampInit R) = some (s, done)) : s.table.Pairwise fun a b => a.1 < b.1 := by
  have key : ∀ n (s0 : Samp K), (s0.table.Pairwise fun a b => a.1 < b.1) → sampRun parts sw missing R n s0 = some (s, done) →
      s.table.Pairwise fun a b => a.1 < b.1 := by
    intro n
    induction n with
    | zero =>
      intro s0 h0 h
      obtain ⟨rfl, _⟩ := Prod.mk.inj (Option.some.inj h)
      exact h0
    | succ n ih =>
      intro s0 h0 h
      unfold sampRun at h
      split_ifs at h
      · obtain ⟨s1, h1, h⟩ := Option.bind_eq_some_iff.mp h
        obtain ⟨w, _, rfl⟩ := Option.map_eq_some_iff.mp h1
        exact ih _ (addPair_sorted _ _ _ h0) h
      · obtain ⟨rfl, _⟩ := Prod.mk.inj (Option.some.inj h)
        exact h0
  exact key n (sampInit R) List.Pairwise.nil h

/-- A run that tests the same pressure twice: the table has one entry for it. -/
example : (sampRun 500 (fun _ => some (1 : ℚ)) (fun _ => (0, 1)) ⟨0, 1, 0, 1⟩ 3 (sampInit ⟨0, 1, 0, 1⟩)).map (fun r => r.1.table) =
    some [(0, 1), (1, 1)] := by
  decide +kernel

omit [IsStrictOrderedRing K] in
/-- **C88** (soundness). At any time, each point of the table is a pressure and the upscaled saturation at this pressure. -/
theorem C88_sound (sw : K → Option K) (missing : List (K × K) → K × K) (R : Range K) (n : Nat) (s : Samp K) (done : Bool)
    (h : sampRun parts sw missing R n (sampInit R) = some (s, done)) : ∀ e ∈ s.table, sw e.1 = some e.2 := by
  have key : ∀ n (s0 : Samp K), (∀ e ∈ s0.table, sw e.1 = some e.2) → sampRun parts sw missing R n s0 = some (s, done) →
      ∀ e ∈ s.table, sw e.1 = some e.2 := by
    intro n
    induction n with
    | zero =>
      intro s0 h0 h
      obtain ⟨rfl, _⟩ := Prod.mk.inj (Option.some.inj h)
      exact h0
    | succ n ih =>
      intro s0 h0 h
      unfold sampRun at h
      split_ifs at h
      · obtain ⟨s1, h1, h⟩ := Option.bind_eq_some_iff.mp h
        refine ih s1 ?_ h
        obtain ⟨w, hw, rfl⟩ := Option.map_eq_some_iff.mp h1
        intro e he
        rcases addPair_mem _ _ _ e he with rfl | he
        · exact hw
        · exact h0 e he
      · obtain ⟨rfl, _⟩ := Prod.mk.inj (Option.some.inj h)
        exact h0
  exact key n _ (fun e he => by simp [sampInit] at he) h

omit [IsStrictOrderedRing K] in
theorem sorted_pairs (t : List (K × K)) : (∀ l₁ a b l₂, t = l₁ ++ a :: b :: l₂ → a.1 < b.1) ↔ t.IsChain (fun a b => a.1 < b.1) := by
  rw [List.isChain_iff_forall_rel_of_append_cons_cons]
  exact ⟨fun h a b l₁ l₂ e => h l₁ a b l₂ e, fun h l₁ a b l₂ e => h e⟩

omit [IsStrictOrderedRing K] in
theorem addPair_between (l₁ l₂ : List (K × K)) (a b : K × K) (x w : K) (hs : (l₁ ++ a :: b :: l₂).IsChain (fun a b => a.1 < b.1))
    (h1 : a.1 < x) (h2 : x < b.1) : addPair (l₁ ++ a :: b :: l₂) x w = l₁ ++ a :: (x, w) :: b :: l₂ := by
  induction l₁ with
  | nil =>
    change addPair (a :: b :: l₂) x w = _
    unfold addPair
    rw [if_neg (not_lt.mpr h1.le), if_neg h1.ne']
    unfold addPair
    rw [if_pos h2]; rfl
  | cons c l₁ ih =>
    have hlt : c.1 < x := by
      have hp : (c :: l₁ ++ a :: b :: l₂).Pairwise (fun a b => a.1 < b.1) :=
        haveI : IsTrans (K × K) (fun a b => a.1 < b.1) := ⟨fun _ _ _ h h' => lt_trans h h'⟩
        List.isChain_iff_pairwise.mp hs
      exact lt_trans ((List.pairwise_cons.mp hp).1 a (by simp)) h1
    change addPair (c :: (l₁ ++ a :: b :: l₂)) x w = _
    unfold addPair
    rw [if_neg (not_lt.mpr hlt.le), if_neg hlt.ne', ih hs.tail]
    rfl

/-- A step with at least two points: it splits the pair with the largest gap. -/
theorem step_split {sw : K → Option K} {missing : List (K × K) → K × K} (hm : Spec.Missing missing) {R : Range K} (hne : R.pcmax ≠ R.pcmin)
    {s s' : Samp K} (hc : Spec.Covers s.table R.pcmin R.pcmax) (h2 : 2 ≤ s.table.length) (h : sampStep sw missing R s = some s') :
    ∃ l₁ a b l₂ w, s.table = l₁ ++ a :: b :: l₂ ∧ a.1 < b.1 ∧ sw ((a.1 + b.1) / 2) = some w ∧
      s'.table = l₁ ++ a :: ((a.1 + b.1) / 2, w) :: b :: l₂ ∧ s'.interval = |b.2 - a.2| ∧
      (∀ m₁ c d m₂, s.table = m₁ ++ c :: d :: m₂ → |d.2 - c.2| ≤ s'.interval) ∧ Spec.Covers s'.table R.pcmin R.pcmax := by
  unfold sampStep sampNext at h
  rw [if_neg hne, if_neg (by omega), if_neg (by omega)] at h
  obtain ⟨w, hw, rfl⟩ := Option.map_eq_some_iff.mp h
  obtain ⟨l₁, a, b, l₂, e1, e2, e3, e4⟩ := hm s.table h2
  have hab := hc.1 l₁ a b l₂ e1
  have hchain := (sorted_pairs s.table).mp hc.1
  have hx1 : a.1 < (missing s.table).1 := by rw [e2]; linarith
  have hx2 : (missing s.table).1 < b.1 := by rw [e2]; linarith
  have hadd := addPair_between l₁ l₂ a b (missing s.table).1 w (e1 ▸ hchain) hx1 hx2
  have ht : addPair s.table (missing s.table).1 w = l₁ ++ a :: ((a.1 + b.1) / 2, w) :: b :: l₂ := by
    rw [← e1] at hadd
    rw [hadd, e2]
  refine ⟨l₁, a, b, l₂, w, e1, hab, e2 ▸ hw, ht, e3, e4, ?_⟩
  change Spec.Covers (addPair s.table (missing s.table).1 w) _ _
  rw [ht]
  rw [e1] at hchain
  have hch := List.isChain_append_cons_cons.mp hchain
  refine ⟨(sorted_pairs _).mpr (List.isChain_append_cons_cons.mpr ⟨hch.1, by simp only; linarith, List.isChain_cons_cons.mpr ⟨by simp only; linarith, hch.2.2⟩⟩), ?_, ?_⟩
  · obtain ⟨v, hv⟩ := hc.2.1
    refine ⟨v, ?_⟩
    rw [e1] at hv
    cases l₁ <;> simpa using hv
  · obtain ⟨v, hv⟩ := hc.2.2
    refine ⟨v, ?_⟩
    rw [e1] at hv
    rw [List.getLast?_append] at hv ⊢
    simpa [List.getLast?_cons] using hv

/-- The first two passes compute the end points. -/
theorem first_two {sw : K → Option K} (missing : List (K × K) → K × K) {R : Range K} (hp : R.pcmin < R.pcmax) (hs : R.swir < R.swor) (hN : 1 < parts)
    (n : Nat) (r : Samp K × Bool) (h : sampRun parts sw missing R (n + 2) (sampInit R) = some r) :
    ∃ w0 w1, sw R.pcmin = some w0 ∧ sw R.pcmax = some w1 ∧
      sampRun parts sw missing R n ⟨[(R.pcmin, w0), (R.pcmax, w1)], R.swor - R.swir⟩ = some r := by
  have hpos : R.swor - R.swir > (R.swor - R.swir) / parts := div_lt_self (sub_pos.mpr hs) hN
  unfold sampRun at h
  rw [if_pos (by exact hpos)] at h
  obtain ⟨s1, h1, h⟩ := Option.bind_eq_some_iff.mp h
  obtain ⟨w1, hw1, rfl⟩ := Option.map_eq_some_iff.mp h1
  simp only [sampNext, sampInit, if_neg hp.ne', List.length_nil, if_true] at hw1 h
  unfold sampRun at h
  rw [if_pos (by exact hpos)] at h
  obtain ⟨s2, h2, h⟩ := Option.bind_eq_some_iff.mp h
  obtain ⟨w0, hw0, rfl⟩ := Option.map_eq_some_iff.mp h2
  have e : sampNext missing R ⟨addPair [] R.pcmax w1, R.swor - R.swir⟩ = (R.pcmin, R.swor - R.swir) := by
    unfold sampNext
    rw [if_neg hp.ne', if_neg (by simp [addPair]), if_pos (by simp [addPair])]
  rw [e] at hw0 h
  refine ⟨w0, w1, hw0, hw1, ?_⟩
  have e2 : addPair (addPair [] R.pcmax w1) R.pcmin w0 = [(R.pcmin, w0), (R.pcmax, w1)] := by
    simp [addPair, hp]
  simpa [e2] using h

/-- The converse of `first_two`. -/
theorem first_two_run {sw : K → Option K} (missing : List (K × K) → K × K) {R : Range K} (hp : R.pcmin < R.pcmax) (hs : R.swir < R.swor) (hN : 1 < parts)
    {w0 w1 : K} (h0 : sw R.pcmin = some w0) (h1 : sw R.pcmax = some w1) (n : Nat) :
    sampRun parts sw missing R (n + 2) (sampInit R) = sampRun parts sw missing R n ⟨[(R.pcmin, w0), (R.pcmax, w1)], R.swor - R.swir⟩ := by
  have hpos : R.swor - R.swir > (R.swor - R.swir) / parts := div_lt_self (sub_pos.mpr hs) hN
  have a1 : sampStep sw missing R (sampInit R) = some ⟨[(R.pcmax, w1)], R.swor - R.swir⟩ := by
    simp [sampStep, sampNext, sampInit, hp.ne', h1, addPair]
  have a2 : sampStep sw missing R ⟨[(R.pcmax, w1)], R.swor - R.swir⟩ = some ⟨[(R.pcmin, w0), (R.pcmax, w1)], R.swor - R.swir⟩ := by
    simp [sampStep, sampNext, hp.ne', h0, addPair, hp]
  change (if (sampInit R).interval > (R.swor - R.swir) / parts then _ else _) = _
  rw [if_pos (by exact hpos), a1]
  change (if R.swor - R.swir > (R.swor - R.swir) / parts then _ else _) = _
  rw [if_pos hpos, a2]
  rfl

theorem covers_two {lo hi w0 w1 : K} (h : lo < hi) : Spec.Covers [(lo, w0), (hi, w1)] lo hi := by
  refine ⟨?_, ⟨w0, rfl⟩, w1, rfl⟩
  rw [sorted_pairs]
  simpa using h

/-- **C88** (range). After the first two passes the table covers the whole range of pressures: increasing pressures, the first and the last
being the ends of the range. -/
theorem C88_covers {sw : K → Option K} {missing : List (K × K) → K × K} (hm : Spec.Missing missing) {R : Range K} (hp : R.pcmin < R.pcmax)
    (hs : R.swir < R.swor) (hN : 1 < parts) (n : Nat) (s : Samp K) (done : Bool) (h : sampRun parts sw missing R (n + 2) (sampInit R) = some (s, done)) :
    Spec.Covers s.table R.pcmin R.pcmax := by
  obtain ⟨w0, w1, _, _, h⟩ := first_two missing hp hs hN n _ h
  have key : ∀ n (s0 : Samp K), Spec.Covers s0.table R.pcmin R.pcmax → 2 ≤ s0.table.length → sampRun parts sw missing R n s0 = some (s, done) →
      Spec.Covers s.table R.pcmin R.pcmax := by
    intro n
    induction n with
    | zero =>
      intro s0 h0 _ h
      obtain ⟨rfl, _⟩ := Prod.mk.inj (Option.some.inj h)
      exact h0
    | succ n ih =>
      intro s0 h0 h2 h
      unfold sampRun at h
      split_ifs at h
      · obtain ⟨s1, h1, h⟩ := Option.bind_eq_some_iff.mp h
        obtain ⟨l₁, a, b, l₂, w, e1, _, _, e2, _, _, hc⟩ := step_split hm hp.ne' h0 h2 h1
        exact ih s1 hc (by rw [e2]; simp; omega) h
      · obtain ⟨rfl, _⟩ := Prod.mk.inj (Option.some.inj h)
        exact h0
  exact key n _ (covers_two hp) (by simp) h

/-- When the loop ends and the saturations of intermediate arguments are intermediate, the table is resolved. -/
theorem resolved_core {sw : K → Option K} {missing : List (K × K) → K × K} (hm : Spec.Missing missing) {R : Range K} (hp : R.pcmin < R.pcmax)
    (hs : R.swir < R.swor) (hN : 1 < parts) (hmid : ∀ p q r u v w, p ≤ q → q ≤ r → sw p = some u → sw q = some v → sw r = some w →
      (w ≤ v ∧ v ≤ u) ∨ (u ≤ v ∧ v ≤ w))
    (n : Nat) (s : Samp K) (h : sampRun parts sw missing R n (sampInit R) = some (s, true)) :
    Spec.Resolved s.table ((R.swor - R.swir) / parts) := by
  have hpos : R.swor - R.swir > (R.swor - R.swir) / parts := div_lt_self (sub_pos.mpr hs) hN
  -- every state whose interval is small is resolved
  have key : ∀ n (s0 : Samp K), Spec.Covers s0.table R.pcmin R.pcmax → 2 ≤ s0.table.length → (∀ e ∈ s0.table, sw e.1 = some e.2) →
      (¬ s0.interval > (R.swor - R.swir) / parts → Spec.Resolved s0.table ((R.swor - R.swir) / parts)) →
      sampRun parts sw missing R n s0 = some (s, true) → Spec.Resolved s.table ((R.swor - R.swir) / parts) := by
    intro n
    induction n with
    | zero => intro s0 _ _ _ _ h; cases h
    | succ n ih =>
      intro s0 h0 h2 hsound hres h
      unfold sampRun at h
      split_ifs at h with hi
      · obtain ⟨s1, h1, h⟩ := Option.bind_eq_some_iff.mp h
        obtain ⟨l₁, a, b, l₂, w, e1, hab, hw, e2, e3, hmax, hc⟩ := step_split hm hp.ne' h0 h2 h1
        have hsound1 : ∀ e ∈ s1.table, sw e.1 = some e.2 := by
          intro e he
          rw [e2] at he
          have : e = ((a.1 + b.1) / 2, w) ∨ e ∈ s0.table := by
            rw [e1]
            simp only [List.mem_append, List.mem_cons] at he ⊢
            tauto
          rcases this with rfl | he
          · exact hw
          · exact hsound e he
        refine ih s1 hc (by rw [e2]; simp; omega) hsound1 (fun hi1 => ?_) h
        have hsa := hsound a (by rw [e1]; simp)
        have hsb := hsound b (by rw [e1]; simp)
        have hwab := hmid a.1 ((a.1 + b.1) / 2) b.1 a.2 w b.2 (by linarith) (by linarith) hsa hw hsb
        have hgap : |b.2 - a.2| ≤ (R.swor - R.swir) / parts := by rw [← e3]; exact not_lt.mp hi1
        have hall : s0.table.IsChain fun c d => |d.2 - c.2| ≤ (R.swor - R.swir) / parts :=
          List.isChain_iff_forall_rel_of_append_cons_cons.mpr fun c d m₁ m₂ e => (hmax m₁ c d m₂ e).trans (not_lt.mp hi1)
        rw [e1] at hall
        have hch := List.isChain_append_cons_cons.mp hall
        have hnew : s1.table.IsChain fun c d => |d.2 - c.2| ≤ (R.swor - R.swir) / parts := by
          rw [e2]
          rw [abs_le] at hgap
          refine List.isChain_append_cons_cons.mpr ⟨hch.1, ?_, List.isChain_cons_cons.mpr ⟨?_, hch.2.2⟩⟩
          · rw [abs_le]; rcases hwab with hwab | hwab <;> constructor <;> simp only <;> linarith [hgap.1, hgap.2, hwab.1, hwab.2]
          · rw [abs_le]; rcases hwab with hwab | hwab <;> constructor <;> simp only <;> linarith [hgap.1, hgap.2, hwab.1, hwab.2]
        exact fun m₁ c d m₂ e => List.isChain_iff_forall_rel_of_append_cons_cons.mp hnew e
      · obtain ⟨rfl, _⟩ := Prod.mk.inj (Option.some.inj h)
        exact hres hi
  match n, h with
  | 0, h => cases h
  | 1, h =>
    exfalso
    unfold sampRun at h
    rw [if_pos (by exact hpos)] at h
    obtain ⟨s1, _, h⟩ := Option.bind_eq_some_iff.mp h
    cases h
  | n + 2, h =>
    obtain ⟨w0, w1, h0, h1, h⟩ := first_two missing hp hs hN n _ h
    refine key n _ (covers_two hp) (by simp) ?_ (fun hi => absurd hpos hi) h
    intro e he
    rcases List.mem_cons.mp he with rfl | he
    · exact h0
    · obtain rfl := List.mem_singleton.mp he
      exact h1

/-- **C88** (resolution). When the loop ends and the upscaled saturation does not grow with pressure, neighbouring saturations of the table
differ by at most 1/`parts` of the range of saturations. -/
theorem C88_resolved {sw : K → Option K} {missing : List (K × K) → K × K} (hm : Spec.Missing missing) {R : Range K} (hp : R.pcmin < R.pcmax)
    (hs : R.swir < R.swor) (hN : 1 < parts) (hanti : ∀ p q v w, p ≤ q → sw p = some v → sw q = some w → w ≤ v)
    (n : Nat) (s : Samp K) (h : sampRun parts sw missing R n (sampInit R) = some (s, true)) :
    Spec.Resolved s.table ((R.swor - R.swir) / parts) :=
  resolved_core hm hp hs hN (fun p q r u v w hpq hqr hu hv hw => Or.inl ⟨hanti q r v w hqr hv hw, hanti p q u v hpq hu hv⟩) n s h

/-- **C88** (degenerate range). If the range of pressures is a point, the loop computes this point and ends. -/
theorem C88_point {sw : K → Option K} (missing : List (K × K) → K × K) {R : Range K} (hp : R.pcmax = R.pcmin) (hs : R.swir < R.swor) (hN : 1 < parts)
    {w : K} (hw : sw R.pcmin = some w) (n : Nat) : sampRun parts sw missing R (n + 2) (sampInit R) = some (⟨[(R.pcmin, w)], 0⟩, true) := by
  have hpos : R.swor - R.swir > (R.swor - R.swir) / parts := div_lt_self (sub_pos.mpr hs) hN
  have a1 : sampStep sw missing R (sampInit R) = some ⟨[(R.pcmin, w)], 0⟩ := by
    simp [sampStep, sampNext, sampInit, hp, hw, addPair]
  change (if (sampInit R).interval > (R.swor - R.swir) / parts then _ else _) = _
  rw [if_pos (by exact hpos), a1]
  change (if (0 : K) > (R.swor - R.swir) / parts then _ else _) = _
  rw [if_neg (by have : 0 < R.swor - R.swir := by linarith
                 have : 0 < (R.swor - R.swir) / parts := div_pos this (by linarith)
                 linarith)]

omit [IsStrictOrderedRing K] in
/-- **C88** fails when the end saturations agree: the loop is not entered and the table stays empty. -/
theorem C88_violated_empty (parts : ℚ) (sw : ℚ → Option ℚ) (missing : List (ℚ × ℚ) → ℚ × ℚ) (p q s : ℚ) (n : Nat) :
    sampRun parts sw missing ⟨p, q, s, s⟩ (n + 1) (sampInit ⟨p, q, s, s⟩) = some (⟨[], 0⟩, true) := by
  unfold sampRun sampInit
  simp

end

/-! ### termination -/

theorem span_le (d : ℝ) (l : List (ℝ × ℝ)) (a : ℝ × ℝ) (h : (a :: l).IsChain (fun a b => a.1 + d ≤ b.1)) (z : ℝ × ℝ)
    (hz : (a :: l).getLast? = some z) : a.1 + (l.length : ℝ) * d ≤ z.1 := by
  induction l generalizing a with
  | nil => simp at hz; subst hz; simp
  | cons b l ih =>
    have h' := List.isChain_cons_cons.mp h
    have := ih b h'.2 (by simpa [List.getLast?_cons] using hz)
    push_cast [List.length_cons]
    nlinarith [h'.1]

/-- **C88** (termination). If the upscaled saturation is a continuous function of pressure on the range, the loop ends. -/
theorem C88_terminates {parts : ℝ} {sw : ℝ → Option ℝ} {missing : List (ℝ × ℝ) → ℝ × ℝ} (hm : Spec.Missing missing) {R : Range ℝ}
    (hp : R.pcmin < R.pcmax) (hs : R.swir < R.swor) (hN : 1 < parts) (f : ℝ → ℝ) (hf : ContinuousOn f (Set.Icc R.pcmin R.pcmax))
    (hsw : ∀ p ∈ Set.Icc R.pcmin R.pcmax, sw p = some (f p)) :
    ∃ n s, sampRun parts sw missing R n (sampInit R) = some (s, true) := by
  have heps : 0 < (R.swor - R.swir) / parts := by
    have : 0 < R.swor - R.swir := by linarith
    exact div_pos this (by linarith)
  have huc := isCompact_Icc.uniformContinuousOn_of_continuous hf
  obtain ⟨δ, hδ, huc⟩ := Metric.uniformContinuousOn_iff.mp huc _ heps
  let d := min (δ / 2) (R.pcmax - R.pcmin)
  have hd : 0 < d := lt_min (by linarith) (by linarith)
  have key : ∀ (k : Nat) (s0 : Samp ℝ), Spec.Covers s0.table R.pcmin R.pcmax → 2 ≤ s0.table.length →
      (∀ e ∈ s0.table, e.1 ∈ Set.Icc R.pcmin R.pcmax ∧ f e.1 = e.2) → s0.table.IsChain (fun a b => a.1 + d ≤ b.1) →
      R.pcmax - R.pcmin < ((s0.table.length : ℝ) - 1 + k) * d → ∃ n s, sampRun parts sw missing R n s0 = some (s, true) := by
    intro k
    induction k with
    | zero =>
      intro s0 hc h2 hin hch hk
      exfalso
      obtain ⟨w, hw⟩ := hc.2.1
      obtain ⟨v, hv⟩ := hc.2.2
      cases ht : s0.table with
      | nil => rw [ht] at h2; simp at h2
      | cons a l =>
        rw [ht] at hw hv hch hk
        have := span_le d l a hch _ hv
        simp only [List.head?_cons, Option.some.injEq] at hw
        rw [hw] at this
        simp only [List.length_cons] at hk
        push_cast at hk
        simp only at this
        nlinarith
    | succ k ih =>
      intro s0 hc h2 hin hch hk
      by_cases hi : s0.interval > (R.swor - R.swir) / parts
      swap
      · exact ⟨1, s0, by unfold sampRun; rw [if_neg hi]⟩
      obtain ⟨l₁, a, b, l₂, e1, e2, e3, e4⟩ := hm s0.table h2
      have hab := hc.1 l₁ a b l₂ e1
      have ha := hin a (by rw [e1]; simp)
      have hb := hin b (by rw [e1]; simp)
      have hmid : (a.1 + b.1) / 2 ∈ Set.Icc R.pcmin R.pcmax := ⟨by linarith [ha.1.1, hb.1.1], by linarith [ha.1.2, hb.1.2]⟩
      have hstep : ∃ s1, sampStep sw missing R s0 = some s1 := by
        refine ⟨⟨addPair s0.table ((a.1 + b.1) / 2) (f ((a.1 + b.1) / 2)), (missing s0.table).2⟩, ?_⟩
        unfold sampStep sampNext
        rw [if_neg hp.ne', if_neg (by omega), if_neg (by omega)]
        simp only
        rw [e2, hsw _ hmid]
        rfl
      obtain ⟨s1, h1⟩ := hstep
      obtain ⟨l₁, a, b, l₂, w, e1, hab, hw, e2, e3, _, hc1⟩ := step_split hm hp.ne' hc h2 h1
      have ha := hin a (by rw [e1]; simp)
      have hb := hin b (by rw [e1]; simp)
      have hmid : (a.1 + b.1) / 2 ∈ Set.Icc R.pcmin R.pcmax := ⟨by linarith [ha.1.1, hb.1.1], by linarith [ha.1.2, hb.1.2]⟩
      have hfw : f ((a.1 + b.1) / 2) = w := Option.some.inj ((hsw _ hmid).symm.trans hw)
      suffices h : ∃ n s, sampRun parts sw missing R n s1 = some (s, true) by
        obtain ⟨n, s, h⟩ := h
        refine ⟨n + 1, s, ?_⟩
        unfold sampRun
        rw [if_pos hi, h1]
        exact h
      by_cases hi1 : s1.interval > (R.swor - R.swir) / parts
      swap
      · exact ⟨1, s1, by unfold sampRun; rw [if_neg hi1]⟩
      refine ih s1 hc1 (by rw [e2]; simp; omega) ?_ ?_ ?_
      · intro e he
        rw [e2] at he
        have : e = ((a.1 + b.1) / 2, w) ∨ e ∈ s0.table := by
          rw [e1]
          simp only [List.mem_append, List.mem_cons] at he ⊢
          tauto
        rcases this with rfl | he
        · exact ⟨hmid, hfw⟩
        · exact hin e he
      · have hfar : δ ≤ b.1 - a.1 := by
          by_contra hlt
          push Not at hlt
          have := huc b.1 hb.1 a.1 ha.1 (by rw [Real.dist_eq, abs_of_pos (by linarith)]; exact hlt)
          rw [Real.dist_eq, hb.2, ha.2, ← e3] at this
          exact absurd hi1 (not_lt.mpr this.le)
        have hdd : d ≤ δ / 2 := min_le_left _ _
        rw [e1] at hch
        have hch := List.isChain_append_cons_cons.mp hch
        rw [e2]
        exact List.isChain_append_cons_cons.mpr ⟨hch.1, by simp only; linarith, List.isChain_cons_cons.mpr ⟨by simp only; linarith, hch.2.2⟩⟩
      · have : (s1.table.length : ℝ) = s0.table.length + 1 := by
          rw [e1, e2]; simp; ring
        rw [this]
        push_cast at hk
        linarith
  obtain ⟨k, hk⟩ := exists_nat_gt ((R.pcmax - R.pcmin) / d)
  have h0 : R.pcmin ∈ Set.Icc R.pcmin R.pcmax := ⟨le_refl _, hp.le⟩
  have h1 : R.pcmax ∈ Set.Icc R.pcmin R.pcmax := ⟨hp.le, le_refl _⟩
  obtain ⟨n, s, h⟩ := key k ⟨[(R.pcmin, f R.pcmin), (R.pcmax, f R.pcmax)], R.swor - R.swir⟩ (covers_two hp) (by simp) (by
      intro e he
      rcases List.mem_cons.mp he with rfl | he
      · exact ⟨h0, rfl⟩
      · obtain rfl := List.mem_singleton.mp he
        exact ⟨h1, rfl⟩) (by
      have : d ≤ R.pcmax - R.pcmin := min_le_right _ _
      simp; linarith) (by
      rw [div_lt_iff₀ hd] at hk
      simp only [List.length_cons, List.length_nil]
      push_cast
      linarith)
  exact ⟨n + 2, s, (first_two_run missing hp hs hN (hsw _ h0) (hsw _ h1) n).trans h⟩

/-- **C88** (whole). For cells with continuous falling saturation curves, known gravity heads, positive scaling and a positive pore volume, the loop
ends. The table then covers the range of pressures, each point holds the pore-volume weighted mean of the cell saturations, and neighbouring
saturations differ by at most 1/500 of the range of saturations. -/
theorem C88_sampling (S : Sys ℝ) {missing : List (ℝ × ℝ) → ℝ × ℝ} (hm : Spec.Missing missing) {R : Range ℝ} (hp : R.pcmin < R.pcmax)
    (hs : R.swir < R.swor) (hh : ∀ c ∈ S.globalCell, 0 < S.satnum c → ∃ h, Spec.Head S c h)
    (hpv : ∀ c ∈ S.globalCell, 0 ≤ Spec.pv S c) (htot : (S.globalCell.map (Spec.pv S)).sum ≠ 0)
    (hsc : ∀ c ∈ S.globalCell, 0 < S.satnum c → 0 ≤ Spec.scale S c)
    (hmono : ∀ c ∈ S.globalCell, 0 < S.satnum c → ∀ x y, x ≤ y → (Spec.curve S c).eval y ≤ (Spec.curve S c).eval x)
    (hcont : ∀ c ∈ S.globalCell, 0 < S.satnum c → Continuous (Spec.curve S c).eval) :
    ∃ n s, upscalePc S missing R n = some (s, true) ∧ Spec.Covers s.table R.pcmin R.pcmax ∧
      (∀ e ∈ s.table, Spec.MeanSat S e.1 e.2) ∧ Spec.Resolved s.table ((R.swor - R.swir) / 500) := by
  classical
  -- the mean as a function of pressure
  choose hd hhd using hh
  let g : Nat → ℝ → ℝ := fun c p =>
    if h : c ∈ S.globalCell ∧ 0 < S.satnum c then (Spec.curve S c).eval (Spec.scale S c * (p - hd c h.1 h.2)) * Spec.pv S c else 0
  have hg : ∀ c ∈ S.globalCell, Continuous (g c) := by
    intro c hc
    by_cases hr : 0 < S.satnum c
    · have : g c = fun p => (Spec.curve S c).eval (Spec.scale S c * (p - hd c hc hr)) * Spec.pv S c := by
        funext p; exact dif_pos ⟨hc, hr⟩
      rw [this]
      exact ((hcont c hc hr).comp (continuous_const.mul (continuous_id.sub continuous_const))).mul continuous_const
    · have : g c = fun _ => 0 := by funext p; exact dif_neg (fun h => hr h.2)
      rw [this]; exact continuous_const
  let F : ℝ → ℝ := fun p => (S.globalCell.map fun c => g c p).sum / (S.globalCell.map (Spec.pv S)).sum
  have hsum : ∀ l : List Nat, (∀ c ∈ l, Continuous (g c)) → Continuous fun p => (l.map fun c => g c p).sum := by
    intro l
    induction l with
    | nil => intro _; simpa using continuous_const
    | cons c l ih =>
      intro h
      simp only [List.map_cons, List.sum_cons]
      exact (h c (by simp)).add (ih fun c hc => h c (by simp [hc]))
  have hF : Continuous F := (hsum _ hg).div_const _
  have hsw : ∀ p, upscaledSw S p = some (F p) := by
    intro p
    obtain ⟨w, hw⟩ := C68_defined S p (fun c hc hr => ⟨_, hhd c hc hr⟩) htot
    rw [hw]
    obtain ⟨s, h1, _, h3⟩ := C68_mean S p w hw
    have : (S.globalCell.map fun c => s c * Spec.pv S c) = S.globalCell.map fun c => g c p := by
      refine List.map_congr_left fun c hc => ?_
      by_cases hr : 0 < S.satnum c
      · obtain ⟨h, e, es⟩ := h1 c hc hr
        have hu : h = hd c hc hr := by
          rcases e with ⟨e, rfl⟩ | ⟨e, e'⟩ <;> rcases hhd c hc hr with ⟨i, i'⟩ | ⟨i, i'⟩
          · exact i'.symm
          · exact absurd e i
          · exact absurd i e
          · exact Option.some.inj (e'.symm.trans i')
        rw [es, hu]
        change _ = dite _ _ _
        rw [dif_pos (⟨hc, hr⟩ : c ∈ S.globalCell ∧ 0 < S.satnum c)]
      · have e0 : g c p = 0 := dif_neg (fun h => hr h.2)
        rw [e0]
        unfold Spec.pv
        rw [if_neg hr, mul_zero]
    rw [this] at h3
    rw [eq_div_iff htot |>.mpr h3]
  obtain ⟨n, s, h⟩ := C88_terminates (parts := 500) hm hp hs (by norm_num) F hF.continuousOn (fun p _ => hsw p)
  refine ⟨n, s, h, ?_, fun e he => C68_mean S _ _ (C88_sound _ _ _ _ _ _ h e he), ?_⟩
  · have hpos : R.swor - R.swir > (R.swor - R.swir) / 500 := by linarith
    match n, h with
    | 0, h => cases h
    | 1, h =>
      exfalso
      unfold sampRun at h
      rw [if_pos (by exact hpos)] at h
      obtain ⟨s1, _, h⟩ := Option.bind_eq_some_iff.mp h
      cases h
    | n + 2, h => exact C88_covers hm hp hs (by norm_num) n s true h
  · exact C88_resolved hm hp hs (by norm_num) (fun p q v w hpq hv hw => C68_antitone S p q v w hpq hv hw hpv hsc hmono) n s h

/-! A `getMissingX` exists: pick the largest gap of the table. -/

/-- The neighbouring pairs of a table. -/
def pairsOf {K : Type} : List (K × K) → List ((K × K) × (K × K))
  | a :: b :: l => (a, b) :: pairsOf (b :: l)
  | _ => []

theorem mem_pairsOf {K : Type} (t : List (K × K)) (a b : K × K) : (a, b) ∈ pairsOf t ↔ ∃ l₁ l₂, t = l₁ ++ a :: b :: l₂ := by
  induction t with
  | nil => simp [pairsOf]
  | cons x l ih =>
    cases l with
    | nil =>
      simp only [pairsOf, List.not_mem_nil, false_iff]
      rintro ⟨l₁, l₂, e⟩
      have := congrArg List.length e
      simp at this
      omega
    | cons y l =>
      simp only [pairsOf, List.mem_cons, Prod.mk.injEq, ih]
      constructor
      · rintro (⟨rfl, rfl⟩ | ⟨l₁, l₂, e⟩)
        · exact ⟨[], l, rfl⟩
        · exact ⟨x :: l₁, l₂, by rw [e]; rfl⟩
      · rintro ⟨l₁, l₂, e⟩
        cases l₁ with
        | nil => simp at e; exact Or.inl ⟨e.1.symm, e.2.1.symm⟩
        | cons z l₁ => simp at e; exact Or.inr ⟨l₁, l₂, e.2⟩

/-- The hypothesis on `getMissingX` can be met. -/
theorem missing_exists : ∃ missing : List (ℝ × ℝ) → ℝ × ℝ, Spec.Missing missing := by
  classical
  have : ∀ t : List (ℝ × ℝ), ∃ r : ℝ × ℝ, 2 ≤ t.length → Spec.LargestGap t r.1 r.2 := by
    intro t
    by_cases h2 : 2 ≤ t.length
    · have hne : (pairsOf t).toFinset.Nonempty := by
        match t, h2 with
        | a :: b :: l, _ => exact ⟨(a, b), by simp [pairsOf]⟩
      obtain ⟨⟨a, b⟩, hmem, hmax⟩ := Finset.exists_max_image _ (fun q => |q.2.2 - q.1.2|) hne
      obtain ⟨l₁, l₂, e⟩ := (mem_pairsOf t a b).mp (List.mem_toFinset.mp hmem)
      refine ⟨((a.1 + b.1) / 2, |b.2 - a.2|), fun _ => ⟨l₁, a, b, l₂, e, rfl, rfl, fun m₁ c d m₂ e' => ?_⟩⟩
      exact hmax (c, d) (List.mem_toFinset.mpr ((mem_pairsOf t c d).mpr ⟨m₁, m₂, e'⟩))
    · exact ⟨0, fun h => absurd h h2⟩
  choose m hm using this
  exact ⟨m, hm⟩

/-- Two cells with the linear curve `1 - x`, saturations 0 to 1 on the pressures 0 to 1. -/
noncomputable example : ∃ n s missing, upscalePc (K := ℝ)
      ⟨[0, 1], fun _ => 1, fun _ => 1, fun _ => 1, fun _ => 1, [], true, fun _ => ⟨[], fun _ => 0⟩, fun _ => ⟨[(0, 1), (1, 0)], fun x => 1 - x⟩, id⟩
      missing ⟨0, 1, 0, 1⟩ n = some (s, true) ∧ Spec.Resolved s.table (1 / 500) := by
  obtain ⟨missing, hm⟩ := missing_exists
  obtain ⟨n, s, h, _, _, h'⟩ := C88_sampling
    ⟨[0, 1], fun _ => 1, fun _ => 1, fun _ => 1, fun _ => 1, [], true, fun _ => ⟨[], fun _ => 0⟩, fun _ => ⟨[(0, 1), (1, 0)], fun x => 1 - x⟩, id⟩
    hm (R := ⟨0, 1, 0, 1⟩) (by norm_num) (by norm_num) (fun c _ _ => ⟨0, Or.inl ⟨rfl, rfl⟩⟩) (by intro c _; simp [Spec.pv])
    (by simp [Spec.pv]) (by intro c _ _; simp [Spec.scale]) (by intro c _ _ x y h; simp only [Spec.curve, if_true]; linarith)
    (by intro c _ _; simp only [Spec.curve, if_true]; exact continuous_const.sub continuous_id)
  refine ⟨n, s, missing, h, ?_⟩
  simpa using h'

end Verif.RelPerm
