import Verif.Model.ViscGather
import Mathlib.Algebra.BigOperators.Group.Finset.Basic
import Mathlib.Algebra.BigOperators.Fin
import Mathlib.Algebra.Order.BigOperators.Group.Finset
import Mathlib.Tactic.Ring
import Mathlib.Tactic.Linarith

/-!
C115: the results of both phases of the viscous limit are gathered on the master under every interleaving.
-/

namespace Verif.VGather

open Verif.Collect (Row St)

variable {K : Type}

/-- What is true between steps. -/
structure Inv (nodes points : Nat) (val : Nat → Row K) (s : St K) : Prop where
  mle : s.mpos ≤ 2 * points
  ple : ∀ r, s.pos r ≤ 2 * points
  seen : ∀ i, i < s.mpos → ownerAt nodes points i ≠ 0 → i < s.pos (ownerAt nodes points i)
  chan : ∀ r, 0 < r → r < nodes → s.chan r =
    ((List.range' s.mpos (s.pos r - s.mpos)).filter fun i => ownerAt nodes points i = r).map fun i => pack (i / points) (i % points) (val (i % points))
  done0 : ∀ i, i < points → (i < s.mpos ∨ owner nodes i = 0) → (s.mem i).sat = (val i).sat ∧ (s.mem i).perm0 = (val i).perm0
  done1 : ∀ i, i < points → (points + i < s.mpos ∨ owner nodes i = 0) → (s.mem i).perm1 = (val i).perm1

theorem inv_start (nodes points : Nat) (val zeros : Nat → Row K) : Inv nodes points val (start nodes val zeros) := by
  refine ⟨Nat.zero_le _, fun _ => Nat.zero_le _, fun i hi => absurd hi (Nat.not_lt_zero _), ?_, ?_, ?_⟩
  · intro r _ _
    simp [start]
  · intro i _ h
    have h0 : owner nodes i = 0 := h.resolve_left (Nat.not_lt_zero _)
    simp [start, localRows, h0]
  · intro i _ h
    have h0 : owner nodes i = 0 := h.resolve_left (Nat.not_lt_zero _)
    simp [start, localRows, h0]

theorem ownerAt_lt {nodes : Nat} (hn : 0 < nodes) (points q : Nat) : ownerAt nodes points q < nodes := by
  unfold ownerAt owner; omega

theorem inv_step {sync : Bool} {nodes points t : Nat} (hn : 0 < nodes) {val zeros : Nat → Row K}
    (hw : ∀ i, (val i).perm0.length = t ∧ (val i).perm1.length = t)
    {s u : St K} (hs : Step sync nodes points t (localRows nodes val zeros) s u)
    (hi : Inv nodes points val s) : Inv nodes points val u := by
  cases hs with
  | own h ho =>
    refine ⟨h, hi.ple, ?_, ?_, ?_, ?_⟩
    · intro i hlt h0
      have hlt : i < s.mpos + 1 := hlt
      have : i ≠ s.mpos := by rintro rfl; exact h0 ho
      exact hi.seen i (by omega) h0
    · intro r hr0 hrn
      show s.chan r = _
      rw [hi.chan r hr0 hrn]
      congr 1
      show _ = (List.range' (s.mpos + 1) (s.pos r - (s.mpos + 1))).filter _
      by_cases hp : s.mpos < s.pos r
      · rw [show s.pos r - s.mpos = (s.pos r - (s.mpos + 1)) + 1 by omega, List.range'_succ, List.filter_cons]
        have : ¬ ownerAt nodes points s.mpos = r := by omega
        simp [this]
      · rw [show s.pos r - s.mpos = 0 by omega, show s.pos r - (s.mpos + 1) = 0 by omega]
        rfl
    · intro i hip h'
      apply hi.done0 i hip
      rcases h' with h' | h'
      · have h' : i < s.mpos + 1 := h'
        by_cases he : i = s.mpos
        · right
          have : ownerAt nodes points i = 0 := by rw [he]; exact ho
          unfold ownerAt at this
          rwa [Nat.mod_eq_of_lt hip] at this
        · left; omega
      · exact Or.inr h'
    · intro i hip h'
      apply hi.done1 i hip
      rcases h' with h' | h'
      · have h' : points + i < s.mpos + 1 := h'
        by_cases he : points + i = s.mpos
        · right
          have : ownerAt nodes points (points + i) = 0 := by rw [he]; exact ho
          unfold ownerAt at this
          rwa [Nat.add_mod_left, Nat.mod_eq_of_lt hip] at this
        · left; omega
      · exact Or.inr h'
  | recv h ho m ms hc =>
    have hown : ownerAt nodes points s.mpos < nodes := ownerAt_lt hn _ _
    have hch := hi.chan (ownerAt nodes points s.mpos) (by omega) hown
    have hp : s.mpos < s.pos (ownerAt nodes points s.mpos) := by
      by_contra hp
      rw [show s.pos (ownerAt nodes points s.mpos) - s.mpos = 0 by omega] at hch
      rw [hc] at hch
      exact absurd hch (by simp)
    have hch' : s.chan (ownerAt nodes points s.mpos) = pack (s.mpos / points) (s.mpos % points) (val (s.mpos % points)) ::
        ((List.range' (s.mpos + 1) (s.pos (ownerAt nodes points s.mpos) - (s.mpos + 1))).filter
          fun i => ownerAt nodes points i = ownerAt nodes points s.mpos).map fun i => pack (i / points) (i % points) (val (i % points)) := by
      rw [hch, show s.pos (ownerAt nodes points s.mpos) - s.mpos = (s.pos (ownerAt nodes points s.mpos) - (s.mpos + 1)) + 1 by omega,
        List.range'_succ, List.filter_cons]
      simp
    rw [hc] at hch'
    obtain ⟨hm, hms⟩ := List.cons.inj hch'
    have hm1 : m.1 = s.mpos % points := by rw [hm]; rfl
    have hpts : 0 < points := by omega
    have hmod := Nat.mod_lt s.mpos hpts
    have hdm := Nat.div_add_mod s.mpos points
    have hphase : s.mpos / points = 0 ∨ s.mpos / points = 1 := by
      have : s.mpos / points < 2 := (Nat.div_lt_iff_lt_mul hpts).mpr h
      generalize s.mpos / points = z at this
      omega
    -- the entry that is written
    have hnew : unpack (s.mpos / points) t (s.mem (s.mpos % points)) m.2 = if s.mpos / points = 0 then
        ⟨(val (s.mpos % points)).sat, (val (s.mpos % points)).perm0, (s.mem (s.mpos % points)).perm1⟩ else
        ⟨(val (s.mpos % points)).sat, (s.mem (s.mpos % points)).perm0, (val (s.mpos % points)).perm1⟩ := by
      rw [hm]
      unfold pack unpack permOf
      obtain ⟨w0, w1⟩ := hw (s.mpos % points)
      by_cases hz : s.mpos / points = 0
      · simp only [if_pos hz]
        rw [List.take_of_length_le (by omega)]
      · simp only [if_neg hz]
        rw [List.take_of_length_le (by omega)]
    refine ⟨h, hi.ple, ?_, ?_, ?_, ?_⟩
    · intro i hlt h0
      have hlt : i < s.mpos + 1 := hlt
      by_cases he : i = s.mpos
      · rw [he]; exact hp
      · exact hi.seen i (by omega) h0
    · intro r hr0 hrn
      show (if r = ownerAt nodes points s.mpos then ms else s.chan r) =
        ((List.range' (s.mpos + 1) (s.pos r - (s.mpos + 1))).filter fun i => ownerAt nodes points i = r).map _
      by_cases hr : r = ownerAt nodes points s.mpos
      · rw [if_pos hr, hms, hr]
      · rw [if_neg hr, hi.chan r hr0 hrn]
        congr 1
        by_cases hp : s.mpos < s.pos r
        · rw [show s.pos r - s.mpos = (s.pos r - (s.mpos + 1)) + 1 by omega, List.range'_succ, List.filter_cons]
          have : ¬ ownerAt nodes points s.mpos = r := fun h => hr h.symm
          simp [this]
        · rw [show s.pos r - s.mpos = 0 by omega, show s.pos r - (s.mpos + 1) = 0 by omega]
          rfl
    · intro i hip h'
      show (if i = m.1 then unpack (s.mpos / points) t (s.mem i) m.2 else s.mem i).sat = _ ∧ (if i = m.1 then unpack (s.mpos / points) t (s.mem i) m.2 else s.mem i).perm0 = _
      rw [hm1]
      by_cases he : i = s.mpos % points
      · rw [if_pos he, he, hnew]
        rcases hphase with hz | hz
        · rw [if_pos hz]; exact ⟨rfl, rfl⟩
        · rw [if_neg (by omega)]
          refine ⟨rfl, (hi.done0 (s.mpos % points) hmod (Or.inl ?_)).2⟩
          rw [hz] at hdm
          omega
      · rw [if_neg he]
        apply hi.done0 i hip
        rcases h' with h' | h'
        · have h' : i < s.mpos + 1 := h'
          left
          have : i ≠ s.mpos := by rintro rfl; exact he (Nat.mod_eq_of_lt hip).symm
          omega
        · exact Or.inr h'
    · intro i hip h'
      show (if i = m.1 then unpack (s.mpos / points) t (s.mem i) m.2 else s.mem i).perm1 = _
      rw [hm1]
      by_cases he : i = s.mpos % points
      · rw [if_pos he, he, hnew]
        rcases hphase with hz | hz
        · rw [if_pos hz]
          have hlt : s.mpos < points := by rw [hz] at hdm; omega
          rcases h' with h' | h'
          · have h' : points + i < s.mpos + 1 := h'
            omega
          · refine hi.done1 (s.mpos % points) hmod (Or.inr (he ▸ h'))
        · rw [if_neg (by omega)]
      · rw [if_neg he]
        apply hi.done1 i hip
        rcases h' with h' | h'
        · have h' : points + i < s.mpos + 1 := h'
          left
          have : points + i ≠ s.mpos := by
            intro e; apply he; rw [← e, Nat.add_mod_left, Nat.mod_eq_of_lt hip]
          omega
        · exact Or.inr h'
  | skip r hr0 hrn h ho hb =>
    refine ⟨hi.mle, ?_, ?_, ?_, hi.done0, hi.done1⟩
    · intro q
      show (if q = r then s.pos q + 1 else s.pos q) ≤ 2 * points
      have := hi.ple q
      split
      · rename_i e; rw [e]; omega
      · exact this
    · intro i hlt h0
      show i < (if ownerAt nodes points i = r then s.pos (ownerAt nodes points i) + 1 else s.pos (ownerAt nodes points i))
      have := hi.seen i hlt h0
      split <;> omega
    · intro q hq0 hqn
      show s.chan q = ((List.range' s.mpos ((if q = r then s.pos q + 1 else s.pos q) - s.mpos)).filter _).map _
      rw [hi.chan q hq0 hqn]
      by_cases hq : q = r
      · subst hq
        rw [if_pos rfl]
        congr 1
        by_cases hp : s.mpos ≤ s.pos q
        · rw [show s.pos q + 1 - s.mpos = (s.pos q - s.mpos) + 1 by omega, List.range'_concat, List.filter_append,
            Nat.one_mul, show s.mpos + (s.pos q - s.mpos) = s.pos q by omega]
          simp [ho]
        · rw [show s.pos q + 1 - s.mpos = 0 by omega, show s.pos q - s.mpos = 0 by omega]
      · rw [if_neg hq]
  | send r hr0 hrn h ho hb =>
    have hle : s.mpos ≤ s.pos r := by
      by_contra hlt
      have := hi.seen (s.pos r) (by omega) (by omega)
      rw [ho] at this
      omega
    refine ⟨hi.mle, ?_, ?_, ?_, hi.done0, hi.done1⟩
    · intro q
      show (if q = r then s.pos q + 1 else s.pos q) ≤ 2 * points
      have := hi.ple q
      split
      · rename_i e; rw [e]; omega
      · exact this
    · intro i hlt h0
      show i < (if ownerAt nodes points i = r then s.pos (ownerAt nodes points i) + 1 else s.pos (ownerAt nodes points i))
      have := hi.seen i hlt h0
      split <;> omega
    · intro q hq0 hqn
      show (if q = r then s.chan q ++ [pack (s.pos r / points) (s.pos r % points) (localRows nodes val zeros r (s.pos r % points))] else s.chan q) =
        ((List.range' s.mpos ((if q = r then s.pos q + 1 else s.pos q) - s.mpos)).filter _).map _
      by_cases hq : q = r
      · subst hq
        have hl : localRows nodes val zeros q (s.pos q % points) = val (s.pos q % points) := by
          unfold localRows; exact if_pos ho
        rw [if_pos rfl, if_pos rfl, hi.chan q hq0 hqn,
          show s.pos q + 1 - s.mpos = (s.pos q - s.mpos) + 1 by omega, List.range'_concat, List.filter_append,
          Nat.one_mul, show s.mpos + (s.pos q - s.mpos) = s.pos q by omega, List.map_append, hl]
        simp [ho]
      · rw [if_neg hq, if_neg hq]
        exact hi.chan q hq0 hqn

theorem inv_steps {sync : Bool} {nodes points t : Nat} (hn : 0 < nodes) {val zeros : Nat → Row K}
    (hw : ∀ i, (val i).perm0.length = t ∧ (val i).perm1.length = t)
    {n : Nat} {a s : St K} (ha : Inv nodes points val a)
    (hs : Steps sync nodes points t (localRows nodes val zeros) n a s) : Inv nodes points val s := by
  induction hs with
  | refl => exact ha
  | tail _ hst ih => exact inv_step hn hw hst (ih ha)

/-- **C115.** Every point is computed by exactly one rank, and the points are dealt out in turn, starting with the last rank: rank `r`
computes the points `nodes - 1 - r`, `2 * nodes - 1 - r`, … -/
theorem C115_owner (nodes idx : Nat) (hn : 0 < nodes) (val zeros : Nat → Row K) :
    ∃ r < nodes, localRows nodes val zeros r idx = val idx ∧ (∀ r', r' ≠ r → localRows nodes val zeros r' idx = zeros idx) ∧
      idx % nodes = nodes - 1 - r := by
  refine ⟨owner nodes idx, by unfold owner; omega, if_pos rfl, fun _ h => if_neg (Ne.symm h), ?_⟩
  have := Nat.mod_lt idx hn
  unfold owner
  omega

/-- **C115.** Whatever the interleaving of the ranks, and whether sends are buffered or wait for the receiver: when the master's loops have ended it holds for every
point the saturation and the permeabilities of both phases computed by the owner of the point. -/
theorem C115_gathered {sync : Bool} {nodes points t : Nat} (hn : 0 < nodes) {val zeros : Nat → Row K}
    (hw : ∀ i, (val i).perm0.length = t ∧ (val i).perm1.length = t)
    {n : Nat} {s : St K} (hs : Steps sync nodes points t (localRows nodes val zeros) n (start nodes val zeros) s)
    (hd : s.mpos = 2 * points) : ∀ i, i < points → s.mem i = val i := by
  intro i hi
  have inv := inv_steps hn hw (inv_start nodes points val zeros) hs
  obtain ⟨h1, h2⟩ := inv.done0 i hi (Or.inl (by omega))
  have h3 := inv.done1 i hi (Or.inl (by omega))
  cases hm : s.mem i with
  | mk a b c =>
    cases hv : val i with
    | mk x y z => rw [hm, hv] at h1 h2 h3; simp only at h1 h2 h3; rw [h1, h2, h3]

/-- **C115.** No interleaving deadlocks: as long as some rank's loops have not ended, some rank can make a step. -/
theorem C115_no_deadlock {sync : Bool} {nodes points t : Nat} (hn : 0 < nodes) {val zeros : Nat → Row K}
    (hw : ∀ i, (val i).perm0.length = t ∧ (val i).perm1.length = t)
    {n : Nat} {s : St K} (hs : Steps sync nodes points t (localRows nodes val zeros) n (start nodes val zeros) s)
    (hd : s.mpos < 2 * points ∨ ∃ r, 0 < r ∧ r < nodes ∧ s.pos r < 2 * points) :
    ∃ u, Step sync nodes points t (localRows nodes val zeros) s u := by
  have hi := inv_steps hn hw (inv_start nodes points val zeros) hs
  have move : ∀ r, 0 < r → r < nodes → s.pos r < 2 * points → s.chan r = [] →
      ∃ u, Step sync nodes points t (localRows nodes val zeros) s u := by
    intro r h0 h1 h2 h3
    by_cases ho : ownerAt nodes points (s.pos r) = r
    · exact ⟨_, Step.send s r h0 h1 h2 ho (fun _ => h3)⟩
    · exact ⟨_, Step.skip s r h0 h1 h2 ho (fun _ => h3)⟩
  by_cases hm : s.mpos < 2 * points
  · by_cases ho : ownerAt nodes points s.mpos = 0
    · exact ⟨_, Step.own s hm ho⟩
    · have hown : ownerAt nodes points s.mpos < nodes := ownerAt_lt hn _ _
      cases hc : s.chan (ownerAt nodes points s.mpos) with
      | cons m ms => exact ⟨_, Step.recv s hm ho m ms hc⟩
      | nil =>
        apply move _ (by omega) hown _ hc
        by_contra hp
        have hch := hi.chan (ownerAt nodes points s.mpos) (by omega) hown
        rw [hc, show s.pos (ownerAt nodes points s.mpos) - s.mpos = (s.pos (ownerAt nodes points s.mpos) - (s.mpos + 1)) + 1 by omega,
          List.range'_succ, List.filter_cons] at hch
        simp at hch
  · obtain ⟨r, h0, h1, h2⟩ : ∃ r, 0 < r ∧ r < nodes ∧ s.pos r < 2 * points := hd.resolve_left hm
    have := hi.mle
    apply move r h0 h1 h2
    rw [hi.chan r h0 h1, show s.pos r - s.mpos = 0 by omega]
    rfl

theorem steps_count {sync : Bool} {nodes points t : Nat} {rowsOf : Nat → Nat → Row K} {n : Nat} {a s : St K}
    (hs : Steps sync nodes points t rowsOf n a s) :
    s.mpos + ∑ r ∈ Finset.range nodes, s.pos r = n + (a.mpos + ∑ r ∈ Finset.range nodes, a.pos r) := by
  induction hs with
  | refl => omega
  | tail _ hst ih =>
    have key : ∀ (f : Nat → Nat) (r : Nat), r < nodes →
        ∑ q ∈ Finset.range nodes, (if q = r then f q + 1 else f q) = ∑ q ∈ Finset.range nodes, f q + 1 := by
      intro f r hr
      have : ∀ q, (if q = r then f q + 1 else f q) = f q + if q = r then 1 else 0 := by
        intro q; split <;> rfl
      simp only [this, Finset.sum_add_distrib]
      rw [Finset.sum_ite_eq' (Finset.range nodes) r (fun _ => 1), if_pos (Finset.mem_range.mpr hr)]
    cases hst with
    | own h ho => simp only []; omega
    | recv h ho m ms hc => simp only []; omega
    | skip r hr0 hrn h ho hb => simp only []; rw [key _ r hrn]; omega
    | send r hr0 hrn h ho hb => simp only []; rw [key _ r hrn]; omega

/-- **C115.** Every execution ends: no run has more than `2 * points * (nodes + 1)` steps. With `C115_no_deadlock`, every maximal run ends with all loops finished. -/
theorem C115_terminates {sync : Bool} {nodes points t : Nat} (hn : 0 < nodes) {val zeros : Nat → Row K}
    (hw : ∀ i, (val i).perm0.length = t ∧ (val i).perm1.length = t)
    {n : Nat} {s : St K} (hs : Steps sync nodes points t (localRows nodes val zeros) n (start nodes val zeros) s) :
    n ≤ 2 * points * (nodes + 1) := by
  have hi := inv_steps hn hw (inv_start nodes points val zeros) hs
  have hc := steps_count hs
  have hsum : ∑ r ∈ Finset.range nodes, s.pos r ≤ nodes * (2 * points) := by
    calc ∑ r ∈ Finset.range nodes, s.pos r ≤ ∑ _r ∈ Finset.range nodes, (2 * points) :=
          Finset.sum_le_sum fun r _ => hi.ple r
      _ = nodes * (2 * points) := by simp
  have h0 : ((start nodes val zeros).mpos + ∑ r ∈ Finset.range nodes, (start nodes val zeros).pos r) = 0 := by
    simp [start]
  rw [h0] at hc
  have := hi.mle
  calc n ≤ 2 * points + nodes * (2 * points) := by omega
    _ = _ := by ring

/-- A complete run exists: with `C115_no_deadlock` and `C115_terminates` every run can be continued to one that has ended. -/
theorem C115_completes {sync : Bool} {nodes points t : Nat} (hn : 0 < nodes) {val zeros : Nat → Row K}
    (hw : ∀ i, (val i).perm0.length = t ∧ (val i).perm1.length = t)
    {n : Nat} {s : St K} (hs : Steps sync nodes points t (localRows nodes val zeros) n (start nodes val zeros) s) :
    ∃ m u, Steps sync nodes points t (localRows nodes val zeros) m (start nodes val zeros) u ∧ n ≤ m ∧ u.mpos = 2 * points ∧
      ∀ r, 0 < r → r < nodes → u.pos r = 2 * points := by
  have key : ∀ (k n : Nat) (s : St K), Steps sync nodes points t (localRows nodes val zeros) n (start nodes val zeros) s → 2 * points * (nodes + 1) ≤ n + k →
      ∃ m u, Steps sync nodes points t (localRows nodes val zeros) m (start nodes val zeros) u ∧ n ≤ m ∧ u.mpos = 2 * points ∧
        ∀ r, 0 < r → r < nodes → u.pos r = 2 * points := by
    intro k
    induction k with
    | zero =>
      intro n s hs hk
      by_cases hd : s.mpos < 2 * points ∨ ∃ r, 0 < r ∧ r < nodes ∧ s.pos r < 2 * points
      · obtain ⟨u, hu⟩ := C115_no_deadlock hn hw hs hd
        have := C115_terminates hn hw (Steps.tail hs hu)
        omega
      · have hi := inv_steps hn hw (inv_start nodes points val zeros) hs
        refine ⟨n, s, hs, le_refl _, ?_, ?_⟩
        · have := hi.mle; have := fun h => hd (Or.inl h); omega
        · intro r h0 h1; exact le_antisymm (hi.ple r) (not_lt.mp fun h => hd (Or.inr ⟨r, h0, h1, h⟩))
    | succ k ih =>
      intro n s hs hk
      by_cases hd : s.mpos < 2 * points ∨ ∃ r, 0 < r ∧ r < nodes ∧ s.pos r < 2 * points
      · obtain ⟨u, hu⟩ := C115_no_deadlock hn hw hs hd
        obtain ⟨m, v, h1, h2, h3⟩ := ih (n + 1) u (Steps.tail hs hu) (by omega)
        exact ⟨m, v, h1, by omega, h3⟩
      · have hi := inv_steps hn hw (inv_start nodes points val zeros) hs
        refine ⟨n, s, hs, le_refl _, ?_, ?_⟩
        · have := hi.mle; have := fun h => hd (Or.inl h); omega
        · intro r h0 h1; exact le_antisymm (hi.ple r) (not_lt.mp fun h => hd (Or.inr ⟨r, h0, h1, h⟩))
  exact key (2 * points * (nodes + 1)) n s hs (by omega)

/-- The hypotheses are met, e.g. by three ranks and one tensor element: a run to the end. -/
example : ∃ m u, Steps true 3 4 1 (localRows 3 (fun i => ⟨i, [i + 10], [i + 20]⟩) (fun _ => ⟨0, [0], [0]⟩)) m
    (start 3 (fun i => (⟨i, [i + 10], [i + 20]⟩ : Row Nat)) (fun _ => ⟨0, [0], [0]⟩)) u ∧ u.mpos = 8 ∧ u.mem 3 = ⟨3, [13], [23]⟩ := by
  obtain ⟨m, u, h1, _, h2, _⟩ := C115_completes (sync := true) (nodes := 3) (points := 4) (t := 1) (by decide)
    (val := fun i => (⟨i, [i + 10], [i + 20]⟩ : Row Nat)) (zeros := fun _ => ⟨0, [0], [0]⟩) (fun i => ⟨rfl, rfl⟩) (Steps.refl _)
  have h3 := C115_gathered (nodes := 3) (t := 1) (val := fun i => (⟨i, [i + 10], [i + 20]⟩ : Row Nat)) (by decide) (fun i => ⟨rfl, rfl⟩) h1 h2 3 (by decide)
  exact ⟨m, u, h1, h2, h3⟩

end Verif.VGather
