import Verif.Model.Collect
import Mathlib.Data.List.Basic
import Mathlib.Algebra.BigOperators.Group.Finset.Basic
import Mathlib.Algebra.BigOperators.Fin
import Mathlib.Algebra.Order.BigOperators.Group.Finset
import Mathlib.Tactic.Ring

/-!
C32: the pressure points are distributed over the ranks and gathered on the master under every interleaving.
-/

namespace Verif.Collect

variable {K : Type}

/-- **C32.** Every point is assigned to one existing rank. -/
theorem C32_owner_valid (nodes idx : Nat) (hn : 0 < nodes) : ∃ r, r < nodes ∧ ∀ r', owner nodes idx = r' ↔ r' = r :=
  ⟨owner nodes idx, by unfold owner; omega, fun _ => eq_comm⟩

/-- Number of points owned by a rank. -/
def load (nodes points r : Nat) : Nat := ((List.range points).filter fun i => owner nodes i = r).length

theorem load_eq (nodes points r : Nat) (hr : r < nodes) : load nodes points r = (points + r) / nodes := by
  induction points with
  | zero => simp [load, Nat.div_eq_of_lt hr]
  | succ p ih =>
    unfold load at ih ⊢
    rw [List.range_succ, List.filter_append, List.length_append, ih]
    have e : p + 1 + r = (p + r) + 1 := by omega
    rw [e, Nat.succ_div]
    congr 1
    have hm := Nat.mod_lt p (show 0 < nodes by omega)
    have hdiv : nodes ∣ p + r + 1 ↔ owner nodes p = r := by
      unfold owner
      rw [Nat.dvd_iff_mod_eq_zero]
      have h2 : (p + r + 1) % nodes = (p % nodes + (r + 1)) % nodes := by
        rw [Nat.mod_add_mod, show p + r + 1 = p + (r + 1) by omega]
      rw [h2]
      constructor
      · intro h
        by_cases hlt : p % nodes + (r + 1) < nodes
        · rw [Nat.mod_eq_of_lt hlt] at h; omega
        · rw [Nat.mod_eq_sub_mod (by omega)] at h
          rw [Nat.mod_eq_of_lt (by omega)] at h
          omega
      · intro h
        rw [show p % nodes + (r + 1) = nodes by omega, Nat.mod_self]
    by_cases h : owner nodes p = r
    · simp [h, hdiv]
    · simp [h, hdiv]

/-- **C32.** The loads of any two ranks differ by at most one, and the master never has more than another rank. -/
theorem C32_balanced (nodes points r r' : Nat) (hr : r < nodes) (hr' : r' < nodes) :
    load nodes points r ≤ load nodes points r' + 1 ∧ load nodes points 0 ≤ load nodes points r := by
  rw [load_eq _ _ _ hr, load_eq _ _ _ hr', load_eq _ _ 0 (by omega)]
  constructor
  · calc (points + r) / nodes ≤ (points + r' + nodes) / nodes := Nat.div_le_div_right (by omega)
      _ = _ := Nat.add_div_right _ (by omega)
  · exact Nat.div_le_div_right (by omega)

example : (List.range 7).map (owner 3) = [2, 1, 0, 2, 1, 0, 2] ∧ load 3 7 0 = 2 ∧ load 3 7 2 = 3 := by decide

/-! ### the invariant -/

theorem unpack_pack (both : Bool) (t idx : Nat) (old r : Row K) (h0 : r.perm0.length = t)
    (h1 : both = true → r.perm1.length = t) (hold : both = false → r.perm1 = old.perm1) :
    unpack both t old (pack both idx r).2 = r := by
  cases both with
  | false =>
    simp only [pack, unpack, Bool.false_eq_true, if_false, List.append_nil]
    rw [List.take_of_length_le (by omega), ← hold rfl]
  | true =>
    simp only [pack, unpack, if_true]
    rw [← h0, List.take_left, List.drop_left, List.take_of_length_le (by rw [h1 rfl, h0])]

/-- What is true between steps. -/
structure Inv (both : Bool) (nodes points : Nat) (val zeros : Nat → Row K) (s : St K) : Prop where
  mle : s.mpos ≤ points
  ple : ∀ r, s.pos r ≤ points
  seen : ∀ i, i < s.mpos → owner nodes i ≠ 0 → i < s.pos (owner nodes i)
  chan : ∀ r, 0 < r → r < nodes → s.chan r =
    ((List.range' s.mpos (s.pos r - s.mpos)).filter fun i => owner nodes i = r).map fun i => pack both i (val i)
  done : ∀ i, i < points → (i < s.mpos ∨ owner nodes i = 0) → s.mem i = val i
  todo : ∀ i, s.mpos ≤ i → owner nodes i ≠ 0 → s.mem i = zeros i

theorem inv_init (both : Bool) (nodes points : Nat) (val zeros : Nat → Row K) :
    Inv both nodes points val zeros (St.init nodes val zeros) := by
  refine ⟨Nat.zero_le _, fun _ => Nat.zero_le _, fun i hi => absurd hi (Nat.not_lt_zero _), ?_, ?_, ?_⟩
  · intro r _ _
    simp [St.init]
  · intro i _ h
    have h0 : owner nodes i = 0 := by
      rcases h with h | h
      · exact absurd h (Nat.not_lt_zero _)
      · exact h
    simp [St.init, localMem, h0]
  · intro i _ h0
    simp [St.init, localMem, h0]

theorem inv_step {sync both : Bool} {nodes points t : Nat} (hn : 0 < nodes) {val zeros : Nat → Row K}
    (hw : ∀ i, (val i).perm0.length = t ∧ (both = true → (val i).perm1.length = t) ∧
      (both = false → (val i).perm1 = (zeros i).perm1))
    {s u : St K} (hs : Step sync both nodes points t (localMem nodes val zeros) s u)
    (hi : Inv both nodes points val zeros s) : Inv both nodes points val zeros u := by
  cases hs with
  | own h ho =>
    refine ⟨h, hi.ple, ?_, ?_, ?_, ?_⟩
    · intro i hlt h0
      have hlt : i < s.mpos + 1 := hlt
      have : i ≠ s.mpos := by rintro rfl; exact h0 ho
      exact hi.seen i (by omega) h0
    · intro r hr0 hrn
      show s.chan r = _
      rw [hi.chan r hr0 hrn]
      congr 1
      show _ = (List.range' (s.mpos + 1) (s.pos r - (s.mpos + 1))).filter _
      by_cases hp : s.mpos < s.pos r
      · rw [show s.pos r - s.mpos = (s.pos r - (s.mpos + 1)) + 1 by omega, List.range'_succ, List.filter_cons]
        have : ¬ owner nodes s.mpos = r := by omega
        simp [this]
      · rw [show s.pos r - s.mpos = 0 by omega, show s.pos r - (s.mpos + 1) = 0 by omega]
        rfl
    · intro i hip h'
      apply hi.done i hip
      rcases h' with h' | h'
      · have h' : i < s.mpos + 1 := h'
        by_cases he : i = s.mpos
        · right; rw [he]; exact ho
        · left; omega
      · exact Or.inr h'
    · intro i hle h0
      have hle : s.mpos + 1 ≤ i := hle
      exact hi.todo i (by omega) h0
  | recv h ho m ms hc =>
    have hown : owner nodes s.mpos < nodes := by unfold owner; omega
    have hch := hi.chan (owner nodes s.mpos) (by omega) hown
    have hp : s.mpos < s.pos (owner nodes s.mpos) := by
      by_contra hp
      rw [show s.pos (owner nodes s.mpos) - s.mpos = 0 by omega] at hch
      rw [hc] at hch
      exact absurd hch (by simp)
    have hch' : s.chan (owner nodes s.mpos) = pack both s.mpos (val s.mpos) ::
        ((List.range' (s.mpos + 1) (s.pos (owner nodes s.mpos) - (s.mpos + 1))).filter
          fun i => owner nodes i = owner nodes s.mpos).map fun i => pack both i (val i) := by
      rw [hch, show s.pos (owner nodes s.mpos) - s.mpos = (s.pos (owner nodes s.mpos) - (s.mpos + 1)) + 1 by omega,
        List.range'_succ, List.filter_cons]
      simp
    rw [hc] at hch'
    obtain ⟨hm, hms⟩ := List.cons.inj hch'
    have hm1 : m.1 = s.mpos := by rw [hm]; rfl
    refine ⟨h, hi.ple, ?_, ?_, ?_, ?_⟩
    · intro i hlt h0
      have hlt : i < s.mpos + 1 := hlt
      by_cases he : i = s.mpos
      · rw [he]; exact hp
      · exact hi.seen i (by omega) h0
    · intro r hr0 hrn
      show (if r = owner nodes s.mpos then ms else s.chan r) =
        ((List.range' (s.mpos + 1) (s.pos r - (s.mpos + 1))).filter fun i => owner nodes i = r).map _
      by_cases hr : r = owner nodes s.mpos
      · rw [if_pos hr, hms, hr]
      · rw [if_neg hr, hi.chan r hr0 hrn]
        congr 1
        by_cases hp : s.mpos < s.pos r
        · rw [show s.pos r - s.mpos = (s.pos r - (s.mpos + 1)) + 1 by omega, List.range'_succ, List.filter_cons]
          have : ¬ owner nodes s.mpos = r := fun h => hr h.symm
          simp [this]
        · rw [show s.pos r - s.mpos = 0 by omega, show s.pos r - (s.mpos + 1) = 0 by omega]
          rfl
    · intro i hip h'
      show (if i = m.1 then unpack both t (s.mem i) m.2 else s.mem i) = val i
      rw [hm1]
      by_cases he : i = s.mpos
      · rw [if_pos he, he, hm]
        obtain ⟨w1, w2, w3⟩ := hw s.mpos
        apply unpack_pack both t _ _ _ w1 w2
        intro hb
        rw [hi.todo s.mpos (le_refl _) ho]
        exact w3 hb
      · rw [if_neg he]
        apply hi.done i hip
        rcases h' with h' | h'
        · have h' : i < s.mpos + 1 := h'
          left; omega
        · exact Or.inr h'
    · intro i hle h0
      have hle : s.mpos + 1 ≤ i := hle
      show (if i = m.1 then unpack both t (s.mem i) m.2 else s.mem i) = zeros i
      rw [if_neg (by omega)]
      exact hi.todo i (by omega) h0
  | skip r hr0 hrn h ho hb =>
    refine ⟨hi.mle, ?_, ?_, ?_, hi.done, hi.todo⟩
    · intro q
      show (if q = r then s.pos q + 1 else s.pos q) ≤ points
      have := hi.ple q
      split
      · rename_i e; rw [e]; omega
      · exact this
    · intro i hlt h0
      show i < (if owner nodes i = r then s.pos (owner nodes i) + 1 else s.pos (owner nodes i))
      have := hi.seen i hlt h0
      split <;> omega
    · intro q hq0 hqn
      show s.chan q = ((List.range' s.mpos ((if q = r then s.pos q + 1 else s.pos q) - s.mpos)).filter _).map _
      rw [hi.chan q hq0 hqn]
      by_cases hq : q = r
      · subst hq
        rw [if_pos rfl]
        congr 1
        by_cases hp : s.mpos ≤ s.pos q
        · rw [show s.pos q + 1 - s.mpos = (s.pos q - s.mpos) + 1 by omega, List.range'_concat, List.filter_append,
            Nat.one_mul, show s.mpos + (s.pos q - s.mpos) = s.pos q by omega]
          simp [ho]
        · rw [show s.pos q + 1 - s.mpos = 0 by omega, show s.pos q - s.mpos = 0 by omega]
      · rw [if_neg hq]
  | send r hr0 hrn h ho hb =>
    have hle : s.mpos ≤ s.pos r := by
      by_contra hlt
      have := hi.seen (s.pos r) (by omega) (by omega)
      rw [ho] at this
      omega
    refine ⟨hi.mle, ?_, ?_, ?_, hi.done, hi.todo⟩
    · intro q
      show (if q = r then s.pos q + 1 else s.pos q) ≤ points
      have := hi.ple q
      split
      · rename_i e; rw [e]; omega
      · exact this
    · intro i hlt h0
      show i < (if owner nodes i = r then s.pos (owner nodes i) + 1 else s.pos (owner nodes i))
      have := hi.seen i hlt h0
      split <;> omega
    · intro q hq0 hqn
      show (if q = r then s.chan q ++ [pack both (s.pos r) (localMem nodes val zeros r (s.pos r))] else s.chan q) =
        ((List.range' s.mpos ((if q = r then s.pos q + 1 else s.pos q) - s.mpos)).filter _).map _
      by_cases hq : q = r
      · subst hq
        rw [if_pos rfl, if_pos rfl, hi.chan q hq0 hqn,
          show s.pos q + 1 - s.mpos = (s.pos q - s.mpos) + 1 by omega, List.range'_concat, List.filter_append,
          Nat.one_mul, show s.mpos + (s.pos q - s.mpos) = s.pos q by omega, List.map_append]
        simp [ho, localMem]
      · rw [if_neg hq, if_neg hq]
        exact hi.chan q hq0 hqn

theorem inv_steps {sync both : Bool} {nodes points t : Nat} (hn : 0 < nodes) {val zeros : Nat → Row K}
    (hw : ∀ i, (val i).perm0.length = t ∧ (both = true → (val i).perm1.length = t) ∧
      (both = false → (val i).perm1 = (zeros i).perm1))
    {n : Nat} {a s : St K} (ha : Inv both nodes points val zeros a)
    (hs : Steps sync both nodes points t (localMem nodes val zeros) n a s) : Inv both nodes points val zeros s := by
  induction hs with
  | refl => exact ha
  | tail _ hst ih => exact inv_step hn hw hst (ih ha)

/-- **C32.** Whatever the interleaving of the ranks and whether sends are buffered or wait for the receiver: when the
master's loop has ended it holds, for every point, the values computed by the owner of the point. -/
theorem C32_gathered {sync both : Bool} {nodes points t : Nat} (hn : 0 < nodes) {val zeros : Nat → Row K}
    (hw : ∀ i, (val i).perm0.length = t ∧ (both = true → (val i).perm1.length = t) ∧
      (both = false → (val i).perm1 = (zeros i).perm1))
    {n : Nat} {s : St K} (hs : Steps sync both nodes points t (localMem nodes val zeros) n (St.init nodes val zeros) s)
    (hd : s.mpos = points) : ∀ i, i < points → s.mem i = val i := by
  intro i hi
  exact (inv_steps hn hw (inv_init both nodes points val zeros) hs).done i hi (Or.inl (by omega))

/-- **C32.** No interleaving deadlocks: as long as some rank's loop has not ended, some rank can make a step. -/
theorem C32_no_deadlock {sync both : Bool} {nodes points t : Nat} (hn : 0 < nodes) {val zeros : Nat → Row K}
    (hw : ∀ i, (val i).perm0.length = t ∧ (both = true → (val i).perm1.length = t) ∧
      (both = false → (val i).perm1 = (zeros i).perm1))
    {n : Nat} {s : St K} (hs : Steps sync both nodes points t (localMem nodes val zeros) n (St.init nodes val zeros) s)
    (hd : s.mpos < points ∨ ∃ r, 0 < r ∧ r < nodes ∧ s.pos r < points) :
    ∃ u, Step sync both nodes points t (localMem nodes val zeros) s u := by
  have hi := inv_steps hn hw (inv_init both nodes points val zeros) hs
  have move : ∀ r, 0 < r → r < nodes → s.pos r < points → s.chan r = [] →
      ∃ u, Step sync both nodes points t (localMem nodes val zeros) s u := by
    intro r h0 h1 h2 h3
    by_cases ho : owner nodes (s.pos r) = r
    · exact ⟨_, Step.send s r h0 h1 h2 ho (fun _ => h3)⟩
    · exact ⟨_, Step.skip s r h0 h1 h2 ho (fun _ => h3)⟩
  by_cases hm : s.mpos < points
  · by_cases ho : owner nodes s.mpos = 0
    · exact ⟨_, Step.own s hm ho⟩
    · have hown : owner nodes s.mpos < nodes := by unfold owner; omega
      cases hc : s.chan (owner nodes s.mpos) with
      | cons m ms => exact ⟨_, Step.recv s hm ho m ms hc⟩
      | nil =>
        apply move _ (by omega) hown _ hc
        by_contra hp
        have hch := hi.chan (owner nodes s.mpos) (by omega) hown
        rw [hc, show s.pos (owner nodes s.mpos) - s.mpos = (s.pos (owner nodes s.mpos) - (s.mpos + 1)) + 1 by omega,
          List.range'_succ, List.filter_cons] at hch
        simp at hch
  · obtain ⟨r, h0, h1, h2⟩ : ∃ r, 0 < r ∧ r < nodes ∧ s.pos r < points := by
      rcases hd with h | h
      · exact absurd h hm
      · exact h
    have := hi.mle
    apply move r h0 h1 h2
    rw [hi.chan r h0 h1, show s.pos r - s.mpos = 0 by omega]
    rfl

theorem steps_count {sync both : Bool} {nodes points t : Nat} {rowsOf : Nat → Nat → Row K} {n : Nat} {a s : St K}
    (hs : Steps sync both nodes points t rowsOf n a s) :
    s.mpos + ∑ r ∈ Finset.range nodes, s.pos r = n + (a.mpos + ∑ r ∈ Finset.range nodes, a.pos r) := by
  induction hs with
  | refl => omega
  | tail _ hst ih =>
    have key : ∀ (f : Nat → Nat) (r : Nat), r < nodes →
        ∑ q ∈ Finset.range nodes, (if q = r then f q + 1 else f q) = ∑ q ∈ Finset.range nodes, f q + 1 := by
      intro f r hr
      have : ∀ q, (if q = r then f q + 1 else f q) = f q + if q = r then 1 else 0 := by
        intro q; split <;> rfl
      simp only [this, Finset.sum_add_distrib]
      rw [Finset.sum_ite_eq' (Finset.range nodes) r (fun _ => 1), if_pos (Finset.mem_range.mpr hr)]
    cases hst with
    | own h ho => simp only []; omega
    | recv h ho m ms hc => simp only []; omega
    | skip r hr0 hrn h ho hb => simp only []; rw [key _ r hrn]; omega
    | send r hr0 hrn h ho hb => simp only []; rw [key _ r hrn]; omega

/-- **C32.** Every execution ends: no run has more than `points * (nodes + 1)` steps. With `C32_no_deadlock`, every
maximal run ends with all loops finished. -/
theorem C32_terminates {sync both : Bool} {nodes points t : Nat} (hn : 0 < nodes) {val zeros : Nat → Row K}
    (hw : ∀ i, (val i).perm0.length = t ∧ (both = true → (val i).perm1.length = t) ∧
      (both = false → (val i).perm1 = (zeros i).perm1))
    {n : Nat} {s : St K} (hs : Steps sync both nodes points t (localMem nodes val zeros) n (St.init nodes val zeros) s) :
    n ≤ points * (nodes + 1) := by
  have hi := inv_steps hn hw (inv_init both nodes points val zeros) hs
  have hc := steps_count hs
  have hsum : ∑ r ∈ Finset.range nodes, s.pos r ≤ nodes * points := by
    calc ∑ r ∈ Finset.range nodes, s.pos r ≤ ∑ _r ∈ Finset.range nodes, points :=
          Finset.sum_le_sum fun r _ => hi.ple r
      _ = nodes * points := by simp
  have h0 : ((St.init nodes val zeros).mpos + ∑ r ∈ Finset.range nodes, (St.init nodes val zeros).pos r) = 0 := by
    simp [St.init]
  rw [h0] at hc
  have := hi.mle
  calc n ≤ points + nodes * points := by omega
    _ = _ := by ring

/-- The hypotheses are met, e.g. by three ranks, two phases and one tensor element; the first step of a run. -/
example : ∃ u : St Nat, Step true true 3 4 1 (localMem 3 (fun i => ⟨i, [i + 10], [i + 20]⟩) (fun _ => ⟨0, [0], [0]⟩))
    (St.init 3 (fun i => ⟨i, [i + 10], [i + 20]⟩) (fun _ => ⟨0, [0], [0]⟩)) u ∧ u.chan 2 = [(0, [0, 10, 20])] :=
  ⟨_, Step.send _ 2 (by decide) (by decide) (by decide) (by decide) (fun _ => rfl), rfl⟩

end Verif.Collect
