import Verif.Spec.Dense
import Mathlib.Tactic.Ring
import Mathlib.Tactic.Linarith
import Mathlib.Algebra.BigOperators.Fin

namespace Verif.Dense

variable {K : Type}

theorem idx_lt (o : Ordering) {rows cols r c : Nat} (hr : r < rows) (hc : c < cols) :
    o.idx rows cols r c < rows * cols := by
  cases o
  · show r * cols + c < rows * cols
    calc r * cols + c < r * cols + cols := by omega
      _ = (r + 1) * cols := by ring
      _ ≤ rows * cols := Nat.mul_le_mul_right _ hr
  · show r + c * rows < rows * cols
    calc r + c * rows < rows + c * rows := by omega
      _ = rows * (c + 1) := by ring
      _ ≤ rows * cols := Nat.mul_le_mul_left _ hc

theorem idx_c_div {cols r c : Nat} (hc : c < cols) : (r * cols + c) / cols = r := by
  rw [Nat.mul_comm, Nat.mul_add_div (by omega), Nat.div_eq_of_lt hc, Nat.add_zero]

theorem idx_c_mod {cols r c : Nat} (hc : c < cols) : (r * cols + c) % cols = c := by
  rw [Nat.mul_comm, Nat.mul_add_mod, Nat.mod_eq_of_lt hc]

theorem idx_f_div {rows r c : Nat} (hr : r < rows) : (r + c * rows) / rows = c := by
  rw [Nat.add_comm]; exact idx_c_div hr

theorem idx_f_mod {rows r c : Nat} (hr : r < rows) : (r + c * rows) % rows = r := by
  rw [Nat.add_comm]; exact idx_c_mod hr

theorem idx_inj (o : Ordering) {rows cols r c r' c' : Nat} (hr : r < rows) (hc : c < cols)
    (hr' : r' < rows) (hc' : c' < cols) (h : o.idx rows cols r c = o.idx rows cols r' c') :
    r = r' ∧ c = c' := by
  cases o
  · have h' : r * cols + c = r' * cols + c' := h
    constructor
    · have := congrArg (· / cols) h'
      simpa [idx_c_div hc, idx_c_div hc'] using this
    · have := congrArg (· % cols) h'
      simpa [idx_c_mod hc, idx_c_mod hc'] using this
  · have h' : r + c * rows = r' + c' * rows := h
    constructor
    · have := congrArg (· % rows) h'
      simpa [idx_f_mod hr, idx_f_mod hr'] using this
    · have := congrArg (· / rows) h'
      simpa [idx_f_div hr, idx_f_div hr'] using this

theorem idx_surj (o : Ordering) {rows cols p : Nat} (hp : p < rows * cols) :
    ∃ r c, r < rows ∧ c < cols ∧ o.idx rows cols r c = p := by
  cases o
  · have hc : 0 < cols := by
      rcases Nat.eq_zero_or_pos cols with h | h
      · simp [h] at hp
      · exact h
    refine ⟨p / cols, p % cols, ?_, Nat.mod_lt _ hc, ?_⟩
    · exact Nat.div_lt_of_lt_mul (by rwa [Nat.mul_comm])
    · show p / cols * cols + p % cols = p
      rw [Nat.mul_comm]; exact Nat.div_add_mod p cols
  · have hc : 0 < rows := by
      rcases Nat.eq_zero_or_pos rows with h | h
      · simp [h] at hp
      · exact h
    refine ⟨p % rows, p / rows, Nat.mod_lt _ hc, ?_, ?_⟩
    · exact Nat.div_lt_of_lt_mul hp
    · show p % rows + p / rows * rows = p
      rw [Nat.mul_comm]; exact Nat.mod_add_div p rows

namespace FullMatrix

theorem get_eq (A : FullMatrix K) (hA : WF A) {r c : Nat} (hr : r < A.rows) (hc : c < A.cols) :
    ∃ (h : A.ord.idx A.rows A.cols r c < A.data.length),
      A.get r c = some (A.data[A.ord.idx A.rows A.cols r c]) := by
  have h : A.ord.idx A.rows A.cols r c < A.data.length := by
    rw [hA]; exact idx_lt _ hr hc
  exact ⟨h, by simp [get, hr, hc, h]⟩

theorem set_ok (A : FullMatrix K) (hA : WF A) {r c : Nat} (hr : r < A.rows) (hc : c < A.cols) (v : K) :
    A.set r c v = some { A with data := A.data.set (A.ord.idx A.rows A.cols r c) v } := by
  have h : A.ord.idx A.rows A.cols r c < A.data.length := by
    rw [hA]; exact idx_lt _ hr hc
  simp [set, hr, hc, h]

/-- Full description of one write. -/
theorem set_spec (A : FullMatrix K) (hA : WF A) {r c : Nat} (hr : r < A.rows) (hc : c < A.cols) (v : K) :
    ∃ A', A.set r c v = some A' ∧ A'.rows = A.rows ∧ A'.cols = A.cols ∧ A'.ord = A.ord ∧ WF A' ∧
      A'.get r c = some v ∧
      ∀ r' c', (r', c') ≠ (r, c) → A'.get r' c' = A.get r' c' := by
  have h : A.ord.idx A.rows A.cols r c < A.data.length := by
    rw [hA]; exact idx_lt _ hr hc
  refine ⟨_, set_ok A hA hr hc v, rfl, rfl, rfl, ?_, ?_, ?_⟩
  · show (A.data.set _ v).length = A.rows * A.cols
    rw [List.length_set]; exact hA
  · simp [get, hr, hc, h]
  · intro r' c' hne
    simp only [get]
    split
    · rename_i hb
      rw [List.getElem?_set_ne]
      intro heq
      obtain ⟨h1, h2⟩ := idx_inj _ hr hc hb.1 hb.2 heq
      exact hne (by rw [h1, h2])
    · rfl

theorem set_none_of_not (A : FullMatrix K) {r c : Nat} (h : ¬ (r < A.rows ∧ c < A.cols)) (v : K) :
    A.set r c v = none := by
  simp only [set, if_neg h]

theorem get_none_of_not (A : FullMatrix K) {r c : Nat} (h : ¬ (r < A.rows ∧ c < A.cols)) :
    A.get r c = none := by
  simp only [get, if_neg h]

theorem mem_rowMajor {rows cols : Nat} {rc : Nat × Nat} :
    rc ∈ rowMajorPairs rows cols ↔ rc.1 < rows ∧ rc.2 < cols := by
  obtain ⟨r, c⟩ := rc
  simp [rowMajorPairs]

theorem mem_colMajor {rows cols : Nat} {rc : Nat × Nat} :
    rc ∈ colMajorPairs rows cols ↔ rc.1 < rows ∧ rc.2 < cols := by
  obtain ⟨r, c⟩ := rc
  simp only [colMajorPairs, List.mem_flatMap, List.mem_range, List.mem_map, Prod.mk.injEq]
  constructor
  · rintro ⟨c', hc', r', hr', rfl, rfl⟩; exact ⟨hr', hc'⟩
  · rintro ⟨hr, hc⟩; exact ⟨c, hc, r, hr, rfl, rfl⟩

theorem nodup_rowMajor (rows cols : Nat) : (rowMajorPairs rows cols).Nodup := by
  unfold rowMajorPairs
  rw [List.nodup_flatMap]
  refine ⟨fun r _ => ?_, ?_⟩
  · exact (List.nodup_range).map (fun a b h => by simpa using h)
  · apply List.Pairwise.imp _ List.nodup_range
    intro a b hab
    simp only [Function.onFun, List.Disjoint]
    intro x hx hy
    simp only [List.mem_map] at hx hy
    obtain ⟨_, _, rfl⟩ := hx
    obtain ⟨_, _, h⟩ := hy
    simp at h
    exact hab h.1.symm

theorem nodup_colMajor (rows cols : Nat) : (colMajorPairs rows cols).Nodup := by
  unfold colMajorPairs
  rw [List.nodup_flatMap]
  refine ⟨fun r _ => ?_, ?_⟩
  · exact (List.nodup_range).map (fun a b h => by simpa using h)
  · apply List.Pairwise.imp _ List.nodup_range
    intro a b hab
    simp only [Function.onFun, List.Disjoint]
    intro x hx hy
    simp only [List.mem_map] at hx hy
    obtain ⟨_, _, rfl⟩ := hx
    obtain ⟨_, _, h⟩ := hy
    simp at h
    exact hab h.2.symm

/-- A loop whose body writes entry `rc` with a value that does not depend on the matrix being written. -/
theorem foldlM_set_spec (f : Nat × Nat → K) (step : FullMatrix K → Nat × Nat → Option (FullMatrix K))
    (rows cols : Nat)
    (hstep : ∀ X rc, WF X → X.rows = rows → X.cols = cols → rc.1 < rows → rc.2 < cols →
      ∃ X', step X rc = some X' ∧ X'.rows = rows ∧ X'.cols = cols ∧ X'.ord = X.ord ∧ WF X' ∧
        X'.get rc.1 rc.2 = some (f rc) ∧ ∀ r' c', (r', c') ≠ rc → X'.get r' c' = X.get r' c')
    (l : List (Nat × Nat)) :
    (∀ rc ∈ l, rc.1 < rows ∧ rc.2 < cols) → ∀ X : FullMatrix K, WF X → X.rows = rows → X.cols = cols →
    ∃ X', l.foldlM step X = some X' ∧ X'.rows = rows ∧ X'.cols = cols ∧ X'.ord = X.ord ∧ WF X' ∧
      ∀ rc, X'.get rc.1 rc.2 = if rc ∈ l then some (f rc) else X.get rc.1 rc.2 := by
  induction l with
  | nil => intro _ X hX h1 h2; exact ⟨X, by simp, h1, h2, rfl, hX, by simp⟩
  | cons a l ih =>
    intro hl X hX h1 h2
    obtain ⟨X1, hs, hr, hc, ho, hw, hg, hrest⟩ := hstep X a hX h1 h2 (hl a (by simp)).1 (hl a (by simp)).2
    obtain ⟨X2, hf, hr2, hc2, ho2, hw2, hg2⟩ := ih (fun rc h => hl rc (by simp [h])) X1 hw hr hc
    refine ⟨X2, by simp [List.foldlM_cons, hs, hf], hr2, hc2, by rw [ho2, ho], hw2, ?_⟩
    intro rc
    rw [hg2 rc]
    by_cases h : rc ∈ l
    · simp [h]
    · by_cases ha : rc = a
      · subst ha; simp [h, hg]
      · simp only [h, if_false, List.mem_cons, ha, or_self]
        exact hrest _ _ ha

end FullMatrix
end Verif.Dense
