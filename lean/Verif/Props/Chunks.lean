import Verif.Model.Coloring
import Verif.Spec.Coloring
import Mathlib.Data.List.Basic
import Mathlib.Data.List.Range
import Mathlib.Tactic.Ring
import Mathlib.Tactic.Linarith

/-! C41: the chunks of the progress helper. -/

namespace Verif.Coloring

theorem bumps_get (l : List Nat) (a r : Nat) (i : Nat) :
    ((List.range' a r).foldl (fun l i => l.modify i (· + 1)) l)[i]? =
      (l[i]?).map fun x => if a ≤ i ∧ i < a + r then x + 1 else x := by
  induction r generalizing a l with
  | zero =>
    have : ¬ (a ≤ i ∧ i < a + 0) := by omega
    simp only [if_neg this, List.range'_zero, List.foldl_nil, Option.map_id']
  | succ r ih =>
    rw [List.range'_succ, List.foldl_cons, ih]
    rw [List.getElem?_modify]
    cases l[i]? with
    | none => simp
    | some x =>
      by_cases h1 : a = i
      · subst h1
        have h2 : ¬ (a + 1 ≤ a ∧ a < a + 1 + r) := by omega
        have h3 : a ≤ a ∧ a < a + (r + 1) := by omega
        simp
      · by_cases h2 : a ≤ i ∧ i < a + (r + 1)
        · have h3 : a + 1 ≤ i ∧ i < a + 1 + r := by omega
          simp [h1, h2, h3]
        · have h3 : ¬ (a + 1 ≤ i ∧ i < a + 1 + r) := by omega
          simp [h1, h2, h3]

/-- Start of chunk `i`. -/
def bound (max chunks i : Nat) : Nat := i * (max / chunks) + (i - (chunks - max % chunks))

theorem size_get (max chunks : Nat) (hc : 0 < chunks) {i : Nat} (hi : i < chunks) :
    (chunkSizes max chunks)[i]? = some (if chunks - max % chunks ≤ i then max / chunks + 1 else max / chunks) := by
  have hr := Nat.mod_lt max hc
  rw [chunkSizes, bumps_get]
  rw [List.getElem?_replicate, if_pos hi]
  have : (chunks - max % chunks ≤ i ∧ i < chunks - max % chunks + max % chunks) ↔ chunks - max % chunks ≤ i := by omega
  simp only [this, Option.map_some]

theorem bound_succ (max chunks : Nat) (i : Nat) : bound max chunks (i + 1) =
    bound max chunks i + (if chunks - max % chunks ≤ i then max / chunks + 1 else max / chunks) := by
  unfold bound
  rw [Nat.succ_mul]
  split <;> omega

theorem bound_zero (max chunks : Nat) : bound max chunks 0 = 0 := by unfold bound; omega

theorem bound_last (max chunks : Nat) (hc : 0 < chunks) : bound max chunks chunks = max := by
  unfold bound
  have := Nat.div_add_mod max chunks
  have hr := Nat.mod_lt max hc
  omega

theorem groups_fold (max chunks : Nat) (hc : 0 < chunks) (n : Nat) (hn : n + 1 ≤ chunks) :
    (List.range' 1 n).foldlM (fun g i => (g[i - 1]?).bind fun a => ((chunkSizes max chunks)[i - 1]?).map fun b =>
      g ++ [a + b]) [0] = some ((List.range (n + 1)).map (bound max chunks)) := by
  induction n with
  | zero => simp [bound_zero]
  | succ n ih =>
    rw [List.range'_1_concat, List.foldlM_append, ih (by omega)]
    change Option.bind _ _ = _
    have h1 : ((List.range (n + 1)).map (bound max chunks))[1 + n - 1]? = some (bound max chunks n) := by
      simp
    have h2 := size_get max chunks hc (i := 1 + n - 1) (by omega)
    have h4 : ∀ (g : List Nat) (f : List Nat → Nat → Option (List Nat)),
        (some g).bind (fun init => List.foldlM f init [1 + n]) = f g (1 + n) := by
      intro g f
      change (f g (1 + n)).bind (fun x => some x) = _
      rw [Option.bind_fun_some]
    rw [h4, h1, h2]
    have h3 : 1 + n - 1 = n := by omega
    rw [h3]
    change some _ = _
    beta_reduce
    rw [← bound_succ, List.range_succ (n := n + 1), List.map_append]
    rfl

theorem groups_eq (max chunks : Nat) (hc : 0 < chunks) :
    chunkGroups max chunks = some ((List.range (chunks + 1)).map (bound max chunks)) := by
  unfold chunkGroups
  rw [if_neg (by omega), groups_fold max chunks hc (chunks - 1) (by omega), Option.map_some,
    List.range_succ (n := chunks), List.map_append]
  have h : chunks - 1 + 1 = chunks := by omega
  rw [h]
  simp [bound_last max chunks hc]

theorem chunk_eq (max chunks : Nat) (hc : 0 < chunks) {i : Nat} (hi : i < chunks) :
    chunk max chunks i = some (bound max chunks i, bound max chunks (i + 1)) := by
  unfold chunk
  rw [groups_eq max chunks hc]
  have h1 : i < chunks + 1 := by omega
  have h2 : i + 1 < chunks + 1 := by omega
  simp [h1, hi]

theorem mapM_chunks (max chunks : Nat) (hc : 0 < chunks) (n : Nat) (hn : n ≤ chunks) :
    (List.range n).mapM (chunk max chunks) =
      some ((List.range n).map fun i => (bound max chunks i, bound max chunks (i + 1))) := by
  induction n with
  | zero => rfl
  | succ n ih =>
    rw [List.range_succ, List.mapM_append, ih (by omega)]
    simp [chunk_eq max chunks hc (show n < chunks by omega)]

theorem items_bounds (max chunks : Nat) (n : Nat) :
    items ((List.range n).map fun i => (bound max chunks i, bound max chunks (i + 1))) = List.range (bound max chunks n) := by
  induction n with
  | zero => simp [items, bound_zero]
  | succ n ih =>
    unfold items at ih ⊢
    rw [List.range_succ, List.map_append, List.flatMap_append, ih]
    have hle : bound max chunks n ≤ bound max chunks (n + 1) := by rw [bound_succ]; omega
    simp only [List.map_cons, List.map_nil, List.flatMap_cons, List.flatMap_nil, List.append_nil]
    rw [List.range_eq_range', List.range_eq_range']
    have h2 := List.range'_append (s := 0) (m := bound max chunks n) (n := bound max chunks (n + 1) - bound max chunks n)
      (step := 1)
    rw [Nat.one_mul, Nat.zero_add] at h2
    rw [h2]
    congr 1
    omega

/-- **C41**: for every number of tasks and every number of chunks the chunks, taken in order, contain the tasks
`0, 1, …, max - 1` in order and each exactly once. -/
theorem C41_cover (max chunks : Nat) (hc : 0 < chunks) :
    ∃ cs, (List.range chunks).mapM (chunk max chunks) = some cs ∧ items cs = List.range max ∧ cs.length = chunks := by
  refine ⟨_, mapM_chunks max chunks hc chunks le_rfl, ?_, by simp⟩
  rw [items_bounds, bound_last max chunks hc]

/-- **C41**: the sizes of any two chunks differ by at most one. -/
theorem C41_balanced (max chunks : Nat) (i j : Nat) (a b c d : Nat) (hi : i < chunks) (hj : j < chunks)
    (h1 : chunk max chunks i = some (a, b)) (h2 : chunk max chunks j = some (c, d)) :
    a ≤ b ∧ c ≤ d ∧ b - a ≤ (d - c) + 1 := by
  have hc : 0 < chunks := by omega
  rw [chunk_eq max chunks hc hi] at h1
  rw [chunk_eq max chunks hc hj] at h2
  simp only [Option.some.injEq, Prod.mk.injEq] at h1 h2
  obtain ⟨rfl, rfl⟩ := h1
  obtain ⟨rfl, rfl⟩ := h2
  rw [bound_succ, bound_succ]
  generalize max / chunks = e
  split <;> split <;> omega

example : (List.range 4).mapM (chunk 10 4) = some [(0, 2), (2, 4), (4, 7), (7, 10)] := by decide

example : (List.range 4).mapM (chunk 2 4) = some [(0, 0), (0, 0), (0, 1), (1, 2)] := by decide

end Verif.Coloring
