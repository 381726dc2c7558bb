import Mathlib.Tactic.Linarith
import Mathlib.Algebra.Order.Field.Rat
import Verif.Spec.Dips
import Verif.Lemmas.Pattern

/-!
C120: dips of the cells.
-/

namespace Verif.Dips

open Verif.Upscale Verif.Dips.Spec

section

variable {K : Type} [Field K] [LinearOrder K]

/-- The state for a list of cells. -/
def stateOf (G : Inspector K) (cells : List Cell) (n : Nat) : State K :=
  ⟨cells.map fun c => (G.dips c.i c.j c.k).1, cells.map fun c => (G.dips c.i c.j c.k).2, cells.map fun c => G.volume c.i c.j c.k,
    cells.map (·.i), cells.map (·.j), cells.map (·.k), n⟩

/-- The cells kept, in the order of the loops. -/
def kept (G : Inspector K) (minVolume : K) (nx ny nz : Nat) : List Cell :=
  (List.range nz).flatMap fun k => (List.range ny).flatMap fun j =>
    ((List.range nx).filter fun i => decide (minVolume < G.volume i j k)).map fun i => ⟨i, j, k⟩

theorem inner (G : Inspector K) (mv : K) (k j : Nat) (l : List Nat) (cells : List Cell) (n : Nat) :
    l.foldl (step G mv k j) (stateOf G cells n) =
      stateOf G (cells ++ (l.filter fun i => decide (mv < G.volume i j k)).map fun i => ⟨i, j, k⟩)
        (n + (l.filter fun i => decide (¬ mv < G.volume i j k)).length) := by
  induction l generalizing cells n with
  | nil => simp
  | cons i l ih =>
    rw [List.foldl_cons]
    by_cases h : mv < G.volume i j k
    · have e : step G mv k j (stateOf G cells n) i = stateOf G (cells ++ [⟨i, j, k⟩]) n := by
        unfold step; rw [if_pos h]; simp [stateOf]
      rw [e, ih]
      simp [h]
    · have e : step G mv k j (stateOf G cells n) i = stateOf G cells (n + 1) := by
        unfold step; rw [if_neg h]; simp [stateOf]
      rw [e, ih, List.filter_cons, if_neg (by simpa using h), List.filter_cons, if_pos (by simpa using h), List.length_cons,
        Nat.add_right_comm, Nat.add_assoc]

theorem middle (G : Inspector K) (mv : K) (nx k : Nat) (l : List Nat) (cells : List Cell) (n : Nat) :
    ∃ m, l.foldl (fun s j => (List.range nx).foldl (step G mv k j) s) (stateOf G cells n) =
      stateOf G (cells ++ l.flatMap fun j => ((List.range nx).filter fun i => decide (mv < G.volume i j k)).map fun i => ⟨i, j, k⟩) m ∧
      m + (l.flatMap fun j => ((List.range nx).filter fun i => decide (mv < G.volume i j k)).map fun i => (⟨i, j, k⟩ : Cell)).length = n + nx * l.length := by
  induction l generalizing cells n with
  | nil => exact ⟨n, by simp, by simp⟩
  | cons j l ih =>
    rw [List.foldl_cons, inner]
    obtain ⟨m, e, hm⟩ := ih (cells ++ ((List.range nx).filter fun i => decide (mv < G.volume i j k)).map fun i => ⟨i, j, k⟩)
      (n + ((List.range nx).filter fun i => decide (¬ mv < G.volume i j k)).length)
    refine ⟨m, ?_, ?_⟩
    · rw [e, List.flatMap_cons, List.append_assoc]
    · rw [List.flatMap_cons, List.length_append, List.length_map]
      have hp : ((List.range nx).filter fun i => decide (mv < G.volume i j k)).length +
          ((List.range nx).filter fun i => decide (¬ mv < G.volume i j k)).length = nx := by
        have := List.length_eq_length_filter_add (l := List.range nx) (fun i => decide (mv < G.volume i j k))
        rw [List.length_range] at this
        simp only [decide_not]
        omega
      rw [List.length_cons, Nat.mul_succ]
      omega

theorem outer (G : Inspector K) (mv : K) (nx ny : Nat) (l : List Nat) (cells : List Cell) (n : Nat) :
    ∃ m, l.foldl (fun s k => (List.range ny).foldl (fun s j => (List.range nx).foldl (step G mv k j) s) s) (stateOf G cells n) =
      stateOf G (cells ++ l.flatMap fun k => (List.range ny).flatMap fun j =>
        ((List.range nx).filter fun i => decide (mv < G.volume i j k)).map fun i => ⟨i, j, k⟩) m ∧
      m + (l.flatMap fun k => (List.range ny).flatMap fun j =>
        ((List.range nx).filter fun i => decide (mv < G.volume i j k)).map fun i => (⟨i, j, k⟩ : Cell)).length = n + nx * ny * l.length := by
  induction l generalizing cells n with
  | nil => exact ⟨n, by simp, by simp⟩
  | cons k l ih =>
    rw [List.foldl_cons]
    obtain ⟨m1, e1, h1⟩ := middle G mv nx k (List.range ny) cells n
    rw [e1]
    obtain ⟨m, e, hm⟩ := ih (cells ++ (List.range ny).flatMap fun j => ((List.range nx).filter fun i => decide (mv < G.volume i j k)).map fun i => ⟨i, j, k⟩) m1
    refine ⟨m, ?_, ?_⟩
    · rw [e, List.flatMap_cons, List.append_assoc]
    · rw [List.flatMap_cons, List.length_append, List.length_cons, Nat.mul_succ]
      rw [List.length_range] at h1
      omega

theorem kept_large (G : Inspector K) (mv : K) (nx ny nz : Nat) : Large G mv nx ny nz (kept G mv nx ny nz) := by
  constructor
  · rintro ⟨i, j, k⟩
    simp only [kept, List.mem_flatMap, List.mem_range, List.mem_map, List.mem_filter, decide_eq_true_eq, Cell.mk.injEq]
    constructor
    · rintro ⟨k', hk, j', hj, i', ⟨hi, hv⟩, rfl, rfl, rfl⟩
      exact ⟨⟨hi, hj, hk⟩, hv⟩
    · rintro ⟨⟨hi, hj, hk⟩, hv⟩
      exact ⟨k, hk, j, hj, i, ⟨hi, hv⟩, rfl, rfl, rfl⟩
  · unfold kept
    rw [List.pairwise_flatMap]
    refine ⟨fun k _ => ?_, ?_⟩
    · rw [List.pairwise_flatMap]
      refine ⟨fun j _ => ?_, ?_⟩
      · rw [List.pairwise_map]
        exact (List.pairwise_lt_range.filter _).imp fun h => Or.inr ⟨rfl, Or.inr ⟨rfl, h⟩⟩
      · refine List.pairwise_lt_range.imp fun {a b} hab x hx y hy => ?_
        obtain ⟨i, _, rfl⟩ := List.mem_map.mp hx
        obtain ⟨i', _, rfl⟩ := List.mem_map.mp hy
        exact Or.inr ⟨rfl, Or.inl hab⟩
    · refine List.pairwise_lt_range.imp fun {a b} hab x hx y hy => ?_
      obtain ⟨j, _, hx⟩ := List.mem_flatMap.mp hx
      obtain ⟨i, _, rfl⟩ := List.mem_map.mp hx
      obtain ⟨j', _, hy⟩ := List.mem_flatMap.mp hy
      obtain ⟨i', _, rfl⟩ := List.mem_map.mp hy
      exact Or.inl hab

theorem collect_eq (G : Inspector K) (mv : K) (nx ny nz : Nat) :
    ∃ m, collect G mv nx ny nz = stateOf G (kept G mv nx ny nz) m ∧ m + (kept G mv nx ny nz).length = nx * ny * nz := by
  obtain ⟨m, e, h⟩ := outer G mv nx ny (List.range nz) [] 0
  refine ⟨m, ?_, ?_⟩
  · rw [List.nil_append] at e
    exact e
  · rw [List.length_range, Nat.zero_add] at h
    exact h

/-- **C120.** The list of cells: every cell with a volume above the limit is listed once, columns fastest, with its indices, its two dips and its volume; the counts of
listed and of left out cells add up to the number of cells of the grid. -/
theorem C120_list (G : Inspector K) (mv : K) (nx ny nz : Nat) :
    ∃ (cells : List Cell) (ignored : Nat), Large G mv nx ny nz cells ∧ cells.length + ignored = nx * ny * nz ∧
      run G mv nx ny nz true = some (cells.length, ignored, .cells (cells.map fun c =>
        ⟨c.i, c.j, c.k, (G.dips c.i c.j c.k).1, (G.dips c.i c.j c.k).2, G.volume c.i c.j c.k⟩)) := by
  obtain ⟨m, e, h⟩ := collect_eq G mv nx ny nz
  refine ⟨kept G mv nx ny nz, m, kept_large G mv nx ny nz, by omega, ?_⟩
  unfold run report
  rw [e]
  generalize kept G mv nx ny nz = cells
  rw [if_pos rfl, show (stateOf G cells m).xdips.length = cells.length from List.length_map _,
    Verif.Pattern.mapM_total (List.range cells.length) _
      (fun n => ((cells[n]?).map fun c => (⟨c.i, c.j, c.k, (G.dips c.i c.j c.k).1, (G.dips c.i c.j c.k).2, G.volume c.i c.j c.k⟩ : Row K)).getD
        ⟨0, 0, 0, 0, 0, 0⟩)]
  · simp only [Option.bind_eq_bind, Option.bind_some, Option.pure_def]
    congr 4
    apply List.ext_getElem?
    intro i
    by_cases hi : i < cells.length
    · simp [hi]
    · simp [hi]
  · intro n hn
    have hl := List.mem_range.mp hn
    simp [stateOf, List.getElem?_eq_getElem hl]

theorem foldl_sum (l : List K) (a : K) : l.foldl (· + ·) a = a + l.sum := by
  induction l generalizing a with
  | nil => simp
  | cons x l ih => rw [List.foldl_cons, ih, List.sum_cons, add_assoc]

/-- **C120 (partial).** The averages: with the same counts, the arithmetic mean of the dips of the listed cells, each cell counting the same whatever its volume.
What is missing: without any listed cell there is no number. -/
theorem C120_averages_partial [IsStrictOrderedRing K] (G : Inspector K) (mv : K) (nx ny nz : Nat) :
    ∃ (cells : List Cell) (ignored : Nat), Large G mv nx ny nz cells ∧ cells.length + ignored = nx * ny * nz ∧
      ∃ x y, run G mv nx ny nz false = some (cells.length, ignored, .averages x y) ∧
        (cells ≠ [] → ∃ a b, x = some a ∧ y = some b ∧
          a * cells.length = (cells.map fun c => (G.dips c.i c.j c.k).1).sum ∧ b * cells.length = (cells.map fun c => (G.dips c.i c.j c.k).2).sum) ∧
        (cells = [] → x = none ∧ y = none) := by
  obtain ⟨m, e, h⟩ := collect_eq G mv nx ny nz
  refine ⟨kept G mv nx ny nz, m, kept_large G mv nx ny nz, by omega, average ((kept G mv nx ny nz).map fun c => (G.dips c.i c.j c.k).1),
    average ((kept G mv nx ny nz).map fun c => (G.dips c.i c.j c.k).2), ?_, ?_, ?_⟩
  · unfold run report
    rw [e, if_neg (by simp), show (stateOf G (kept G mv nx ny nz) m).xdips.length = (kept G mv nx ny nz).length from List.length_map _]
    rfl
  · intro hne
    have hlen : ((kept G mv nx ny nz).length : K) ≠ 0 := by
      rw [Nat.cast_ne_zero]
      exact fun h => hne (List.length_eq_zero_iff.mp h)
    have key : ∀ f : Cell → K, ∃ a, average ((kept G mv nx ny nz).map f) = some a ∧ a * (kept G mv nx ny nz).length = ((kept G mv nx ny nz).map f).sum := by
      intro f
      refine ⟨((kept G mv nx ny nz).map f).sum / (kept G mv nx ny nz).length, ?_, div_mul_cancel₀ _ hlen⟩
      unfold average quot
      rw [List.length_map, if_neg hlen, foldl_sum, zero_add]
    obtain ⟨a, ha, ha'⟩ := key fun c => (G.dips c.i c.j c.k).1
    obtain ⟨b, hb, hb'⟩ := key fun c => (G.dips c.i c.j c.k).2
    exact ⟨a, b, ha, hb, ha', hb'⟩
  · intro hnil
    rw [hnil]
    unfold average quot
    simp

/-- **C120.** An average dip lies between bounds that hold for the dips of all listed cells. -/
theorem C120_between [IsStrictOrderedRing K] (G : Inspector K) (mv lo hi : K) (nx ny nz : Nat) (p q : Nat) (a b : K)
    (h : run G mv nx ny nz false = some (p, q, .averages (some a) (some b)))
    (hb : ∀ i j k, i < nx → j < ny → k < nz → mv < G.volume i j k → lo ≤ (G.dips i j k).1 ∧ (G.dips i j k).1 ≤ hi) : lo ≤ a ∧ a ≤ hi := by
  obtain ⟨cells, ign, hl, _, x, y, e, h1, h2⟩ := C120_averages_partial G mv nx ny nz
  rw [h] at e
  simp only [Option.some.injEq, Prod.mk.injEq, Body.averages.injEq] at e
  obtain ⟨_, _, rfl, rfl⟩ := e
  by_cases hc : cells = []
  · have := (h2 hc).1; cases this
  · obtain ⟨a', b', ea, _, hs, _⟩ := h1 hc
    obtain rfl := Option.some.inj ea
    have hpos : (0 : K) < cells.length := by
      rw [Nat.cast_pos]
      exact List.length_pos_iff.mpr hc
    have hall : ∀ c ∈ cells, lo ≤ (G.dips c.i c.j c.k).1 ∧ (G.dips c.i c.j c.k).1 ≤ hi := by
      intro c hcm
      obtain ⟨⟨h1, h2, h3⟩, h4⟩ := (hl.mem c).1 hcm
      exact hb _ _ _ h1 h2 h3 h4
    have bnd : ∀ l : List Cell, (∀ c ∈ l, lo ≤ (G.dips c.i c.j c.k).1 ∧ (G.dips c.i c.j c.k).1 ≤ hi) →
        lo * l.length ≤ (l.map fun c => (G.dips c.i c.j c.k).1).sum ∧ (l.map fun c => (G.dips c.i c.j c.k).1).sum ≤ hi * l.length := by
      intro l
      induction l with
      | nil => simp
      | cons c l ih =>
        intro hc
        obtain ⟨i1, i2⟩ := ih fun d hd => hc d (List.mem_cons_of_mem _ hd)
        obtain ⟨j1, j2⟩ := hc c List.mem_cons_self
        rw [List.map_cons, List.sum_cons, List.length_cons, Nat.cast_succ, mul_add, mul_add, mul_one, mul_one]
        exact ⟨by linarith, by linarith⟩
    obtain ⟨b1, b2⟩ := bnd cells hall
    rw [← hs] at b1 b2
    exact ⟨le_of_mul_le_mul_right b1 hpos, le_of_mul_le_mul_right b2 hpos⟩

end

/-- A grid of two columns and two layers; one cell is flat. -/
def exGrid : Inspector ℚ := ⟨fun i _ k => if i = 1 ∧ k = 0 then 0 else i + 1, fun i _ k => (i + 2 * k, 3)⟩

example : run exGrid (1 / 10) 2 1 2 true = some (3, 1, .cells [⟨0, 0, 0, 0, 3, 1⟩, ⟨0, 0, 1, 2, 3, 1⟩, ⟨1, 0, 1, 3, 3, 2⟩]) ∧
    run exGrid (1 / 10) 2 1 2 false = some (3, 1, .averages (some (5 / 3)) (some 3)) := by
  decide +kernel

/-- **C120 (deviation).** If no cell is larger than the limit, the averages are 0/0. -/
theorem C120_violated_empty : run exGrid 5 2 1 2 false = some (0, 4, .averages none none) := by
  decide +kernel

/-- **C120.** Although the volumes are known, the average is not weighted with them, and a large cell counts as much as a small one: the dip of a cell of volume 1 and of one of
volume 999 have the same weight. -/
theorem C120_unweighted : run (⟨fun i _ _ => if i = 0 then 1 else 999, fun i _ _ => (if i = 0 then 0 else 2, 0)⟩ : Inspector ℚ) 0 2 1 1 false =
    some (2, 0, .averages (some 1) (some 0)) := by
  decide +kernel

end Verif.Dips
