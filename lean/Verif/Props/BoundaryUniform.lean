import Verif.Model.BoundaryGrid
import Verif.Spec.BoundaryGrid
import Mathlib.Data.List.Basic
import Mathlib.Data.List.Range
import Mathlib.Tactic.Ring
import Mathlib.Tactic.Linarith
import Mathlib.Tactic.NormNum
import Mathlib.Tactic.FinCases
import Mathlib.Tactic.Positivity
import Mathlib.Tactic.FieldSimp
import Mathlib.Algebra.Field.Rat
import Mathlib.Algebra.Order.Ring.Unbundled.Rat
import Mathlib.Algebra.Order.Field.Rat

/-! C46: uniform boundary grids. -/

namespace Verif.BGrid

variable {K : Type} [Field K] [LinearOrder K]

/-! ### Node numbers -/

theorem nodeNo_inj {k1 a b a' b' : Nat} (ha : a ≤ k1) (ha' : a' ≤ k1) :
    nodeNo k1 a b = nodeNo k1 a' b' ↔ a = a' ∧ b = b' := by
  unfold nodeNo
  constructor
  · intro h
    have h1 : (b * (k1 + 1) + a) % (k1 + 1) = a := by
      rw [Nat.mul_add_mod_self_right, Nat.mod_eq_of_lt (by omega)]
    have h2 : (b' * (k1 + 1) + a') % (k1 + 1) = a' := by
      rw [Nat.mul_add_mod_self_right, Nat.mod_eq_of_lt (by omega)]
    have e : a = a' := by rw [← h1, h, h2]
    subst e
    refine ⟨rfl, ?_⟩
    have h3 : b * (k1 + 1) = b' * (k1 + 1) := by omega
    exact Nat.eq_of_mul_eq_mul_right (by omega) h3
  · rintro ⟨rfl, rfl⟩; rfl

theorem nodeNo_lt {k1 k2 a b : Nat} (ha : a ≤ k1) (hb : b ≤ k2) : nodeNo k1 a b < (k1 + 1) * (k2 + 1) := by
  unfold nodeNo
  have h1 : b * (k1 + 1) ≤ k2 * (k1 + 1) := Nat.mul_le_mul_right _ hb
  have h2 : (k1 + 1) * (k2 + 1) = k2 * (k1 + 1) + (k1 + 1) := by ring
  omega

/-! ### Marks -/

/-- The mark of a grid point. -/
def isCorner (k1 k2 a b : Nat) : Bool := decide ((a = 0 ∨ a = k1) ∧ (b = 0 ∨ b = k2))

theorem mark_some {l : List Bool} {n : Nat} (v : Bool) (h : n < l.length) : mark l n v = some (l.set n v) := if_pos h

theorem markCell_spec {k1 k2 i j : Nat} (dc : Bool) (hi : i < k1) (hj : j < k2) (l : List Bool)
    (hl : l.length = (k1 + 1) * (k2 + 1)) :
    ∃ l', markCell k1 k2 dc i j l = some l' ∧ l'.length = l.length ∧
      ∀ a b : Nat, a ≤ k1 → b ≤ k2 → l'[nodeNo k1 a b]? =
        if (a = i ∨ a = i + 1) ∧ (b = j ∨ b = j + 1) then some (!dc && isCorner k1 k2 a b) else l[nodeNo k1 a b]? := by
  have e0 : j * (k1 + 1) + i = nodeNo k1 i j := rfl
  have e1 : nodeNo k1 i j + 1 = nodeNo k1 (i + 1) j := by unfold nodeNo; omega
  have e2 : nodeNo k1 i j + k1 + 2 = nodeNo k1 (i + 1) (j + 1) := by unfold nodeNo; rw [Nat.succ_mul]; omega
  have e3 : nodeNo k1 i j + k1 + 1 = nodeNo k1 i (j + 1) := by unfold nodeNo; rw [Nat.succ_mul]; omega
  have b0 := nodeNo_lt (show i ≤ k1 by omega) (show j ≤ k2 by omega)
  have b1 := nodeNo_lt (show i + 1 ≤ k1 by omega) (show j ≤ k2 by omega)
  have b2 := nodeNo_lt (show i + 1 ≤ k1 by omega) (show j + 1 ≤ k2 by omega)
  have b3 := nodeNo_lt (show i ≤ k1 by omega) (show j + 1 ≤ k2 by omega)
  unfold markCell
  dsimp only
  rw [e0, e1, e2, e3]
  set n0 := nodeNo k1 i j with hn0
  set n1 := nodeNo k1 (i + 1) j with hn1
  set n2 := nodeNo k1 (i + 1) (j + 1) with hn2
  set n3 := nodeNo k1 i (j + 1) with hn3
  rw [mark_some false (by omega), Option.bind_some, mark_some false (by simp; omega), Option.bind_some,
    mark_some false (by simp; omega), Option.bind_some, mark_some false (by simp; omega), Option.bind_some]
  have get : ∀ (l : List Bool) (n : Nat) (v : Bool) (a b c d : Nat), a ≤ k1 → c ≤ k1 → n = nodeNo k1 c d → n < l.length →
      (l.set n v)[nodeNo k1 a b]? = if a = c ∧ b = d then some v else l[nodeNo k1 a b]? := by
    intro l n v a b c d ha hc hn hlt
    rw [List.getElem?_set]
    by_cases h : a = c ∧ b = d
    · rw [if_pos h, if_pos (by rw [hn, h.1, h.2]), if_pos hlt]
    · rw [if_neg h, if_neg]
      rw [hn, nodeNo_inj hc ha]
      rintro ⟨rfl, rfl⟩
      exact h ⟨rfl, rfl⟩
  cases dc with
  | true =>
    rw [if_pos rfl]
    refine ⟨_, rfl, by simp, ?_⟩
    intro a b ha hb
    rw [get _ n3 _ a b i (j + 1) ha (by omega) hn3 (by simp; omega), get _ n2 _ a b (i + 1) (j + 1) ha (by omega) hn2 (by simp; omega),
      get _ n1 _ a b (i + 1) j ha (by omega) hn1 (by simp; omega), get _ n0 _ a b i j ha (by omega) hn0 (by omega)]
    by_cases h1 : a = i <;> by_cases h2 : a = i + 1 <;> by_cases h3 : b = j <;> by_cases h4 : b = j + 1 <;>
      simp [h1, h2, h3, h4] <;> omega
  | false =>
    rw [if_neg (by simp)]
    have opt : ∀ (P : Prop) [Decidable P] (l : List Bool) (n : Nat), n < l.length →
        (if P then mark l n true else some l) = some (if P then l.set n true else l) := by
      intro P _ l n hn
      by_cases h : P
      · rw [if_pos h, if_pos h, mark_some true hn]
      · rw [if_neg h, if_neg h]
    have len : ∀ (P : Prop) [Decidable P] (l : List Bool) (n : Nat), (if P then l.set n true else l).length = l.length := by
      intro P _ l n
      split <;> simp
    have get' : ∀ (P : Prop) [Decidable P] (l : List Bool) (n : Nat) (a b c d : Nat), a ≤ k1 → c ≤ k1 → n = nodeNo k1 c d →
        n < l.length → (if P then l.set n true else l)[nodeNo k1 a b]? =
          if P ∧ a = c ∧ b = d then some true else l[nodeNo k1 a b]? := by
      intro P _ l n a b c d ha hc hn hlt
      by_cases h : P
      · rw [if_pos h, get l n true a b c d ha hc hn hlt]
        simp [h]
      · rw [if_neg h, if_neg (fun hh => h hh.1)]
    rw [opt _ _ _ (by simp; omega), Option.bind_some, opt _ _ _ (by rw [len]; simp; omega), Option.bind_some,
      opt _ _ _ (by rw [len, len]; simp; omega), Option.bind_some, opt _ _ _ (by rw [len, len, len]; simp; omega)]
    refine ⟨_, rfl, by rw [len, len, len, len]; simp, ?_⟩
    intro a b ha hb
    rw [get' _ _ n2 a b (i + 1) (j + 1) ha (by omega) hn2 (by rw [len, len, len]; simp; omega),
      get' _ _ n3 a b i (j + 1) ha (by omega) hn3 (by rw [len, len]; simp; omega),
      get' _ _ n1 a b (i + 1) j ha (by omega) hn1 (by rw [len]; simp; omega),
      get' _ _ n0 a b i j ha (by omega) hn0 (by simp; omega),
      get _ n3 _ a b i (j + 1) ha (by omega) hn3 (by simp; omega), get _ n2 _ a b (i + 1) (j + 1) ha (by omega) hn2 (by simp; omega),
      get _ n1 _ a b (i + 1) j ha (by omega) hn1 (by simp; omega), get _ n0 _ a b i j ha (by omega) hn0 (by omega)]
    unfold isCorner
    rcases Nat.lt_trichotomy a i with h | h | h
    · have q1 : ¬ a = i := by omega
      have q2 : ¬ a = i + 1 := by omega
      simp [q1, q2]
    · subst h
      have q2 : ¬ a = k1 := by omega
      by_cases h3 : b = j
      · subst h3
        have q3 : ¬ b = k2 := by omega
        by_cases h4 : a = 0 <;> by_cases h5 : b = 0 <;> simp [q2, q3, h4, h5]
      · by_cases h4 : b = j + 1
        · subst h4
          have q4 : ¬ j + 1 = 0 := by omega
          by_cases h5 : a = 0 <;> by_cases h6 : j + 1 = k2 <;> simp [q2, h5, h6]
        · simp [h3, h4]
    · by_cases h1 : a = i + 1
      · subst h1
        have q1 : ¬ i + 1 = i := by omega
        by_cases h3 : b = j
        · subst h3
          have q3 : ¬ b = k2 := by omega
          by_cases h4 : i + 1 = k1 <;> by_cases h5 : b = 0 <;> simp [q3, h4, h5]
        · by_cases h4 : b = j + 1
          · subst h4
            by_cases h5 : i + 1 = k1 <;> by_cases h6 : j + 1 = k2 <;> simp [h5, h6]
          · simp [h3, h4]
      · have q1 : ¬ a = i := by omega
        simp [q1, h1]

theorem marks_fold {k1 k2 : Nat} (dc : Bool) (ps : List (Nat × Nat)) (hps : ∀ p ∈ ps, p.1 < k1 ∧ p.2 < k2) (l : List Bool)
    (hl : l.length = (k1 + 1) * (k2 + 1)) :
    ∃ l', ps.foldlM (fun l p => markCell k1 k2 dc p.1 p.2 l) l = some l' ∧ l'.length = l.length ∧
      ∀ a b : Nat, a ≤ k1 → b ≤ k2 → 
        l'[nodeNo k1 a b]? = if ∃ p ∈ ps, (a = p.1 ∨ a = p.1 + 1) ∧ (b = p.2 ∨ b = p.2 + 1) then
          some (!dc && isCorner k1 k2 a b) else l[nodeNo k1 a b]? := by
  induction ps generalizing l with
  | nil => exact ⟨l, rfl, rfl, fun a b _ _ => by simp⟩
  | cons p ps ih =>
    obtain ⟨hp1, hp2⟩ := hps p (by simp)
    obtain ⟨l1, h1, h2, h3⟩ := markCell_spec dc hp1 hp2 l hl
    obtain ⟨l2, h4, h5, h6⟩ := ih (fun p hp => hps p (by simp [hp])) l1 (by rw [h2]; exact hl)
    refine ⟨l2, ?_, by rw [h5, h2], ?_⟩
    · rw [List.foldlM_cons, h1]; exact h4
    · intro a b ha hb
      rw [h6 a b ha hb, h3 a b ha hb]
      by_cases q : ∃ p ∈ ps, (a = p.1 ∨ a = p.1 + 1) ∧ (b = p.2 ∨ b = p.2 + 1)
      · rw [if_pos q, if_pos]
        obtain ⟨x, hx, hx'⟩ := q
        exact ⟨x, by simp [hx], hx'⟩
      · rw [if_neg q]
        by_cases q2 : (a = p.1 ∨ a = p.1 + 1) ∧ (b = p.2 ∨ b = p.2 + 1)
        · rw [if_pos q2, if_pos ⟨p, by simp, q2⟩]
        · rw [if_neg q2, if_neg]
          rintro ⟨x, hx, hx'⟩
          rcases List.mem_cons.mp hx with rfl | hx
          · exact q2 hx'
          · exact q ⟨x, hx, hx'⟩

theorem mem_pairs {k1 k2 : Nat} {p : Nat × Nat} : p ∈ pairs k1 k2 ↔ p.1 < k1 ∧ p.2 < k2 := by
  unfold pairs
  simp only [List.mem_flatMap, List.mem_map, List.mem_range]
  constructor
  · rintro ⟨i, hi, j, hj, rfl⟩; exact ⟨hi, hj⟩
  · rintro ⟨h1, h2⟩; exact ⟨p.1, h1, p.2, h2, rfl⟩

/-- **C46**: the grid is always built, it reports `(k1+1)(k2+1)` nodes, and exactly the four corners of the rectangle are marked
as fixed (none for the ordering of Dune). -/
theorem C46_nodes (min max : K × K) (k1 k2 : Nat) (dc : Bool) :
    ∃ g, uniform min max k1 k2 dc = some g ∧ g.nodes = (k1 + 1) * (k2 + 1) ∧ g.fixNodes.length = g.nodes ∧
      (0 < k1 → 0 < k2 → ∀ a b : Nat, a ≤ k1 → b ≤ k2 →
        (g.fixNodes[nodeNo k1 a b]? = some true ↔ dc = false ∧ (a = 0 ∨ a = k1) ∧ (b = 0 ∨ b = k2))) := by
  obtain ⟨l, h1, h2, h3⟩ := marks_fold (k1 := k1) (k2 := k2) dc (pairs k1 k2) (fun p hp => mem_pairs.mp hp)
    (List.replicate ((k1 + 1) * (k2 + 1)) false) (by simp)
  unfold uniform
  rw [h1, Option.map_some]
  refine ⟨_, rfl, rfl, by simpa using h2, ?_⟩
  intro hk1 hk2 a b ha hb
  dsimp only
  rw [h3 a b ha hb, if_pos]
  · unfold isCorner
    cases dc <;> simp
  · refine ⟨(if a = k1 then a - 1 else a, if b = k2 then b - 1 else b), mem_pairs.mpr ⟨?_, ?_⟩, ?_, ?_⟩
    all_goals dsimp only
    all_goals split <;> omega

/-- **C46**: node numbers are in range, and equal exactly for equal grid points. -/
theorem C46_numbers (k1 k2 : Nat) : (∀ a b : Nat, a ≤ k1 → b ≤ k2 → nodeNo k1 a b < (k1 + 1) * (k2 + 1)) ∧
    ∀ a b a' b' : Nat, a ≤ k1 → a' ≤ k1 → (nodeNo k1 a b = nodeNo k1 a' b' ↔ a = a' ∧ b = b') :=
  ⟨fun _ _ ha hb => nodeNo_lt ha hb, fun _ _ _ _ ha ha' => nodeNo_inj ha ha'⟩

/-! ### Quads -/

variable [IsStrictOrderedRing K]

theorem widen_le (b : (K × K) × (K × K)) (c : K × K) :
    (widen b c).1.1 ≤ b.1.1 ∧ (widen b c).1.2 ≤ b.1.2 ∧ b.2.1 ≤ (widen b c).2.1 ∧ b.2.2 ≤ (widen b c).2.2 ∧
    (widen b c).1.1 ≤ c.1 ∧ (widen b c).1.2 ≤ c.2 ∧ c.1 ≤ (widen b c).2.1 ∧ c.2 ≤ (widen b c).2.2 := by
  unfold widen
  refine ⟨?_, ?_, ?_, ?_, ?_, ?_, ?_, ?_⟩ <;> dsimp only <;> split <;> linarith

/-- A quad that has two opposite corners far enough apart is kept. -/
theorem add_kept (g : List (Quad K)) (v : Fin 4 → Vertex K) (m n : Fin 4) {dx dy : K} (hx : 0 ≤ dx) (hy : 0 ≤ dy)
    (harea : 1 / 10 ^ 7 ≤ dx * dy) (h1 : (v m).c.1 + dx ≤ (v n).c.1) (h2 : (v m).c.2 + dy ≤ (v n).c.2) :
    ∃ q, add g v = g ++ [q] ∧ q.v = v := by
  unfold add
  dsimp only
  set b0 : (K × K) × (K × K) := ((v 0).c, (v 0).c) with hb0
  set b1 := widen b0 (v 1).c with hb1
  set b2 := widen b1 (v 2).c with hb2
  set b3 := widen b2 (v 3).c with hb3
  obtain ⟨p1, p2, p3, p4, p5, p6, p7, p8⟩ := widen_le b0 (v 1).c
  obtain ⟨q1, q2, q3, q4, q5, q6, q7, q8⟩ := widen_le b1 (v 2).c
  obtain ⟨r1, r2, r3, r4, r5, r6, r7, r8⟩ := widen_le b2 (v 3).c
  rw [← hb1] at p1 p2 p3 p4 p5 p6 p7 p8
  rw [← hb2] at q1 q2 q3 q4 q5 q6 q7 q8
  rw [← hb3] at r1 r2 r3 r4 r5 r6 r7 r8
  have z1 : b0.1.1 = (v 0).c.1 := rfl
  have z2 : b0.1.2 = (v 0).c.2 := rfl
  have z3 : b0.2.1 = (v 0).c.1 := rfl
  have z4 : b0.2.2 = (v 0).c.2 := rfl
  have all : ∀ m : Fin 4, b3.1.1 ≤ (v m).c.1 ∧ b3.1.2 ≤ (v m).c.2 ∧ (v m).c.1 ≤ b3.2.1 ∧ (v m).c.2 ≤ b3.2.2 := by
    intro m
    fin_cases m
    · refine ⟨?_, ?_, ?_, ?_⟩ <;> simp only [Fin.zero_eta] <;> linarith
    · refine ⟨?_, ?_, ?_, ?_⟩ <;> simp only [Fin.mk_one] <;> linarith
    · refine ⟨?_, ?_, ?_, ?_⟩ <;> simp only [Fin.reduceFinMk] <;> linarith
    · refine ⟨?_, ?_, ?_, ?_⟩ <;> simp only [Fin.reduceFinMk] <;> linarith
  obtain ⟨a1, a2, _, _⟩ := all m
  obtain ⟨_, _, a3, a4⟩ := all n
  have hge : dx * dy ≤ (b3.2.1 - b3.1.1) * (b3.2.2 - b3.1.2) :=
    mul_le_mul (by linarith) (by linarith) hy (by linarith)
  rw [if_neg (by linarith)]
  exact ⟨_, rfl, rfl⟩

theorem cell_v (min max : K × K) (k1 k2 : Nat) (dc : Bool) (i j : Nat) (m : Fin 4) :
    (cell min max k1 k2 dc i j m).i = (nodeNo k1 (i + (cornerOf dc m).1) (j + (cornerOf dc m).2) : Nat) ∧
    (cell min max k1 k2 dc i j m).c.1 = (gridPoint min max k1 k2 (i + (cornerOf dc m).1) (j + (cornerOf dc m).2)).1 ∧
    (m ≠ 1 → (cell min max k1 k2 dc i j m).c.2 =
      (gridPoint min max k1 k2 (i + (cornerOf dc m).1) (j + (cornerOf dc m).2)).2) ∧
    (m = 1 → (cell min max k1 k2 dc i j m).c.2 = 0) := by
  unfold cell cornerOf gridPoint nodeNo
  cases dc <;> fin_cases m <;> simp <;> (try constructor) <;> (try push_cast) <;> ring_nf <;> (try exact ⟨trivial, trivial⟩)

theorem quads_fold (f : Nat × Nat → Fin 4 → Vertex K) (ps : List (Nat × Nat)) (g : List (Quad K))
    (h : ∀ (g : List (Quad K)) (p : Nat × Nat), p ∈ ps → ∃ q, add g (f p) = g ++ [q] ∧ q.v = f p) :
    ∃ qs : List (Quad K), ps.foldl (fun g p => add g (f p)) g = g ++ qs ∧ qs.map (·.v) = ps.map f := by
  induction ps generalizing g with
  | nil => exact ⟨[], by simp, rfl⟩
  | cons p ps ih =>
    obtain ⟨q, h1, h2⟩ := h g p (by simp)
    obtain ⟨qs, h3, h4⟩ := ih (add g (f p)) fun g p' hp => h g p' (by simp [hp])
    refine ⟨q :: qs, ?_, by simp [h2, h4]⟩
    rw [List.foldl_cons, h3, h1, List.append_assoc]
    rfl

theorem pairs_get {k1 k2 i j : Nat} (hi : i < k1) (hj : j < k2) : (pairs k1 k2)[i * k2 + j]? = some (i, j) := by
  unfold pairs
  induction k1 generalizing i with
  | zero => omega
  | succ k1 ih =>
    rw [List.range_succ, List.flatMap_append]
    have hlen : ((List.range k1).flatMap fun i => (List.range k2).map fun j => (i, j)).length = k1 * k2 := by
      simp [List.length_flatMap]
    rcases Nat.lt_or_ge i k1 with h | h
    · rw [List.getElem?_append_left]
      · exact ih h
      · rw [hlen]
        have : (i + 1) * k2 ≤ k1 * k2 := Nat.mul_le_mul_right _ h
        rw [Nat.succ_mul] at this
        omega
    · have e : i = k1 := by omega
      subst e
      rw [List.getElem?_append_right (by rw [hlen]; omega), hlen, Nat.add_sub_cancel_left]
      simp [hj]

/-- **C46 (partial)**: a uniform grid whose quads have an area of at least `10⁻⁷` has one quad for every cell, in order; the vertices of
the quad have the numbers and the positions of the corners of the cell, except for the second coordinate of the second vertex,
which is always zero. (Missing: that coordinate, see `C46_violated`, and smaller quads, see `C46_violated_small`.) -/
theorem C46_quads_partial (min max : K × K) (k1 k2 : Nat) (dc : Bool) (hx : min.1 ≤ max.1) (hy : min.2 ≤ max.2)
    (harea : 1 / 10 ^ 7 ≤ (max.1 - min.1) / (k1 : K) * ((max.2 - min.2) / (k2 : K))) {g : Grid K}
    (hg : uniform min max k1 k2 dc = some g) :
    g.quads.length = k1 * k2 ∧ ∀ i j : Nat, i < k1 → j < k2 → ∃ q, g.quads[i * k2 + j]? = some q ∧ ∀ m : Fin 4,
      (q.v m).i = (nodeNo k1 (i + (cornerOf dc m).1) (j + (cornerOf dc m).2) : Nat) ∧
      (q.v m).c.1 = (gridPoint min max k1 k2 (i + (cornerOf dc m).1) (j + (cornerOf dc m).2)).1 ∧
      (m ≠ 1 → (q.v m).c.2 = (gridPoint min max k1 k2 (i + (cornerOf dc m).1) (j + (cornerOf dc m).2)).2) ∧
      (m = 1 → (q.v m).c.2 = 0) := by
  unfold uniform at hg
  rw [Option.map_eq_some_iff] at hg
  obtain ⟨l, _, rfl⟩ := hg
  dsimp only
  have hdx : 0 ≤ (max.1 - min.1) / (k1 : K) := div_nonneg (by linarith) (Nat.cast_nonneg _)
  have hdy : 0 ≤ (max.2 - min.2) / (k2 : K) := div_nonneg (by linarith) (Nat.cast_nonneg _)
  obtain ⟨qs, h1, h2⟩ := quads_fold (fun p => cell min max k1 k2 dc p.1 p.2) (pairs k1 k2) [] (by
    intro g p hp
    refine add_kept g _ 0 (if dc then 3 else 2) hdx hdy harea ?_ ?_
    · rw [(cell_v min max k1 k2 dc p.1 p.2 0).2.1, (cell_v min max k1 k2 dc p.1 p.2 _).2.1]
      cases dc <;> simp [cornerOf, gridPoint] <;> linarith
    · rw [(cell_v min max k1 k2 dc p.1 p.2 0).2.2.1 (by decide), (cell_v min max k1 k2 dc p.1 p.2 _).2.2.1 (by cases dc <;> decide)]
      cases dc <;> simp [cornerOf, gridPoint] <;> linarith)
  rw [h1, List.nil_append]
  have hlen : qs.length = k1 * k2 := by
    have := congrArg List.length h2
    rw [List.length_map, List.length_map] at this
    rw [this]
    simp [pairs, List.length_flatMap]
  refine ⟨hlen, fun i j hi hj => ?_⟩
  have hget := congrArg (fun l => l[i * k2 + j]?) h2
  simp only [List.getElem?_map, pairs_get hi hj, Option.map_some] at hget
  obtain ⟨q, hq, hqv⟩ := Option.map_eq_some_iff.mp hget
  refine ⟨q, hq, fun m => ?_⟩
  rw [hqv]
  exact cell_v min max k1 k2 dc i j m

/-- **C46**: with one row of quads that starts at the coordinate zero, all corners are where they should be. -/
theorem C46_one_row (min max : K × K) (k1 : Nat) (dc : Bool) (hx : min.1 ≤ max.1) (hy : min.2 ≤ max.2) (h0 : min.2 = 0)
    (harea : 1 / 10 ^ 7 ≤ (max.1 - min.1) / (k1 : K) * (max.2 - min.2)) {g : Grid K}
    (hg : uniform min max k1 1 dc = some g) :
    g.quads.length = k1 ∧ ∀ i : Nat, i < k1 → ∃ q, g.quads[i]? = some q ∧ ∀ m : Fin 4,
      (q.v m).i = (nodeNo k1 (i + (cornerOf dc m).1) (cornerOf dc m).2 : Nat) ∧
      (q.v m).c = gridPoint min max k1 1 (i + (cornerOf dc m).1) (cornerOf dc m).2 := by
  obtain ⟨h1, h2⟩ := C46_quads_partial min max k1 1 dc hx hy (by simpa using harea) hg
  refine ⟨by simpa using h1, fun i hi => ?_⟩
  obtain ⟨q, hq, hv⟩ := h2 i 0 hi (by omega)
  refine ⟨q, by simpa using hq, fun m => ?_⟩
  obtain ⟨a1, a2, a3, a4⟩ := hv m
  rw [Nat.zero_add] at a1 a2 a3
  refine ⟨a1, Prod.ext a2 ?_⟩
  by_cases hm : m = 1
  · rw [a4 hm, hm]
    cases dc <;> simp [cornerOf, gridPoint, h0]
  · exact a3 hm

/-- The grid points of the corners of the rectangle are its corners. -/
theorem C46_rectangle (min max : K × K) (k1 k2 : Nat) (h1 : 0 < k1) (h2 : 0 < k2) :
    gridPoint min max k1 k2 0 0 = min ∧ gridPoint min max k1 k2 k1 k2 = max := by
  have e1 : (k1 : K) ≠ 0 := Nat.cast_ne_zero.mpr (by omega)
  have e2 : (k2 : K) ≠ 0 := Nat.cast_ne_zero.mpr (by omega)
  refine ⟨by simp [gridPoint], Prod.ext ?_ ?_⟩ <;> simp only [gridPoint] <;> field_simp <;> ring

/-- **C46 is violated**: in the grid of one quad on `[0,1] × [1,2]` the vertex that should be at `(1,1)` is at `(1,0)`. -/
theorem C46_violated : ∃ min max : ℚ × ℚ, min.1 < max.1 ∧ min.2 < max.2 ∧
    ((uniform min max 1 1 false).bind fun g => (g.quads[0]?).map fun q => decide ((q.v 1).c = (1, 0))) = some true ∧
    gridPoint min max 1 1 1 0 = (1, 1) := by
  refine ⟨(0, 1), (1, 2), by norm_num, by norm_num, by decide +kernel, by decide +kernel⟩

/-- **C46 is violated**: a grid on a small square has no quads. -/
theorem C46_violated_small : ∃ min max : ℚ × ℚ, min.1 < max.1 ∧ min.2 < max.2 ∧
    ((uniform min max 1 1 false).map fun g => g.quads.length) = some 0 := by
  refine ⟨(0, 0), (1 / 10000, 1 / 10000), by norm_num, by norm_num, by decide +kernel⟩

/-- A grid of two times one quads in the order of Dune. -/
example : (uniform ((0, 0) : ℚ × ℚ) (4, 3) 2 1 true).map (fun g => (g.quads.map fun q => [(q.v 0).c, (q.v 1).c, (q.v 2).c, (q.v 3).c],
    g.fixNodes)) = some ([[(0, 0), (2, 0), (0, 3), (2, 3)], [(2, 0), (4, 0), (2, 3), (4, 3)]], List.replicate 6 false) := by
  decide +kernel

example : (1 : ℚ) / 10 ^ 7 ≤ ((4, 3).1 - (0, 0).1) / ((2 : Nat) : ℚ) * ((4, 3).2 - (0, 0).2) := by norm_num

end Verif.BGrid
