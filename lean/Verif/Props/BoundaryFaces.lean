import Verif.Spec.BoundaryFaces
import Verif.Props.BoundaryInverse
import Mathlib.Data.List.Sort
import Mathlib.Data.List.Perm.Subperm
import Mathlib.Tactic.Linarith
import Mathlib.Tactic.Ring
import Mathlib.Tactic.Positivity

/-!
C78: corners of a face. C79: columns of a boundary grid. C80: extent of the grid.
-/

namespace Verif.BGrid

variable {K : Type} [Field K] [LinearOrder K] [IsStrictOrderedRing K]

/-! ### C78 -/

/-- **C78**: the quad of a face consists of the four vertices of the face, each used once, arranged by position. With `dc` the last
two change places. -/
theorem C78_corners {srt : (Vertex K → K) → List (Vertex K) → List (Vertex K)} (hs : IsSort srt) (vs : List (Vertex K))
    (h4 : vs.length = 4) :
    ∃ a b c d, faceQuad srt false vs = some ![a, b, c, d] ∧ faceQuad srt true vs = some ![a, b, d, c] ∧
      [a, b, c, d].Perm vs ∧ Arranged a b c d := by
  obtain ⟨hp, hsort⟩ := hs (·.c.1) vs
  have hl : (srt (·.c.1) vs).length = 4 := hp.length_eq.trans h4
  obtain ⟨p, q, r, t, hpqrt⟩ : ∃ p q r t, srt (·.c.1) vs = [p, q, r, t] := by
    match hm : srt (·.c.1) vs, hl with
    | [p, q, r, t], _ => exact ⟨p, q, r, t, rfl⟩
  rw [hpqrt] at hp hsort
  simp only [List.pairwise_cons, List.mem_cons, List.not_mem_nil, or_false] at hsort
  obtain ⟨hA, hB, hC, -⟩ := hsort
  have hpq := hA q (by simp); have hpr := hA r (by simp); have hpt := hA t (by simp)
  have hqr := hB r (by simp); have hqt := hB t (by simp)
  have hrt := hC t (by simp)
  obtain ⟨hp1, hs1⟩ := hs (·.c.2) [p, q]
  obtain ⟨hp2, hs2⟩ := hs (·.c.2) [r, t]
  obtain ⟨a, d, had⟩ : ∃ a d, srt (·.c.2) [p, q] = [a, d] := by
    match hm : srt (·.c.2) [p, q], hp1.length_eq with
    | [p, q], _ => exact ⟨p, q, rfl⟩
  obtain ⟨b, c, hbc⟩ : ∃ b c, srt (·.c.2) [r, t] = [b, c] := by
    match hm : srt (·.c.2) [r, t], hp2.length_eq with
    | [p, q], _ => exact ⟨p, q, rfl⟩
  rw [had] at hp1 hs1
  rw [hbc] at hp2 hs2
  have hlo : sortedPart srt vs 0 2 = [a, d, r, t] := by
    unfold sortedPart; simp [hpqrt, had]
  have hhi : sortedPart srt vs 2 vs.length = [p, q, b, c] := by
    unfold sortedPart; simp [hpqrt, h4, hbc]
  have ha : a = p ∨ a = q := by simpa using hp1.subset (List.mem_cons_self)
  have hd : d = p ∨ d = q := by simpa using hp1.subset (List.mem_cons_of_mem _ List.mem_cons_self)
  have hb : b = r ∨ b = t := by simpa using hp2.subset (List.mem_cons_self)
  have hc : c = r ∨ c = t := by simpa using hp2.subset (List.mem_cons_of_mem _ List.mem_cons_self)
  have h1 : minXminY srt vs = some a := by unfold minXminY; rw [hlo]; rfl
  have h2 : maxXminY srt vs = some b := by unfold maxXminY; rw [hhi, h4]; rfl
  have h3 : maxXmaxY srt vs = some c := by unfold maxXmaxY; rw [hhi, h4]; rfl
  have h5 : minXmaxY srt vs = some d := by unfold minXmaxY; rw [hlo]; rfl
  refine ⟨a, b, c, d, ?_, ?_, ?_, ?_⟩
  · unfold faceQuad; rw [if_pos h4, h1, h2, h3, h5]; rfl
  · unfold faceQuad; rw [if_pos h4, h1, h2, h3, h5]; rfl
  · have e1 : [a, b, c, d].Perm ([a, d] ++ [b, c]) := by
      refine List.Perm.cons a ?_
      exact (List.perm_append_comm (l₁ := [b, c]) (l₂ := [d]))
    exact e1.trans ((hp1.append hp2).trans hp)
  · have hs1' : a.c.2 ≤ d.c.2 := by simpa using hs1
    have hs2' : b.c.2 ≤ c.c.2 := by simpa using hs2
    refine ⟨?_, ?_, ?_, ?_, hs1', hs2'⟩
    · rcases ha with rfl | rfl <;> rcases hb with rfl | rfl <;> assumption
    · rcases ha with rfl | rfl <;> rcases hc with rfl | rfl <;> assumption
    · rcases hd with rfl | rfl <;> rcases hb with rfl | rfl <;> assumption
    · rcases hd with rfl | rfl <;> rcases hc with rfl | rfl <;> assumption

/-- **C78**: a list of vertices that is not a full face gives no quad. -/
theorem C78_none (srt : (Vertex K → K) → List (Vertex K) → List (Vertex K)) (dc : Bool) (vs : List (Vertex K)) (h4 : vs.length ≠ 4) :
    faceQuad srt dc vs = none := if_neg h4

/-- **C78**: the corners of a face between two vertical lines are found whatever the order of the vertices is: `a` is the lower left
one, and so on. -/
theorem C78_unique {srt : (Vertex K → K) → List (Vertex K) → List (Vertex K)} (hs : IsSort srt) (vs : List (Vertex K))
    (a b c d : Vertex K) (hp : [a, b, c, d].Perm vs)
    (hx : a.c.1 < b.c.1 ∧ a.c.1 < c.c.1 ∧ d.c.1 < b.c.1 ∧ d.c.1 < c.c.1) (hy : a.c.2 < d.c.2 ∧ b.c.2 < c.c.2) :
    faceQuad srt false vs = some ![a, b, c, d] ∧ faceQuad srt true vs = some ![a, b, d, c] := by
  obtain ⟨a', b', c', d', h1, h2, hp', hA⟩ := C78_corners hs vs hp.symm.length_eq
  have hpp := hp'.trans hp.symm
  obtain ⟨hx1, hx2, hx3, hx4⟩ := hx
  obtain ⟨hy1, hy2⟩ := hy
  obtain ⟨g1, g2, g3, g4, g5, g6⟩ := hA
  have hnd : [a, b, c, d].Nodup := by
    simp only [List.nodup_cons, List.mem_cons, List.not_mem_nil, or_false, not_or, List.nodup_nil, not_false_eq_true, and_true]
    refine ⟨⟨?_, ?_, ?_⟩, ⟨?_, ?_⟩, ?_⟩ <;> rintro rfl <;> first | exact lt_irrefl _ ‹_› | exact lt_asymm ‹_› ‹_›
  have hnd' := hpp.nodup_iff.mpr hnd
  have ma : a' = a ∨ a' = b ∨ a' = c ∨ a' = d := by simpa using hpp.subset (by simp : a' ∈ [a', b', c', d'])
  have mb : b' = a ∨ b' = b ∨ b' = c ∨ b' = d := by simpa using hpp.subset (by simp : b' ∈ [a', b', c', d'])
  have mc : c' = a ∨ c' = b ∨ c' = c ∨ c' = d := by simpa using hpp.subset (by simp : c' ∈ [a', b', c', d'])
  have md : d' = a ∨ d' = b ∨ d' = c ∨ d' = d := by simpa using hpp.subset (by simp : d' ∈ [a', b', c', d'])
  simp only [List.nodup_cons, List.mem_cons, List.not_mem_nil, or_false, not_or, List.nodup_nil, not_false_eq_true, and_true] at hnd'
  obtain ⟨⟨n1, n2, n3⟩, ⟨n4, n5⟩, n6⟩ := hnd'
  have key : a' = a ∧ b' = b ∧ c' = c ∧ d' = d := by
    rcases ma with e1 | e1 | e1 | e1 <;> rcases mb with e2 | e2 | e2 | e2 <;>
    first
    | exact absurd (e1.trans e2.symm) n1
    | (rcases mc with e3 | e3 | e3 | e3 <;>
       first
       | exact absurd (e1.trans e3.symm) n2
       | exact absurd (e2.trans e3.symm) n4
       | (rcases md with e4 | e4 | e4 | e4 <;>
          first
          | exact absurd (e1.trans e4.symm) n3
          | exact absurd (e2.trans e4.symm) n5
          | exact absurd (e3.trans e4.symm) n6
          | (first | exact ⟨e1, e2, e3, e4⟩ | (exfalso; rw [e1, e2] at g1; rw [e1, e3] at g2; rw [e4, e2] at g3; rw [e4, e3] at g4; rw [e1, e4] at g5; rw [e2, e3] at g6; linarith))))
  obtain ⟨rfl, rfl, rfl, rfl⟩ := key
  exact ⟨h1, h2⟩

/-- **C78**: the quad between two vertical lines is well shaped: its bilinear map has a positive Jacobian everywhere on the unit
square. This is the condition under which points are located with their own coordinates (C77). -/
theorem C78_shape (q : Quad K) (x y : K) (hx0 : 0 ≤ x) (hx1 : x ≤ 1) (hl : (q.v 0).c.1 = (q.v 3).c.1) (hr : (q.v 1).c.1 = (q.v 2).c.1)
    (hw : (q.v 0).c.1 < (q.v 1).c.1) (h1 : (q.v 0).c.2 < (q.v 3).c.2) (h2 : (q.v 1).c.2 < (q.v 2).c.2) :
    0 < jacobian q.xs q.ys x y ∧ (q.v 0).c.1 < (q.v 1).c.1 ∧ (q.v 3).c.1 < (q.v 2).c.1 := by
  refine ⟨?_, hw, by rw [← hl, ← hr]; exact hw⟩
  have e : jacobian q.xs q.ys x y = ((q.v 1).c.1 - (q.v 0).c.1) *
      (((q.v 3).c.2 - (q.v 0).c.2) * (1 - x) + ((q.v 2).c.2 - (q.v 1).c.2) * x) := by
    unfold jacobian Quad.xs Quad.ys
    rw [← hl, ← hr]; ring
  rw [e]
  refine mul_pos (by linarith) ?_
  rcases lt_or_eq_of_le hx0 with h | h
  · have := mul_pos (by linarith : 0 < (q.v 2).c.2 - (q.v 1).c.2) h
    have := mul_nonneg (by linarith : 0 ≤ (q.v 3).c.2 - (q.v 0).c.2) (by linarith : 0 ≤ 1 - x)
    linarith
  · rw [← h]; simp; exact h1

/-- Insertion sort is a sort. -/
theorem isSort_insertion : IsSort (K := K) fun key l => l.insertionSort fun v w => key v ≤ key w := by
  intro key l
  haveI : Std.Total fun v w : Vertex K => key v ≤ key w := ⟨fun a b => le_total (key a) (key b)⟩
  haveI : IsTrans (Vertex K) fun v w : Vertex K => key v ≤ key w := ⟨fun a b c h1 h2 => le_trans h1 h2⟩
  exact ⟨List.perm_insertionSort _ _, List.pairwise_insertionSort _ _⟩

/-- Four vertices given in another order. -/
example : (faceQuad (K := ℚ) (fun key l => l.insertionSort fun v w => key v ≤ key w) false
    [⟨7, (1, 2)⟩, ⟨3, (0, 1)⟩, ⟨4, (1, 0)⟩, ⟨9, (0, 0)⟩]).map (fun q => [(q 0).i, (q 1).i, (q 2).i, (q 3).i]) = some [9, 4, 7, 3] := by
  decide +kernel

/-! ### C79 -/

/-- First coordinate of the first corner. -/
def key0 (q : Fin 4 → Vertex K) : K := (q 0).c.1

theorem appendKey_perm (x : K) (q : Fin 4 → Vertex K) (m m' : List (K × List (Fin 4 → Vertex K))) (h : appendKey x q m = some m') :
    ((m'.map (·.2)).flatten).Perm ((m.map (·.2)).flatten ++ [q]) := by
  induction m generalizing m' with
  | nil => simp [appendKey] at h
  | cons kl m ih =>
    obtain ⟨k, l⟩ := kl
    unfold appendKey at h
    split at h
    · obtain rfl := (Option.some.inj h).symm
      simp only [List.map_cons, List.flatten_cons, List.append_assoc]
      exact List.Perm.append_left l List.perm_append_comm
    · obtain ⟨m2, hm2, rfl⟩ := Option.map_eq_some_iff.mp h
      simp only [List.map_cons, List.flatten_cons, List.append_assoc]
      exact List.Perm.append_left l (ih m2 hm2)

theorem insertKey_perm (x : K) (q : Fin 4 → Vertex K) (m : List (K × List (Fin 4 → Vertex K))) :
    (((insertKey x q m).map (·.2)).flatten).Perm ((m.map (·.2)).flatten ++ [q]) := by
  induction m with
  | nil => simp [insertKey]
  | cons kl m ih =>
    obtain ⟨k, l⟩ := kl
    unfold insertKey
    split
    · simp only [List.map_cons, List.flatten_cons, List.append_assoc]
      exact (List.perm_append_comm (l₁ := [q])).trans (by rw [List.append_assoc])
    · simp only [List.map_cons, List.flatten_cons, List.append_assoc]
      exact List.Perm.append_left l ih

/-- **C79**: every quad is in exactly one column. -/
theorem C79_partition (qs : List (Fin 4 → Vertex K)) : (columns qs).flatten.Perm qs := by
  unfold columns
  have key : ∀ (qs : List (Fin 4 → Vertex K)) m, (((qs.foldl addColumn m).map (·.2)).flatten).Perm ((m.map (·.2)).flatten ++ qs) := by
    intro qs
    induction qs with
    | nil => intro m; simp
    | cons q qs ih =>
      intro m
      rw [List.foldl_cons]
      refine (ih _).trans ?_
      have h1 : (((addColumn m q).map (·.2)).flatten).Perm ((m.map (·.2)).flatten ++ [q]) := by
        unfold addColumn
        split
        · rename_i m' hm'; exact appendKey_perm _ _ _ _ hm'
        · exact insertKey_perm _ _ _
      refine (h1.append_right qs).trans ?_
      rw [List.append_assoc]; rfl
  simpa using key qs []

/-- The columns are those of quads with the keys `ks`. -/
def Grouped (qs : List (Fin 4 → Vertex K)) (ks : List K) : List (K × List (Fin 4 → Vertex K)) :=
  ks.map fun k => (k, qs.filter fun q => decide (key0 q = k))

theorem appendKey_grouped (qs : List (Fin 4 → Vertex K)) (q : Fin 4 → Vertex K) (ks : List K)
    (hd : ∀ k ∈ ks, k = key0 q ∨ ¬ |k - key0 q| < 1 / 10 ^ 7) (hn : ks.Nodup) :
    appendKey (key0 q) q (Grouped qs ks) = if key0 q ∈ ks then some (Grouped (qs ++ [q]) ks) else none := by
  induction ks with
  | nil => simp [Grouped, appendKey]
  | cons k ks ih =>
    have ih := ih (fun k hk => hd k (List.mem_cons_of_mem _ hk)) (List.nodup_cons.mp hn).2
    have hG : Grouped qs (k :: ks) = (k, qs.filter fun q => decide (key0 q = k)) :: Grouped qs ks := rfl
    have hG' : Grouped (qs ++ [q]) (k :: ks) = (k, (qs ++ [q]).filter fun q => decide (key0 q = k)) :: Grouped (qs ++ [q]) ks := rfl
    rw [hG]
    unfold appendKey
    rcases hd k List.mem_cons_self with h | h
    · have hpos : |k - key0 q| < 1 / 10 ^ 7 := by rw [h, sub_self, abs_zero]; positivity
      rw [if_pos hpos, if_pos (by rw [h]; exact List.mem_cons_self), hG']
      congr 2
      · congr 1
        rw [List.filter_append]
        simp [h]
      · unfold Grouped
        refine List.map_congr_left fun k' hk' => ?_
        have hne : key0 q ≠ k' := by
          rintro rfl; exact (List.nodup_cons.mp hn).1 (h ▸ hk')
        rw [List.filter_append]
        simp [hne]
    · have hne : key0 q ≠ k := by
        rintro rfl; exact h (by rw [sub_self, abs_zero]; positivity)
      rw [if_neg h, ih]
      by_cases hm : key0 q ∈ ks
      · rw [if_pos hm, if_pos (List.mem_cons_of_mem _ hm), hG']
        rw [Option.map_some]
        congr 2
        rw [List.filter_append]
        simp [hne]
      · rw [if_neg hm, if_neg (by simp [hne, hm])]; rfl

theorem insertKey_grouped (qs : List (Fin 4 → Vertex K)) (q : Fin 4 → Vertex K) (ks : List K)
    (hsort : ks.Pairwise (· < ·)) (hnot : key0 q ∉ ks) (hk : ∀ p ∈ qs, key0 p ∈ ks ∨ key0 p ≠ key0 q) :
    ∃ ks', insertKey (key0 q) q (Grouped qs ks) = Grouped (qs ++ [q]) ks' ∧ ks'.Pairwise (· < ·) ∧
      ∀ k, k ∈ ks' ↔ k = key0 q ∨ k ∈ ks := by
  have same : ∀ ks : List K, key0 q ∉ ks → Grouped qs ks = Grouped (qs ++ [q]) ks := by
    intro ks hn
    unfold Grouped
    refine List.map_congr_left fun k hk' => ?_
    have : key0 q ≠ k := by rintro rfl; exact hn hk'
    rw [List.filter_append]
    simp [this]
  have hone : (key0 q, [q]) = (key0 q, (qs ++ [q]).filter fun p => decide (key0 p = key0 q)) := by
    have : qs.filter (fun p => decide (key0 p = key0 q)) = [] := by
      rw [List.filter_eq_nil_iff]
      intro p hp he
      rcases hk p hp with h | h
      · exact hnot (of_decide_eq_true he ▸ h)
      · exact h (of_decide_eq_true he)
    rw [List.filter_append, this]; simp
  clear hk
  induction ks with
  | nil =>
    refine ⟨[key0 q], ?_, by simp, by simp⟩
    change [(key0 q, [q])] = _
    rw [hone]; rfl
  | cons k ks ih =>
    have hG : Grouped qs (k :: ks) = (k, qs.filter fun q => decide (key0 q = k)) :: Grouped qs ks := rfl
    rw [List.pairwise_cons] at hsort
    by_cases h : key0 q < k
    · refine ⟨key0 q :: k :: ks, ?_, ?_, by simp⟩
      · rw [hG]; unfold insertKey
        rw [if_pos h, ← hG, same _ hnot, hone]; rfl
      · rw [List.pairwise_cons]
        refine ⟨?_, List.pairwise_cons.mpr hsort⟩
        intro a ha
        rcases List.mem_cons.mp ha with rfl | ha
        · exact h
        · exact h.trans (hsort.1 a ha)
    · obtain ⟨ks', h1, h2, h3⟩ := ih hsort.2 (fun hm => hnot (List.mem_cons_of_mem _ hm))
      have hne : key0 q ≠ k := by rintro rfl; exact hnot List.mem_cons_self
      refine ⟨k :: ks', ?_, ?_, ?_⟩
      · rw [hG]; unfold insertKey
        rw [if_neg h, h1]
        change _ = (k, (qs ++ [q]).filter fun q => decide (key0 q = k)) :: Grouped (qs ++ [q]) ks'
        congr 2
        rw [List.filter_append]
        simp [hne]
      · rw [List.pairwise_cons]
        refine ⟨?_, h2⟩
        intro a ha
        rcases (h3 a).mp ha with rfl | ha
        · exact lt_of_le_of_ne (not_lt.mp h) (Ne.symm hne)
        · exact hsort.1 a ha
      · intro a
        rw [List.mem_cons, h3, List.mem_cons]
        tauto

/-- **C79**: if the first coordinates of lower left corners are equal or at least `10⁻⁷` apart, the columns are the sets of quads with
the same first coordinate, ordered by it, with the quads of a column in the order in which they are visited. -/
theorem C79_columns (qs : List (Fin 4 → Vertex K))
    (hd : ∀ p ∈ qs, ∀ q ∈ qs, (p 0).c.1 = (q 0).c.1 ∨ 1 / 10 ^ 7 ≤ |(p 0).c.1 - (q 0).c.1|) :
    ∃ ks : List K, ks.Pairwise (· < ·) ∧ (∀ k, k ∈ ks ↔ ∃ q ∈ qs, (q 0).c.1 = k) ∧
      columns qs = ks.map fun k => qs.filter fun q => decide ((q 0).c.1 = k) := by
  have key : ∃ ks : List K, ks.Pairwise (· < ·) ∧ (∀ k, k ∈ ks ↔ ∃ q ∈ qs, key0 q = k) ∧ qs.foldl addColumn [] = Grouped qs ks := by
    induction qs using List.reverseRecOn with
    | nil => exact ⟨[], by simp, by simp, rfl⟩
    | append_singleton qs q ih =>
      obtain ⟨ks, h1, h2, h3⟩ := ih fun p hp q' hq' => hd p (List.mem_append_left _ hp) q' (List.mem_append_left _ hq')
      rw [List.foldl_append, h3]
      rw [List.foldl_cons, List.foldl_nil]
      have hcl : ∀ k ∈ ks, k = key0 q ∨ ¬ |k - key0 q| < 1 / 10 ^ 7 := by
        intro k hk
        obtain ⟨p, hp, rfl⟩ := (h2 k).mp hk
        rcases hd p (List.mem_append_left _ hp) q (by simp) with h | h
        · exact Or.inl h
        · exact Or.inr (not_lt.mpr h)
      have happ := appendKey_grouped qs q ks hcl (h1.imp fun h => ne_of_lt h)
      by_cases hm : key0 q ∈ ks
      · rw [if_pos hm] at happ
        refine ⟨ks, h1, ?_, ?_⟩
        · intro k
          rw [h2]
          constructor
          · rintro ⟨p, hp, rfl⟩; exact ⟨p, List.mem_append_left _ hp, rfl⟩
          · rintro ⟨p, hp, rfl⟩
            rcases List.mem_append.mp hp with hp | hp
            · exact ⟨p, hp, rfl⟩
            · rw [List.mem_singleton.mp hp]; exact (h2 _).mp hm
        · unfold addColumn
          change (match appendKey (key0 q) q (Grouped qs ks) with | some m' => m' | none => insertKey (key0 q) q (Grouped qs ks)) = _
          rw [happ]
      · rw [if_neg hm] at happ
        obtain ⟨ks', e1, e2, e3⟩ := insertKey_grouped qs q ks h1 hm fun p hp => Or.inl ((h2 _).mpr ⟨p, hp, rfl⟩)
        refine ⟨ks', e2, ?_, ?_⟩
        · intro k
          rw [e3, h2]
          constructor
          · rintro (rfl | ⟨p, hp, rfl⟩)
            · exact ⟨q, by simp, rfl⟩
            · exact ⟨p, List.mem_append_left _ hp, rfl⟩
          · rintro ⟨p, hp, rfl⟩
            rcases List.mem_append.mp hp with hp | hp
            · exact Or.inr ⟨p, hp, rfl⟩
            · rw [List.mem_singleton.mp hp]; exact Or.inl rfl
        · unfold addColumn
          change (match appendKey (key0 q) q (Grouped qs ks) with | some m' => m' | none => insertKey (key0 q) q (Grouped qs ks)) = _
          rw [happ]; exact e1
  obtain ⟨ks, h1, h2, h3⟩ := key
  refine ⟨ks, h1, h2, ?_⟩
  unfold columns
  rw [h3]
  unfold Grouped
  rw [List.map_map]; rfl

/-- Three quads in two columns, visited in another order. -/
example : (columns (K := ℚ) [fun _ => ⟨0, (1, 0)⟩, fun _ => ⟨1, (0, 0)⟩, fun _ => ⟨2, (1, 1)⟩]).map (·.map fun q => (q 0).i) =
    [[1], [0, 2]] := by decide +kernel

/-! ### C80 -/

theorem bounds_fold (l : List K) (b : K × K) :
    ((l.foldl (fun b x => (min b.1 x, max b.2 x)) b).1 ≤ b.1 ∧ (∀ x ∈ l, (l.foldl (fun b x => (min b.1 x, max b.2 x)) b).1 ≤ x) ∧
      ((l.foldl (fun b x => (min b.1 x, max b.2 x)) b).1 = b.1 ∨ (l.foldl (fun b x => (min b.1 x, max b.2 x)) b).1 ∈ l)) ∧
    (b.2 ≤ (l.foldl (fun b x => (min b.1 x, max b.2 x)) b).2 ∧ (∀ x ∈ l, x ≤ (l.foldl (fun b x => (min b.1 x, max b.2 x)) b).2) ∧
      ((l.foldl (fun b x => (min b.1 x, max b.2 x)) b).2 = b.2 ∨ (l.foldl (fun b x => (min b.1 x, max b.2 x)) b).2 ∈ l)) := by
  induction l generalizing b with
  | nil => simp
  | cons a l ih =>
    obtain ⟨⟨h1, h2, h3⟩, ⟨g1, g2, g3⟩⟩ := ih (min b.1 a, max b.2 a)
    rw [List.foldl_cons]
    generalize hR : l.foldl (fun b x => (min b.1 x, max b.2 x)) (min b.1 a, max b.2 a) = R at *
    dsimp only at h1 h3 g1 g3
    refine ⟨⟨h1.trans (min_le_left _ _), ?_, ?_⟩, ⟨(le_max_left _ _).trans g1, ?_, ?_⟩⟩
    · intro x hx
      rcases List.mem_cons.mp hx with rfl | hx
      · exact h1.trans (min_le_right _ _)
      · exact h2 x hx
    · rcases h3 with h | h
      · rcases min_choice b.1 a with e | e
        · exact Or.inl (h.trans e)
        · exact Or.inr (by rw [h, e]; exact List.mem_cons_self)
      · exact Or.inr (List.mem_cons_of_mem _ h)
    · intro x hx
      rcases List.mem_cons.mp hx with rfl | hx
      · exact (le_max_right _ _).trans g1
      · exact g2 x hx
    · rcases g3 with h | h
      · rcases max_choice b.2 a with e | e
        · exact Or.inl (h.trans e)
        · exact Or.inr (by rw [h, e]; exact List.mem_cons_self)
      · exact Or.inr (List.mem_cons_of_mem _ h)

/-- **C80 (partial)**: the extents are the smallest and the largest coordinate of the vertices, if some coordinate is at most `10⁵` and
some at least `-10⁵`. (Missing: grids farther from the origin, see `C80_violated`.) -/
theorem C80_extent_partial (coords : List K) (hlo : ∃ x ∈ coords, x ≤ 10 ^ 5) (hhi : ∃ x ∈ coords, -10 ^ 5 ≤ x) :
    ((findBoundaries coords).1 ∈ coords ∧ ∀ x ∈ coords, (findBoundaries coords).1 ≤ x) ∧
    ((findBoundaries coords).2 ∈ coords ∧ ∀ x ∈ coords, x ≤ (findBoundaries coords).2) := by
  obtain ⟨⟨h1, h2, h3⟩, ⟨g1, g2, g3⟩⟩ := bounds_fold coords ((10 : K) ^ 5, -10 ^ 5)
  change (findBoundaries coords).1 = _ ∨ _ at h3
  change (findBoundaries coords).2 = _ ∨ _ at g3
  change ∀ x ∈ coords, (findBoundaries coords).1 ≤ x at h2
  change ∀ x ∈ coords, x ≤ (findBoundaries coords).2 at g2
  refine ⟨⟨?_, h2⟩, ⟨?_, g2⟩⟩
  · rcases h3 with h | h
    · obtain ⟨x, hx, hx5⟩ := hlo
      have := h2 x hx
      rw [h] at this
      rw [h, le_antisymm this hx5]; exact hx
    · exact h
  · rcases g3 with h | h
    · obtain ⟨x, hx, hx5⟩ := hhi
      have := g2 x hx
      rw [h] at this
      rw [h, ← le_antisymm this hx5]; exact hx
    · exact h

/-- **C80 is violated**: for a grid with coordinates like those of a map projection no vertex is on the plane of the smallest
coordinate. -/
theorem C80_violated : ∃ coords : List ℚ, coords ≠ [] ∧ (findBoundaries coords).1 ∉ coords ∧
    ∀ x ∈ coords, ¬ |(findBoundaries coords).1 - x| < 1 :=
  ⟨[456000, 456100], by simp, by decide +kernel, by decide +kernel⟩

example : findBoundaries [(3 : ℚ), -1, 2] = (-1, 3) := by decide +kernel

end Verif.BGrid
