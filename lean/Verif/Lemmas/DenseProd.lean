import Verif.Lemmas.DenseBlas
import Mathlib.Algebra.BigOperators.Group.List.Basic

set_option linter.unusedSectionVars false

namespace Verif.Dense

variable {K : Type}

section
variable [Field K]

theorem list_range_sum (f : Nat → K) (n : Nat) :
    ((List.range n).map f).sum = ∑ i ∈ Finset.range n, f i := by
  induction n with
  | zero => simp
  | succ n ih => rw [List.range_succ, Finset.sum_range_succ, List.map_append, List.sum_append, ih]; simp

theorem prod_inner (A B : FullMatrix K) (g : Nat → K) (r c : Nat)
    (l : List Nat) (hl : ∀ i ∈ l, ∃ a b, A.get r i = some a ∧ B.get i c = some b ∧ g i = a * b) :
    ∀ (Y : FullMatrix K) (s : K), WF Y → r < Y.rows → c < Y.cols → Y.get r c = some s →
    ∃ Y', l.foldlM (fun (Y : FullMatrix K) i => do
        let a ← A.get r i
        let b ← B.get i c
        let old ← Y.get r c
        Y.set r c (old + a * b)) Y = some Y' ∧ Y'.rows = Y.rows ∧ Y'.cols = Y.cols ∧ Y'.ord = Y.ord ∧ WF Y' ∧
      Y'.get r c = some (s + (l.map g).sum) ∧ ∀ r' c', (r', c') ≠ (r, c) → Y'.get r' c' = Y.get r' c' := by
  induction l with
  | nil => intro Y s hY _ _ hs; exact ⟨Y, by simp, rfl, rfl, rfl, hY, by simp [hs], fun _ _ _ => rfl⟩
  | cons i l ih =>
    intro Y s hY hr hc hs
    obtain ⟨a, b, ha, hb, hg⟩ := hl i (by simp)
    obtain ⟨Y1, h1, hr1, hc1, ho1, hw1, hg1, hrest⟩ := FullMatrix.set_spec Y hY hr hc (s + a * b)
    obtain ⟨Y2, h2, hr2, hc2, ho2, hw2, hg2, hrest2⟩ :=
      ih (fun j hj => hl j (by simp [hj])) Y1 _ hw1 (by omega) (by omega) hg1
    refine ⟨Y2, ?_, by omega, by omega, by rw [ho2, ho1], hw2, ?_, ?_⟩
    · rw [List.foldlM_cons]
      simp only [ha, hb, hs, Option.bind_eq_bind, Option.bind_some, h1]
      exact h2
    · rw [hg2, ← hg]; simp [add_assoc]
    · intro r' c' hne; rw [hrest2 _ _ hne, hrest _ _ hne]

theorem prod_spec {m k n : Nat} {A B C : FullMatrix K} {MA : Matrix (Fin m) (Fin k) K}
    {MB : Matrix (Fin k) (Fin n) K} (hA : Represents A MA) (hB : Represents B MB)
    (hC : WF C) (hCr : C.rows = m) (hCc : C.cols = n) :
    ∃ C', FullMatrix.prod A B C = some C' ∧ C'.ord = C.ord ∧ Represents C' (MA * MB) := by
  let f : Nat × Nat → K := fun rc =>
    if h : rc.1 < m ∧ rc.2 < n then (MA * MB) ⟨rc.1, h.1⟩ ⟨rc.2, h.2⟩ else 0
  obtain ⟨X', hf, hr, hc, ho, hw, hg⟩ := FullMatrix.foldlM_set_spec f
    (fun (X : FullMatrix K) rc => do
      let X0 ← X.set rc.1 rc.2 0
      (List.range A.cols).foldlM (fun (Y : FullMatrix K) i => do
        let a ← A.get rc.1 i
        let b ← B.get i rc.2
        let old ← Y.get rc.1 rc.2
        Y.set rc.1 rc.2 (old + a * b)) X0) m n (by
      rintro X ⟨r, c⟩ hX hXr hXc hr hc
      obtain ⟨X0, h1, hr1, hc1, ho1, hw1, hg1, hrest⟩ :=
        FullMatrix.set_spec X hX (r := r) (c := c) (by omega) (by omega) 0
      obtain ⟨Y2, h2, hr2, hc2, ho2, hw2, hg2, hrest2⟩ := prod_inner A B
        (fun i => if h : i < k then MA ⟨r, hr⟩ ⟨i, h⟩ * MB ⟨i, h⟩ ⟨c, hc⟩ else 0) r c (List.range A.cols)
        (by
          intro i hi
          have hik : i < k := by rw [← hA.cols_eq]; simpa using hi
          refine ⟨_, _, hA.entry ⟨r, hr⟩ ⟨i, hik⟩, hB.entry ⟨i, hik⟩ ⟨c, hc⟩, by simp [hik]⟩)
        X0 0 hw1 (by omega) (by omega) hg1
      refine ⟨Y2, ?_, by omega, by omega, by rw [ho2, ho1], hw2, ?_, ?_⟩
      · simp only [h1, Option.bind_eq_bind, Option.bind_some]; exact h2
      · rw [hg2, zero_add, hA.cols_eq]
        have : f (r, c) = (MA * MB) ⟨r, hr⟩ ⟨c, hc⟩ := by
          simp only [f]; rw [dif_pos ⟨hr, hc⟩]
        rw [this, Matrix.mul_apply, list_range_sum]
        congr 1
        apply sum_range_fin
        intro i; simp
      · intro r' c' hne; rw [hrest2 _ _ hne, hrest _ _ hne])
    (FullMatrix.colMajorPairs A.rows B.cols) (by
      intro rc h
      have := FullMatrix.mem_colMajor.mp h
      rw [hA.rows_eq, hB.cols_eq] at this
      exact this) C hC hCr hCc
  refine ⟨X', ?_, ho, ⟨hr, hc, by rw [hw, hr, hc], ?_⟩⟩
  · unfold FullMatrix.prod
    rw [if_pos ⟨by rw [hA.cols_eq, hB.rows_eq], by rw [hCr, hA.rows_eq], by rw [hCc, hB.cols_eq]⟩]
    exact hf
  · intro i j
    rw [hg (i, j), if_pos]
    · simp only [f]; rw [dif_pos ⟨i.2, j.2⟩]
    · rw [FullMatrix.mem_colMajor]; rw [hA.rows_eq, hB.cols_eq]; exact ⟨i.2, j.2⟩

theorem prodVec_fold (A : FullMatrix K) (x : List K) (n : Nat) (g : Nat × Nat → K)
    (l : List (Nat × Nat))
    (hl : ∀ rc ∈ l, rc.1 < n ∧ ∃ a xc, A.get rc.1 rc.2 = some a ∧ x[rc.2]? = some xc ∧ g rc = a * xc) :
    ∀ res : List K, res.length = n →
    ∃ res', l.foldlM (fun (res : List K) rc => do
      let a ← A.get rc.1 rc.2
      let xc ← x[rc.2]?
      let old ← res[rc.1]?
      pure (res.set rc.1 (old + a * xc))) res = some res' ∧ res'.length = n ∧
      ∀ r < n, res'.getD r 0 = res.getD r 0 + ((l.filter (fun rc => rc.1 = r)).map g).sum := by
  induction l with
  | nil => intro res h; exact ⟨res, by simp, h, by simp⟩
  | cons q l ih =>
    intro res h
    obtain ⟨hq, a, xc, ha, hxc, hg⟩ := hl q (by simp)
    obtain ⟨res', hf, hlen, hval⟩ := ih (fun rc hm => hl rc (by simp [hm]))
      (res.set q.1 (res[q.1]'(by omega) + a * xc)) (by simpa using h)
    refine ⟨res', ?_, hlen, ?_⟩
    · rw [List.foldlM_cons]
      have : res[q.1]? = some (res[q.1]'(by omega)) := by simp
      simp only [ha, hxc, this, Option.bind_eq_bind, Option.bind_some, Option.pure_def]
      exact hf
    · intro r hr
      rw [hval r hr]
      by_cases hqr : q.1 = r
      · subst hqr
        have h1 : q.1 < res.length := by omega
        simp [List.getD, h1, hg, add_assoc]
      · simp [List.getD, hqr]

theorem filter_colMajor (m n r : Nat) (hr : r < m) :
    (FullMatrix.colMajorPairs m n).filter (fun rc => rc.1 = r) = (List.range n).map fun c => (r, c) := by
  unfold FullMatrix.colMajorPairs
  rw [List.filter_flatMap]
  have : ∀ c, ((List.range m).map fun r' => (r', c)).filter (fun rc : Nat × Nat => rc.1 = r) = [(r, c)] := by
    intro c
    rw [List.filter_map]
    have : (List.range m).filter ((fun rc : Nat × Nat => decide (rc.1 = r)) ∘ fun r' => (r', c)) = [r] := by
      have h2 : ((fun rc : Nat × Nat => decide (rc.1 = r)) ∘ fun r' => (r', c)) = fun r' => r' == r := by
        funext r'; by_cases h : r' = r <;> simp [h]
      rw [h2]
      rw [List.filter_beq]
      simp [List.count_eq_one_of_mem List.nodup_range (List.mem_range.mpr hr)]
    rw [this]; rfl
  simp only [this]
  rw [← List.map_eq_flatMap]

theorem prodVec_spec {n : Nat} {A : FullMatrix K} {MA : Matrix (Fin n) (Fin n) K} {x : List K}
    {v : Fin n → K} (hA : Represents A MA) (hx : IsVec x v) :
    ∃ y, FullMatrix.prodVec A x = some y ∧ IsVec y (MA.mulVec v) := by
  have hxl : x.length = n := isVec_length hx
  obtain ⟨res, hf, hlen, hval⟩ := prodVec_fold A x n
    (fun rc => if h : rc.1 < n ∧ rc.2 < n then MA ⟨rc.1, h.1⟩ ⟨rc.2, h.2⟩ * v ⟨rc.2, h.2⟩ else 0)
    (FullMatrix.colMajorPairs n n) (by
      rintro ⟨r, c⟩ h
      obtain ⟨hr, hc⟩ := FullMatrix.mem_colMajor.mp h
      refine ⟨hr, MA ⟨r, hr⟩ ⟨c, hc⟩, v ⟨c, hc⟩, hA.entry ⟨r, hr⟩ ⟨c, hc⟩, ?_, ?_⟩
      · unfold IsVec at hx; subst hx
        have : c < n := hc
        simp [this]
      · simp only at hr hc; simp [hr, hc])
    (List.replicate n 0) (by simp)
  refine ⟨res, ?_, ?_⟩
  · unfold FullMatrix.prodVec
    rw [if_pos ⟨by rw [hA.rows_eq, hxl], by rw [hA.cols_eq, hxl]⟩, hxl]
    exact hf
  · unfold IsVec
    apply List.ext_getElem
    · simp [hlen]
    · intro i h1 h2
      have hi : i < n := by omega
      have := hval i hi
      rw [filter_colMajor n n i hi] at this
      simp only [List.getD, List.getElem?_eq_getElem h1, Option.getD_some] at this
      rw [this]
      simp only [List.getElem_ofFn, List.map_map]
      rw [list_range_sum]
      simp only [Matrix.mulVec, dotProduct]
      rw [sum_range_fin _ (fun j => MA ⟨i, hi⟩ j * v j)]
      · simp [hi]
      · intro j; simp [hi]

theorem trace_spec {m n : Nat} {A : FullMatrix K} {MA : Matrix (Fin m) (Fin n) K} (hA : Represents A MA) :
    A.trace = some (∑ i : Fin (min m n), MA ⟨i, by omega⟩ ⟨i, by omega⟩) := by
  have key : ∀ (l : List Nat) (g : Nat → K) (_ : ∀ i ∈ l, A.get i i = some (g i)) (s : K),
      l.foldlM (fun (acc : K) i => do let v ← A.get i i; pure (acc + v)) s = some (s + (l.map g).sum) := by
    intro l g
    induction l with
    | nil => intro _ s; simp
    | cons i l ih =>
      intro h s
      rw [List.foldlM_cons]
      have := ih (fun j hj => h j (by simp [hj])) (s + g i)
      simp only [h i (by simp), Option.bind_eq_bind, Option.bind_some, Option.pure_def] at this ⊢
      rw [this]; simp [add_assoc]
  unfold FullMatrix.trace
  rw [hA.rows_eq, hA.cols_eq]
  rw [key (List.range (min m n)) (fun i => if h : i < m ∧ i < n then MA ⟨i, h.1⟩ ⟨i, h.2⟩ else 0)]
  · rw [zero_add, list_range_sum]
    congr 1
    apply sum_range_fin
    intro i
    rw [dif_pos ⟨by omega, by omega⟩]
  · intro i hi
    have hi' : i < min m n := by simpa using hi
    have h1 : i < m := by omega
    have h2 : i < n := by omega
    simp only [h1, h2, and_self, dif_pos]
    exact hA.entry ⟨i, h1⟩ ⟨i, h2⟩

theorem zero_spec {m n : Nat} {A : FullMatrix K} (hA : WF A) (hr : A.rows = m) (hc : A.cols = n) :
    ∃ Z, A.zero = some Z ∧ Z.ord = A.ord ∧ Represents Z (0 : Matrix (Fin m) (Fin n) K) := by
  have hle : A.rows * A.cols ≤ A.data.length := le_of_eq hA.symm
  refine ⟨{ A with data := List.replicate (A.rows * A.cols) 0 ++ A.data.drop (A.rows * A.cols) },
    by simp only [FullMatrix.zero, hle, if_true], rfl, ?_⟩
  have hd : A.data.drop (A.rows * A.cols) = [] := by
    rw [List.drop_eq_nil_iff]; exact le_of_eq hA
  refine ⟨hr, hc, ?_, ?_⟩
  · show (List.replicate (A.rows * A.cols) (0 : K) ++ A.data.drop (A.rows * A.cols)).length = m * n
    rw [hd, List.append_nil, List.length_replicate, hr, hc]
  · intro i j
    have hi : (i : Nat) < A.rows := by rw [hr]; exact i.2
    have hj : (j : Nat) < A.cols := by rw [hc]; exact j.2
    have := idx_lt A.ord hi hj
    simp [FullMatrix.get, hi, hj, hd, List.getElem?_replicate, this]

theorem eye_spec {m n : Nat} {A : FullMatrix K} (hA : WF A) (hr : A.rows = m) (hc : A.cols = n) :
    ∃ E, A.eye = some E ∧ E.ord = A.ord ∧
      Represents E (Matrix.of fun (i : Fin m) (j : Fin n) => if (i : Nat) = j then (1 : K) else 0) := by
  obtain ⟨Z, hZ, hZo, hZr⟩ := zero_spec hA hr hc
  have key : ∀ l : List Nat, (∀ i ∈ l, i < m ∧ i < n) → ∀ X : FullMatrix K, WF X → X.rows = m → X.cols = n →
      ∃ X', l.foldlM (fun (X : FullMatrix K) i => X.set i i 1) X = some X' ∧ X'.rows = m ∧ X'.cols = n ∧
        X'.ord = X.ord ∧ WF X' ∧
        ∀ a b, X'.get a b = if a = b ∧ a ∈ l then some 1 else X.get a b := by
    intro l
    induction l with
    | nil => intro _ X hX h1 h2; exact ⟨X, by simp, h1, h2, rfl, hX, by simp⟩
    | cons i l ih =>
      intro hl X hX h1 h2
      obtain ⟨hi1, hi2⟩ := hl i (by simp)
      obtain ⟨X1, hs, hr1, hc1, ho1, hw1, hg1, hrest⟩ :=
        FullMatrix.set_spec X hX (r := i) (c := i) (by omega) (by omega) 1
      obtain ⟨X2, hf, hr2, hc2, ho2, hw2, hg2⟩ := ih (fun j hj => hl j (by simp [hj])) X1 hw1 (by omega) (by omega)
      refine ⟨X2, by rw [List.foldlM_cons, hs]; exact hf, hr2, hc2, by rw [ho2, ho1], hw2, ?_⟩
      intro a b
      rw [hg2 a b]
      by_cases hab : a = b
      · subst hab
        by_cases ha : a ∈ l
        · simp [ha]
        · by_cases hai : a = i
          · subst hai; simp [ha, hg1]
          · simp only [ha, and_false, if_false, List.mem_cons, hai, or_self]
            exact hrest a a (by simp [hai])
      · simp only [hab, false_and, if_false]
        exact hrest a b (by intro h; simp only [Prod.mk.injEq] at h; omega)
  obtain ⟨X, hf, hXr, hXc, hXo, hXw, hXg⟩ := key (List.range (min A.rows A.cols)) (by
    intro i hi; have : i < min A.rows A.cols := by simpa using hi
    omega) Z hZr.wf hZr.rows_eq hZr.cols_eq
  refine ⟨X, ?_, by rw [hXo, hZo], ⟨hXr, hXc, by rw [hXw, hXr, hXc], ?_⟩⟩
  · unfold FullMatrix.eye
    simp only [hZ, Option.bind_eq_bind, Option.bind_some]
    exact hf
  · intro i j
    rw [hXg]
    by_cases hij : (i : Nat) = j
    · have : (i : Nat) ∈ List.range (min A.rows A.cols) := by
        rw [List.mem_range]; have := i.2; have := j.2; omega
      simp [this, hij, Matrix.of_apply]
      intro h; exact absurd this (by simpa using by omega)
    · simp only [hij, false_and, if_false, Matrix.of_apply]
      rw [hZr.entry]; simp

/-- What the two triangular multiplications followed by the mirroring compute, for any `A`. -/
theorem symmetricUpdate2_general {n : Nat} {A B : FullMatrix K} {MA MB : Matrix (Fin n) (Fin n) K}
    (hA : Represents A MA) (hB : Represents B MB) (oA : A.ord = .fortran) (oB : B.ord = .fortran)
    (hn : 0 < n) :
    ∃ B', FullMatrix.symmetricUpdate2 A B = some B' ∧ B'.ord = .fortran ∧
      Represents B' (Matrix.of fun i j : Fin n =>
        let U : Matrix (Fin n) (Fin n) K := Matrix.of fun i j => if i ≤ j then MA i j else 0
        if i ≤ j then (U * MB * U) i j else (U * MB * U) j i) := by
  set U : Matrix (Fin n) (Fin n) K := Matrix.of fun i j => if i ≤ j then MA i j else 0 with hU
  have b1 : bufOk n n n A.data.length = true := bufOk_full hn hA.size_eq
  have b2 : bufOk n n n B.data.length = true := bufOk_full hn hB.size_eq
  have e1 : B.withData (trmmUpperN true B.rows B.cols A.data (A.ord.ld A.rows A.cols) B.data
      (B.ord.ld B.rows B.cols)) = some ⟨.fortran, n, n, B.data.mapIdx fun p bold =>
        if p % n < n ∧ p / n < n then
          ∑ l ∈ Finset.range n, (if p % n ≤ l then bufAt A.data n (p % n) l else 0) * bufAt B.data n l (p / n)
        else bold⟩ := by
    simp only [FullMatrix.withData, trmmUpperN, oA, oB, hA.rows_eq, hA.cols_eq, hB.rows_eq, hB.cols_eq,
      Ordering.ld, b1, b2, Bool.and_self, if_true, Option.map_some]
  have r1 : Represents (⟨.fortran, n, n, B.data.mapIdx fun p bold =>
        if p % n < n ∧ p / n < n then
          ∑ l ∈ Finset.range n, (if p % n ≤ l then bufAt A.data n (p % n) l else 0) * bufAt B.data n l (p / n)
        else bold⟩ : FullMatrix K) (U * MB) := by
    refine represents_congr (represents_mapIdx hB oB _) ?_
    intro i j
    simp only [Matrix.of_apply, idx_f_mod i.2, idx_f_div i.2, i.2, j.2, and_self, if_true, Matrix.mul_apply]
    apply sum_range_fin
    intro l
    rw [bufAt_fortran hB oB]
    simp only [hU, Matrix.of_apply]
    congr 1
    by_cases h : i ≤ l
    · have h' : (i : Nat) ≤ l := h
      simp [h, h', bufAt_fortran hA oA]
    · have h' : ¬ (i : Nat) ≤ l := h
      simp [h]
  set B1 : FullMatrix K := ⟨.fortran, n, n, B.data.mapIdx fun p bold =>
        if p % n < n ∧ p / n < n then
          ∑ l ∈ Finset.range n, (if p % n ≤ l then bufAt A.data n (p % n) l else 0) * bufAt B.data n l (p / n)
        else bold⟩ with hB1
  have oB1 : B1.ord = .fortran := rfl
  have b3 : bufOk n n n B1.data.length = true := bufOk_full hn r1.size_eq
  have e2 : B1.withData (trmmUpperN false B1.rows B1.cols A.data (A.ord.ld A.rows A.cols) B1.data
      (B1.ord.ld B1.rows B1.cols)) = some ⟨.fortran, n, n, B1.data.mapIdx fun p bold =>
        if p % n < n ∧ p / n < n then
          ∑ l ∈ Finset.range n, bufAt B1.data n (p % n) l * (if l ≤ p / n then bufAt A.data n l (p / n) else 0)
        else bold⟩ := by
    simp only [FullMatrix.withData, trmmUpperN, oA, oB1, hA.rows_eq, hA.cols_eq, r1.rows_eq, r1.cols_eq,
      Ordering.ld, b1, b3, Bool.and_self, if_true, Option.map_some, Bool.false_eq_true, if_false]
  have r2 : Represents (⟨.fortran, n, n, B1.data.mapIdx fun p bold =>
        if p % n < n ∧ p / n < n then
          ∑ l ∈ Finset.range n, bufAt B1.data n (p % n) l * (if l ≤ p / n then bufAt A.data n l (p / n) else 0)
        else bold⟩ : FullMatrix K) (U * MB * U) := by
    refine represents_congr (represents_mapIdx r1 oB1 _) ?_
    intro i j
    rw [Matrix.mul_apply]
    simp only [Matrix.of_apply, idx_f_mod i.2, idx_f_div i.2, i.2, j.2, and_self, if_true]
    apply sum_range_fin
    intro l
    rw [bufAt_fortran r1 oB1]
    simp only [hU, Matrix.of_apply]
    congr 1
    by_cases h : l ≤ j
    · have h' : (l : Nat) ≤ j := h
      simp [h, h', bufAt_fortran hA oA]
    · have h' : ¬ (l : Nat) ≤ j := h
      simp [h]
  obtain ⟨C', hm, ho, hr⟩ := mirrorUpper_spec r2
  refine ⟨C', ?_, ho, hr⟩
  unfold FullMatrix.symmetricUpdate2
  rw [if_pos ⟨oA, oB⟩, e1]
  simp only [Option.bind_eq_bind, Option.bind_some]
  rw [e2]
  exact hm

end
end Verif.Dense
