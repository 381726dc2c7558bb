import Verif.Lemmas.Dense

namespace Verif.Dense

variable {K : Type}

theorem Represents.wf {A : FullMatrix K} {r c : Nat} {M : Matrix (Fin r) (Fin c) K}
    (h : Represents A M) : WF A := by
  unfold WF; rw [h.size_eq, h.rows_eq, h.cols_eq]

theorem bufOk_full {rows cols len : Nat} (hr : 0 < rows) (hl : len = rows * cols) :
    bufOk rows cols rows len = true := by
  unfold bufOk
  have h1 : max 1 rows ≤ rows := by omega
  rcases Nat.eq_zero_or_pos cols with hc | hc
  · simp [h1, hc]
  · have : (cols - 1) * rows + rows ≤ len := by
      rw [hl]
      have : (cols - 1) * rows + rows = (cols - 1 + 1) * rows := by ring
      rw [this, Nat.sub_add_cancel hc, Nat.mul_comm]
    simp [h1, this]

theorem bufAt_fortran [Zero K] {A : FullMatrix K} {r c : Nat} {M : Matrix (Fin r) (Fin c) K}
    (h : Represents A M) (ho : A.ord = .fortran) (i : Fin r) (j : Fin c) :
    bufAt A.data r i j = M i j := by
  have he := h.entry i j
  have hi : (i : Nat) < A.rows := by rw [h.rows_eq]; exact i.2
  have hj : (j : Nat) < A.cols := by rw [h.cols_eq]; exact j.2
  simp only [FullMatrix.get, h.rows_eq, h.cols_eq, i.2, j.2, and_self, if_true, ho, Ordering.idx] at he
  simp [bufAt, List.getD, he]

/-- Describe a Fortran matrix whose buffer is rewritten slot by slot. -/
theorem represents_mapIdx {C : FullMatrix K} {r c : Nat} {P : Matrix (Fin r) (Fin c) K}
    (h : Represents C P) (ho : C.ord = .fortran) (f : Nat → K → K) :
    Represents (⟨.fortran, r, c, C.data.mapIdx f⟩ : FullMatrix K)
      (Matrix.of fun (i : Fin r) (j : Fin c) => f (i + j * r) (P i j)) := by
  refine ⟨rfl, rfl, ?_, ?_⟩
  · simpa using h.size_eq
  · intro i j
    have he := h.entry i j
    have hi : (i : Nat) < C.rows := by rw [h.rows_eq]; exact i.2
    have hj : (j : Nat) < C.cols := by rw [h.cols_eq]; exact j.2
    simp only [FullMatrix.get, h.rows_eq, h.cols_eq, i.2, j.2, and_self, if_true, ho, Ordering.idx] at he
    simp only [FullMatrix.get, i.2, j.2, and_self, if_true, Ordering.idx,
      List.getElem?_mapIdx, he, Option.map_some, Matrix.of_apply]

theorem represents_congr {A : FullMatrix K} {r c : Nat} {M N : Matrix (Fin r) (Fin c) K}
    (h : Represents A M) (he : ∀ i j, M i j = N i j) : Represents A N :=
  ⟨h.rows_eq, h.cols_eq, h.size_eq, fun i j => by rw [h.entry, he]⟩

/-- The C-ordered buffer read in Fortran order is the transpose. -/
theorem represents_reinterpretT {A : FullMatrix K} {r c : Nat} {M : Matrix (Fin r) (Fin c) K}
    (h : Represents A M) (ho : A.ord = .c) : Represents A.reinterpretT M.transpose := by
  refine ⟨h.cols_eq, h.rows_eq, ?_, ?_⟩
  · show A.data.length = c * r
    rw [h.size_eq, Nat.mul_comm]
  · intro i j
    have he := h.entry j i
    have hi : (i : Nat) < A.cols := by rw [h.cols_eq]; exact i.2
    have hj : (j : Nat) < A.rows := by rw [h.rows_eq]; exact j.2
    simp only [FullMatrix.get, hi, hj, and_self, if_true, ho, Ordering.idx] at he
    simp only [FullMatrix.get, FullMatrix.reinterpretT, hi, hj, and_self, if_true, Ordering.idx,
      Matrix.transpose_apply]
    rw [Nat.add_comm]; exact he

theorem sum_range_fin [AddCommMonoid K] {n : Nat} (f : Nat → K) (g : Fin n → K)
    (h : ∀ i : Fin n, f i = g i) : ∑ l ∈ Finset.range n, f l = ∑ i, g i := by
  rw [Finset.sum_range]
  exact Finset.sum_congr rfl fun i _ => h i

section
variable [Field K]

theorem matMulAddNN_spec {m k n : Nat} {A B C : FullMatrix K} {MA : Matrix (Fin m) (Fin k) K}
    {MB : Matrix (Fin k) (Fin n) K} {MC : Matrix (Fin m) (Fin n) K}
    (hA : Represents A MA) (hB : Represents B MB) (hC : Represents C MC)
    (oA : A.ord = .fortran) (oB : B.ord = .fortran) (oC : C.ord = .fortran)
    (hm : 0 < m) (hk : 0 < k) (a1 a2 : K) :
    ∃ C', FullMatrix.matMulAddNN a1 A B a2 C = some C' ∧ C'.ord = .fortran ∧
      Represents C' (a1 • (MA * MB) + a2 • MC) := by
  have b1 : bufOk m k m A.data.length = true := bufOk_full hm hA.size_eq
  have b2 : bufOk k n k B.data.length = true := bufOk_full hk hB.size_eq
  have b3 : bufOk m n m C.data.length = true := bufOk_full hm hC.size_eq
  simp only [FullMatrix.matMulAddNN, oA, oB, oC, hA.rows_eq, hA.cols_eq, hB.rows_eq, hB.cols_eq,
    hC.rows_eq, hC.cols_eq, and_self, if_true, FullMatrix.withData, gemm, Ordering.ld, b1, b2, b3,
    Bool.and_self, Bool.false_eq_true, if_false, Option.map_some, Option.some.injEq, exists_eq_left', true_and]
  refine represents_congr (represents_mapIdx hC oC _) ?_
  intro i j
  simp only [Matrix.of_apply, idx_f_div i.2, idx_f_mod i.2, i.2, j.2, and_self, if_true,
    Matrix.add_apply, Matrix.smul_apply, Matrix.mul_apply, smul_eq_mul]
  congr 2
  apply sum_range_fin
  intro l
  rw [bufAt_fortran hA oA, bufAt_fortran hB oB]

theorem matMulAddNT_spec {m k n : Nat} {A B C : FullMatrix K} {MA : Matrix (Fin m) (Fin k) K}
    {MB : Matrix (Fin n) (Fin k) K} {MC : Matrix (Fin m) (Fin n) K}
    (hA : Represents A MA) (hB : Represents B MB) (hC : Represents C MC)
    (oA : A.ord = .fortran) (oB : B.ord = .fortran) (oC : C.ord = .fortran)
    (hm : 0 < m) (hn : 0 < n) (a1 a2 : K) :
    ∃ C', FullMatrix.matMulAddNT a1 A B a2 C = some C' ∧ C'.ord = .fortran ∧
      Represents C' (a1 • (MA * MB.transpose) + a2 • MC) := by
  have b1 : bufOk m k m A.data.length = true := bufOk_full hm hA.size_eq
  have b2 : bufOk n k n B.data.length = true := bufOk_full hn hB.size_eq
  have b3 : bufOk m n m C.data.length = true := bufOk_full hm hC.size_eq
  simp only [FullMatrix.matMulAddNT, oA, oB, oC, hA.rows_eq, hA.cols_eq, hB.rows_eq, hB.cols_eq,
    hC.rows_eq, hC.cols_eq, and_self, if_true, FullMatrix.withData, gemm, Ordering.ld, b1, b2, b3,
    Bool.and_self, Bool.false_eq_true, if_false, Option.map_some, Option.some.injEq, exists_eq_left', true_and]
  refine represents_congr (represents_mapIdx hC oC _) ?_
  intro i j
  simp only [Matrix.of_apply, idx_f_div i.2, idx_f_mod i.2, i.2, j.2, and_self, if_true,
    Matrix.add_apply, Matrix.smul_apply, Matrix.mul_apply, smul_eq_mul, Matrix.transpose_apply]
  congr 2
  apply sum_range_fin
  intro l
  rw [bufAt_fortran hA oA, bufAt_fortran hB oB]

theorem matMulAddTN_spec {m k n : Nat} {A B C : FullMatrix K} {MA : Matrix (Fin k) (Fin m) K}
    {MB : Matrix (Fin k) (Fin n) K} {MC : Matrix (Fin m) (Fin n) K}
    (hA : Represents A MA) (hB : Represents B MB) (hC : Represents C MC)
    (oA : A.ord = .fortran) (oB : B.ord = .fortran) (oC : C.ord = .fortran)
    (hm : 0 < m) (hk : 0 < k) (a1 a2 : K) :
    ∃ C', FullMatrix.matMulAddTN a1 A B a2 C = some C' ∧ C'.ord = .fortran ∧
      Represents C' (a1 • (MA.transpose * MB) + a2 • MC) := by
  have b1 : bufOk k m k A.data.length = true := bufOk_full hk hA.size_eq
  have b2 : bufOk k n k B.data.length = true := bufOk_full hk hB.size_eq
  have b3 : bufOk m n m C.data.length = true := bufOk_full hm hC.size_eq
  simp only [FullMatrix.matMulAddTN, oA, oB, oC, hA.rows_eq, hA.cols_eq, hB.rows_eq, hB.cols_eq,
    hC.rows_eq, hC.cols_eq, and_self, if_true, FullMatrix.withData, gemm, Ordering.ld, b1, b2, b3,
    Bool.and_self, Bool.false_eq_true, if_false, Option.map_some, Option.some.injEq, exists_eq_left', true_and]
  refine represents_congr (represents_mapIdx hC oC _) ?_
  intro i j
  simp only [Matrix.of_apply, idx_f_div i.2, idx_f_mod i.2, i.2, j.2, and_self, if_true,
    Matrix.add_apply, Matrix.smul_apply, Matrix.mul_apply, smul_eq_mul, Matrix.transpose_apply]
  congr 2
  apply sum_range_fin
  intro l
  rw [bufAt_fortran hA oA, bufAt_fortran hB oB]

theorem isVec_mapIdx {n : Nat} {y : List K} {v : Fin n → K} (h : IsVec y v) (f : Nat → K → K) :
    IsVec (y.mapIdx f) (fun i => f i (v i)) := by
  unfold IsVec at *
  subst h
  apply List.ext_getElem
  · simp
  · intro i h1 h2; simp

theorem isVec_getD {n : Nat} {y : List K} {v : Fin n → K} (h : IsVec y v) (i : Fin n) :
    y.getD i 0 = v i := by
  unfold IsVec at h; subst h; simp [List.getD]

theorem isVec_length {n : Nat} {y : List K} {v : Fin n → K} (h : IsVec y v) : y.length = n := by
  unfold IsVec at h; subst h; simp

theorem vecMulAddN_spec {m n : Nat} {A : FullMatrix K} {MA : Matrix (Fin m) (Fin n) K}
    {x y : List K} {vx : Fin n → K} {vy : Fin m → K}
    (hA : Represents A MA) (oA : A.ord = .fortran) (hx : IsVec x vx) (hy : IsVec y vy)
    (hm : 0 < m) (a1 a2 : K) :
    ∃ y', FullMatrix.vecMulAddN a1 A x a2 y = some y' ∧ IsVec y' (a1 • MA.mulVec vx + a2 • vy) := by
  have b1 : bufOk m n m A.data.length = true := bufOk_full hm hA.size_eq
  have hxl := isVec_length hx
  have hyl := isVec_length hy
  simp only [FullMatrix.vecMulAddN, oA, hA.rows_eq, hA.cols_eq, hxl, hyl, and_self, if_true, gemv,
    Ordering.ld, b1, Bool.false_eq_true, if_false, le_refl, decide_true, Bool.and_self, Option.some.injEq,
    exists_eq_left']
  have := isVec_mapIdx hy (fun i yold =>
      if i < m then a1 * ∑ l ∈ Finset.range n, bufAt A.data m i l * x.getD l 0 + a2 * yold else yold)
  convert this using 2 with i
  simp only [i.2, if_true, Pi.add_apply, Pi.smul_apply, Matrix.mulVec, dotProduct, smul_eq_mul]
  congr 2
  symm
  apply sum_range_fin
  intro l
  rw [bufAt_fortran hA oA, isVec_getD hx]

theorem vecMulAddT_spec {m n : Nat} {A : FullMatrix K} {MA : Matrix (Fin m) (Fin n) K}
    {x y : List K} {vx : Fin m → K} {vy : Fin n → K}
    (hA : Represents A MA) (oA : A.ord = .fortran) (hx : IsVec x vx) (hy : IsVec y vy)
    (hm : 0 < m) (a1 a2 : K) :
    ∃ y', FullMatrix.vecMulAddT a1 A x a2 y = some y' ∧
      IsVec y' (a1 • MA.transpose.mulVec vx + a2 • vy) := by
  have b1 : bufOk m n m A.data.length = true := bufOk_full hm hA.size_eq
  have hxl := isVec_length hx
  have hyl := isVec_length hy
  simp only [FullMatrix.vecMulAddT, oA, hA.rows_eq, hA.cols_eq, hxl, hyl, and_self, if_true, gemv,
    Ordering.ld, b1, le_refl, decide_true, Bool.and_self, Option.some.injEq, exists_eq_left']
  have := isVec_mapIdx hy (fun i yold =>
      if i < n then a1 * ∑ l ∈ Finset.range m, bufAt A.data m l i * x.getD l 0 + a2 * yold else yold)
  convert this using 2 with i
  simp only [i.2, if_true, Pi.add_apply, Pi.smul_apply, Matrix.mulVec, dotProduct, smul_eq_mul,
    Matrix.transpose_apply]
  congr 2
  symm
  apply sum_range_fin
  intro l
  rw [bufAt_fortran hA oA, isVec_getD hx]

end

/-- The mirror loop copies the upper triangle to the lower one and leaves the rest alone. -/
theorem mirrorUpper_spec {n : Nat} {C : FullMatrix K} {P : Matrix (Fin n) (Fin n) K}
    (h : Represents C P) :
    ∃ C', C.mirrorUpper = some C' ∧ C'.ord = C.ord ∧
      Represents C' (Matrix.of fun i j : Fin n => if i ≤ j then P i j else P j i) := by
  -- the loop writes only strictly lower entries and reads only strictly upper ones
  let val : Nat × Nat → Option K := fun ij => C.get ij.2 ij.1
  let step := fun (X : FullMatrix K) (ij : Nat × Nat) => do
      let v ← X.get ij.2 ij.1
      X.set ij.1 ij.2 v
  have key : ∀ l : List (Nat × Nat), (∀ ij ∈ l, ij.2 < ij.1 ∧ ij.1 < n ∧ ij.2 < n) →
      ∀ X : FullMatrix K, WF X → X.rows = n → X.cols = n →
      (∀ a b, a ≤ b → X.get a b = C.get a b) →
      ∃ X', l.foldlM step X = some X' ∧ X'.rows = n ∧ X'.cols = n ∧ X'.ord = X.ord ∧ WF X' ∧
        (∀ a b, a ≤ b → X'.get a b = C.get a b) ∧
        ∀ a b, b < a → X'.get a b = if (a, b) ∈ l then C.get b a else X.get a b := by
    intro l
    induction l with
    | nil => intro _ X hX h1 h2 h3; exact ⟨X, by simp, h1, h2, rfl, hX, h3, by simp⟩
    | cons q l ih =>
      intro hl X hX h1 h2 h3
      obtain ⟨hq1, hq2, hq3⟩ := hl q (by simp)
      have hsrc : X.get q.2 q.1 = C.get q.2 q.1 := h3 _ _ (le_of_lt hq1)
      obtain ⟨_, hv⟩ := FullMatrix.get_eq X hX (r := q.2) (c := q.1) (by omega) (by omega)
      obtain ⟨X1, hs, hr, hc, ho, hw, hg, hrest⟩ :=
        FullMatrix.set_spec X hX (r := q.1) (c := q.2) (by omega) (by omega)
          (X.data[X.ord.idx X.rows X.cols q.2 q.1])
      have hstep : step X q = some X1 := by
        show ((X.get q.2 q.1).bind fun v => X.set q.1 q.2 v) = some X1
        rw [hv]; exact hs
      obtain ⟨X2, hf, hr2, hc2, ho2, hw2, hup, hlow⟩ := ih (fun ij hm => hl ij (by simp [hm])) X1 hw
        (by omega) (by omega) (by
          intro a b hab
          rw [hrest a b (by intro he; simp only [Prod.mk.injEq] at he; omega)]
          exact h3 a b hab)
      refine ⟨X2, by simp [List.foldlM_cons, hstep, hf], hr2, hc2, by rw [ho2, ho], hw2, hup, ?_⟩
      intro a b hab
      rw [hlow a b hab]
      by_cases hm : (a, b) ∈ l
      · simp [hm]
      · by_cases hq : (a, b) = q
        · subst hq
          simp only [hm, if_false, List.mem_cons, true_or, if_true]
          rw [hg, ← hv, hsrc]
        · simp only [hm, if_false, List.mem_cons, hq, or_self]
          exact hrest a b hq
  obtain ⟨X', hf, hr, hc, ho, hw, hup, hlow⟩ := key
    ((List.range C.cols).flatMap fun j => ((List.range C.rows).filter (fun i => j + 1 ≤ i)).map fun i => (i, j))
    (by
      rintro ⟨i, j⟩ hm
      simp only [List.mem_flatMap, List.mem_range, List.mem_map, List.mem_filter, Prod.mk.injEq,
        decide_eq_true_eq] at hm
      obtain ⟨j', hj', i', ⟨hi', hle⟩, rfl, rfl⟩ := hm
      rw [h.cols_eq] at hj'; rw [h.rows_eq] at hi'
      exact ⟨hle, hi', hj'⟩)
    C h.wf h.rows_eq h.cols_eq (fun _ _ _ => rfl)
  refine ⟨X', hf, ho, ⟨hr, hc, by rw [hw, hr, hc], ?_⟩⟩
  intro i j
  by_cases hij : i ≤ j
  · rw [hup i j hij, h.entry]; simp [hij]
  · have hlt : j < i := not_le.mp hij
    rw [hlow i j hlt, if_pos, h.entry]
    · simp [hij]
    · simp only [List.mem_flatMap, List.mem_range, List.mem_map, List.mem_filter, Prod.mk.injEq,
        decide_eq_true_eq, h.rows_eq, h.cols_eq]
      exact ⟨j, j.2, i, ⟨i.2, by have := Fin.lt_def.mp hlt; omega⟩, rfl, rfl⟩

section
variable [Field K]

theorem symmetricUpdate_spec {n k : Nat} {A C : FullMatrix K} {MA : Matrix (Fin n) (Fin k) K}
    {MC : Matrix (Fin n) (Fin n) K} (hA : Represents A MA) (hC : Represents C MC)
    (oA : A.ord = .fortran) (oC : C.ord = .fortran) (hn : 0 < n) (hsym : MC.transpose = MC) (a1 a2 : K) :
    ∃ C', FullMatrix.symmetricUpdate a1 A a2 C = some C' ∧ C'.ord = .fortran ∧
      Represents C' (a1 • (MA * MA.transpose) + a2 • MC) := by
  have b1 : bufOk n k n A.data.length = true := bufOk_full hn hA.size_eq
  have b3 : bufOk n n n C.data.length = true := bufOk_full hn hC.size_eq
  have h1 : C.withData (syrkUpperN C.rows A.cols a1 A.data (A.ord.ld A.rows A.cols) a2 C.data
      (C.ord.ld C.rows C.cols)) = some ⟨.fortran, n, n, C.data.mapIdx fun p cold =>
      if p % n < n ∧ p / n < n ∧ p % n ≤ p / n then
        a1 * (∑ l ∈ Finset.range k, bufAt A.data n (p % n) l * bufAt A.data n (p / n) l) + a2 * cold
      else cold⟩ := by
    simp only [FullMatrix.withData, syrkUpperN, oA, oC, hA.rows_eq, hA.cols_eq, hC.rows_eq, hC.cols_eq,
      Ordering.ld, b1, b3, Bool.and_self, if_true, Option.map_some]
  obtain ⟨C', hm, ho, hrep⟩ := mirrorUpper_spec (represents_mapIdx hC oC (fun p cold =>
      if p % n < n ∧ p / n < n ∧ p % n ≤ p / n then
        a1 * (∑ l ∈ Finset.range k, bufAt A.data n (p % n) l * bufAt A.data n (p / n) l) + a2 * cold
      else cold))
  refine ⟨C', ?_, ho, ?_⟩
  · simp only [FullMatrix.symmetricUpdate, oA, oC, and_self, if_true]
    simp only [oA, oC] at h1
    rw [h1]; exact hm
  · refine represents_congr hrep ?_
    intro i j
    have hval : ∀ i j : Fin n, i ≤ j → (if (i : Nat) < n ∧ (j : Nat) < n ∧ (i : Nat) ≤ (j : Nat) then
        a1 * (∑ l ∈ Finset.range k, bufAt A.data n i l * bufAt A.data n j l) + a2 * MC i j
      else MC i j) = a1 * (∑ l, MA i l * MA j l) + a2 * MC i j := by
      intro i j hij
      rw [if_pos ⟨i.2, j.2, hij⟩]
      congr 2
      apply sum_range_fin
      intro l
      rw [bufAt_fortran hA oA, bufAt_fortran hA oA]
    simp only [Matrix.of_apply, idx_f_div i.2, idx_f_mod i.2, idx_f_div j.2, idx_f_mod j.2,
      Matrix.add_apply, Matrix.smul_apply, Matrix.mul_apply, smul_eq_mul, Matrix.transpose_apply]
    split
    · rename_i hij; exact hval i j hij
    · rename_i hij
      rw [hval j i (le_of_lt (not_le.mp hij))]
      have hs : MC j i = MC i j := congrFun (congrFun hsym i) j
      rw [hs]
      congr 2
      exact Finset.sum_congr rfl fun l _ => mul_comm _ _

end
end Verif.Dense
