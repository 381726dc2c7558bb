import Verif.Lemmas.DenseProd
import Mathlib.LinearAlgebra.Matrix.Determinant.Basic
import Mathlib.LinearAlgebra.Matrix.Notation
import Mathlib.Tactic.FieldSimp
import Mathlib.Tactic.LinearCombination
import Mathlib.Tactic.NormNum
import Mathlib.Algebra.Field.Rat

/-!
Properties C01, C02, C03: dense matrices.
-/

namespace Verif.Dense

variable {K : Type}

/-! ### C01: element access is a faithful two-dimensional array -/

/-- C01 (addressing). For both orderings and every shape, `(row, col) ↦ slot` is a bijection between the
in-range index pairs and the slots `0 .. rows*cols-1`. -/
theorem C01_index_bijection (o : Ordering) (rows cols : Nat) :
    Function.Bijective (fun (p : Fin rows × Fin cols) =>
      (⟨o.idx rows cols p.1 p.2, idx_lt o p.1.2 p.2.2⟩ : Fin (rows * cols))) := by
  constructor
  · rintro ⟨r, c⟩ ⟨r', c'⟩ h
    have h' : o.idx rows cols r c = o.idx rows cols r' c' := by simpa using h
    obtain ⟨h1, h2⟩ := idx_inj o r.2 c.2 r'.2 c'.2 h'
    exact Prod.ext (Fin.ext h1) (Fin.ext h2)
  · rintro ⟨p, hp⟩
    obtain ⟨r, c, hr, hc, h⟩ := idx_surj o hp
    exact ⟨(⟨r, hr⟩, ⟨c, hc⟩), Fin.ext h⟩

/-- C01 (one write). Writing an in-range element succeeds, keeps shape, ordering and storage size, a later
read returns the value written, and every other element reads as before. -/
theorem C01_read_after_write (A : FullMatrix K) (hA : WF A) (r c : Nat) (hr : r < A.rows) (hc : c < A.cols)
    (v : K) :
    ∃ A', A.set r c v = some A' ∧ A'.rows = A.rows ∧ A'.cols = A.cols ∧ A'.ord = A.ord ∧ WF A' ∧
      A'.get r c = some v ∧ ∀ r' c', (r', c') ≠ (r, c) → A'.get r' c' = A.get r' c' :=
  FullMatrix.set_spec A hA hr hc v

/-- C01 (reads). An in-range read always returns a value; out-of-range reads and writes are the undefined
outcome. -/
theorem C01_access_defined_iff (A : FullMatrix K) (hA : WF A) (r c : Nat) (v : K) :
    ((A.get r c).isSome ↔ r < A.rows ∧ c < A.cols) ∧ ((A.set r c v).isSome ↔ r < A.rows ∧ c < A.cols) := by
  by_cases h : r < A.rows ∧ c < A.cols
  · obtain ⟨_, hg⟩ := FullMatrix.get_eq A hA h.1 h.2
    rw [FullMatrix.set_ok A hA h.1 h.2, hg]
    simp [h]
  · rw [FullMatrix.get_none_of_not A h, FullMatrix.set_none_of_not A h]
    simp [h]

/-- C01 (any history of writes). After any sequence of in-range writes the element `(r,c)` reads as the last
value written to it, or as its initial value if it was never written. -/
theorem C01_write_history (ws : List ((Nat × Nat) × K)) :
    ∀ (A : FullMatrix K), WF A → (∀ w ∈ ws, w.1.1 < A.rows ∧ w.1.2 < A.cols) →
    ∃ A', ws.foldlM (fun (X : FullMatrix K) w => X.set w.1.1 w.1.2 w.2) A = some A' ∧
      A'.rows = A.rows ∧ A'.cols = A.cols ∧ A'.data.length = A.data.length ∧
      ∀ r c, A'.get r c =
        match ws.reverse.find? (fun w => w.1 = (r, c)) with
        | some w => some w.2
        | none => A.get r c := by
  induction ws with
  | nil => intro A _ _; exact ⟨A, by simp, rfl, rfl, rfl, by simp⟩
  | cons w ws ih =>
    intro A hA hw
    obtain ⟨h1, h2⟩ := hw w (by simp)
    obtain ⟨B, hB, hBr, hBc, _, hBw, hBg, hBo⟩ := FullMatrix.set_spec A hA h1 h2 w.2
    obtain ⟨C, hC, hCr, hCc, hCl, hCg⟩ := ih B hBw (fun x hx => by
      rw [hBr, hBc]; exact hw x (by simp [hx]))
    refine ⟨C, by rw [List.foldlM_cons, hB]; exact hC, by omega, by omega, ?_, ?_⟩
    · rw [hCl, hBw, hA, hBr, hBc]
    · intro r c
      rw [hCg r c, List.reverse_cons, List.find?_append]
      cases hf : ws.reverse.find? (fun w => decide (w.1 = (r, c))) with
      | some x => simp
      | none =>
        by_cases hwc : w.1 = (r, c)
        · have : w.1.1 = r ∧ w.1.2 = c := by rw [hwc]; exact ⟨rfl, rfl⟩
          rw [← this.1, ← this.2]; simp [hBg]
        · simp only [List.find?_cons, hwc, decide_false, List.find?_nil, Option.none_or]
          exact hBo r c (fun h => hwc h.symm)

/-- C01 (copies). Assigning between matrices of equal shape and any combination of orderings copies every
element. -/
theorem C01_assign_preserves {r c : Nat} {A M : FullMatrix K} {MM : Matrix (Fin r) (Fin c) K}
    (hA : WF A) (hr : A.rows = r) (hc : A.cols = c) (hM : Represents M MM) :
    ∃ A', A.assign M = some A' ∧ A'.ord = A.ord ∧ Represents A' MM := by
  rcases Nat.eq_zero_or_pos (r * c) with h0 | hpos
  · have hnil : FullMatrix.rowMajorPairs A.rows A.cols = [] := by
      rw [List.eq_nil_iff_forall_not_mem]
      intro rc h
      have := FullMatrix.mem_rowMajor.mp h
      rw [hr, hc] at this
      rcases Nat.mul_eq_zero.mp h0 with h | h <;> omega
    refine ⟨A, ?_, rfl, ⟨hr, hc, by rw [hA, hr, hc], ?_⟩⟩
    · simp [FullMatrix.assign, hr, hc, hM.rows_eq, hM.cols_eq]
      rw [hr, hc] at hnil; simp [hnil]
    · intro i j
      have := i.2; have := j.2
      rcases Nat.mul_eq_zero.mp h0 with h | h <;> omega
  · have hrp : 0 < r := Nat.pos_of_mul_pos_right hpos
    have hcp : 0 < c := Nat.pos_of_mul_pos_left hpos
    let f : Nat × Nat → K := fun rc =>
      if h : rc.1 < r ∧ rc.2 < c then MM ⟨rc.1, h.1⟩ ⟨rc.2, h.2⟩ else MM ⟨0, hrp⟩ ⟨0, hcp⟩
    obtain ⟨X', hf, h1, h2, h3, h4, h5⟩ := FullMatrix.foldlM_set_spec f
      (fun (X : FullMatrix K) rc => do
        let v ← M.get rc.1 rc.2
        X.set rc.1 rc.2 v) r c (by
        rintro X ⟨a, b⟩ hX hXr hXc ha hb
        obtain ⟨X0, g1, g2, g3, g4, g5, g6, g7⟩ :=
          FullMatrix.set_spec X hX (r := a) (c := b) (by omega) (by omega) (MM ⟨a, ha⟩ ⟨b, hb⟩)
        have hget : M.get a b = some (MM ⟨a, ha⟩ ⟨b, hb⟩) := hM.entry ⟨a, ha⟩ ⟨b, hb⟩
        refine ⟨X0, by simp only [hget, Option.bind_eq_bind, Option.bind_some, g1], by omega, by omega, g4, g5, ?_, g7⟩
        rw [g6]; simp only [f]; rw [dif_pos ⟨ha, hb⟩])
      (FullMatrix.rowMajorPairs A.rows A.cols) (by
        intro rc h
        have := FullMatrix.mem_rowMajor.mp h
        rwa [hr, hc] at this) A hA hr hc
    refine ⟨X', ?_, h3, ⟨h1, h2, by rw [h4, h1, h2], ?_⟩⟩
    · unfold FullMatrix.assign
      rw [if_pos ⟨by rw [hr, hM.rows_eq], by rw [hc, hM.cols_eq]⟩]
      exact hf
    · intro i j
      rw [h5 (i, j), if_pos]
      · simp only [f]; rw [dif_pos ⟨i.2, j.2⟩]
      · rw [FullMatrix.mem_rowMajor, hr, hc]; exact ⟨i.2, j.2⟩

/-- C01 (equality test). `operator==` between any orderings answers exactly whether the mathematical
matrices are equal. -/
theorem C01_equality_iff [DecidableEq K] {r c : Nat} {A B : FullMatrix K} {MA MB : Matrix (Fin r) (Fin c) K}
    (hA : Represents A MA) (hB : Represents B MB) :
    ∃ b, A.beq B = some b ∧ (b = true ↔ MA = MB) := by
  have key : ∀ (l : List (Nat × Nat)), (∀ rc ∈ l, rc.1 < r ∧ rc.2 < c) → ∀ acc : Bool,
      ∃ b, l.foldlM (fun (acc : Bool) rc => do
        if acc then
          let x ← A.get rc.1 rc.2
          let y ← B.get rc.1 rc.2
          pure (decide (x = y))
        else pure false) acc = some b ∧
      (b = true ↔ acc = true ∧ ∀ rc ∈ l, A.get rc.1 rc.2 = B.get rc.1 rc.2) := by
    intro l
    induction l with
    | nil => intro _ acc; exact ⟨acc, by simp, by simp⟩
    | cons q l ih =>
      intro hl acc
      obtain ⟨hq1, hq2⟩ := hl q (by simp)
      have ha : A.get q.1 q.2 = some (MA ⟨q.1, hq1⟩ ⟨q.2, hq2⟩) := hA.entry ⟨q.1, hq1⟩ ⟨q.2, hq2⟩
      have hb : B.get q.1 q.2 = some (MB ⟨q.1, hq1⟩ ⟨q.2, hq2⟩) := hB.entry ⟨q.1, hq1⟩ ⟨q.2, hq2⟩
      cases acc with
      | false =>
        obtain ⟨b, h1, h2⟩ := ih (fun x hx => hl x (by simp [hx])) false
        refine ⟨b, ?_, by rw [h2]; simp⟩
        rw [List.foldlM_cons]; simpa using h1
      | true =>
        obtain ⟨b, h1, h2⟩ := ih (fun x hx => hl x (by simp [hx]))
          (decide (MA ⟨q.1, hq1⟩ ⟨q.2, hq2⟩ = MB ⟨q.1, hq1⟩ ⟨q.2, hq2⟩))
        refine ⟨b, ?_, ?_⟩
        · rw [List.foldlM_cons]; simp only [ha, hb, if_true, Option.bind_eq_bind, Option.bind_some,
            Option.pure_def]; exact h1
        · rw [h2, List.forall_mem_cons, ha, hb]; simp
  obtain ⟨b, h1, h2⟩ := key (FullMatrix.rowMajorPairs A.rows A.cols) (by
    intro rc h; have := FullMatrix.mem_rowMajor.mp h; rwa [hA.rows_eq, hA.cols_eq] at this) true
  refine ⟨b, ?_, ?_⟩
  · unfold FullMatrix.beq
    rw [if_neg (by rw [hA.rows_eq, hA.cols_eq, hB.rows_eq, hB.cols_eq]; simp)]
    exact h1
  · rw [h2]
    constructor
    · rintro ⟨_, h⟩
      ext i j
      have := h (i, j) (by rw [FullMatrix.mem_rowMajor, hA.rows_eq, hA.cols_eq]; exact ⟨i.2, j.2⟩)
      rw [hA.entry, hB.entry] at this
      exact Option.some.inj this
    · rintro rfl
      refine ⟨rfl, fun rc h => ?_⟩
      have := FullMatrix.mem_rowMajor.mp h
      rw [hA.rows_eq, hA.cols_eq] at this
      exact (hA.entry ⟨rc.1, this.1⟩ ⟨rc.2, this.2⟩).trans (hB.entry ⟨rc.1, this.1⟩ ⟨rc.2, this.2⟩).symm

/-- C01 (in-place arithmetic). `+=` between equal orderings adds element by element and `*=` scales every
element. -/
theorem C01_inplace_arithmetic [Field K] {r c : Nat} {A B : FullMatrix K} {MA MB : Matrix (Fin r) (Fin c) K}
    (hA : Represents A MA) (hB : Represents B MB) (ho : A.ord = B.ord) (s : K) :
    (∃ C, A.addAssign B = some C ∧ C.ord = A.ord ∧ Represents C (MA + MB)) ∧
    Represents (A.smulAssign s) (s • MA) := by
  constructor
  · have hl : A.data.length = B.data.length := by rw [hA.size_eq, hB.size_eq]
    refine ⟨{ A with data := List.zipWith (· + ·) A.data B.data }, ?_, rfl, hA.rows_eq, hA.cols_eq, ?_, ?_⟩
    · simp [FullMatrix.addAssign, hA.rows_eq, hB.rows_eq, hA.cols_eq, hB.cols_eq, ho, hl]
    · simp [hA.size_eq, hB.size_eq]
    · intro i j
      have h1 := hA.entry i j
      have h2 := hB.entry i j
      simp only [FullMatrix.get, hA.rows_eq, hA.cols_eq, hB.rows_eq, hB.cols_eq, i.2, j.2, and_self,
        if_true, ho] at h1 h2 ⊢
      simp [List.getElem?_zipWith, h1, h2]
  · refine ⟨hA.rows_eq, hA.cols_eq, by simpa [FullMatrix.smulAssign] using hA.size_eq, ?_⟩
    intro i j
    have h1 := hA.entry i j
    simp only [FullMatrix.get, FullMatrix.smulAssign, hA.rows_eq, hA.cols_eq, i.2, j.2, and_self,
      if_true] at h1 ⊢
    simp [h1, mul_comm]

/-- C01 (in-place addition). `+=` between matrices with equal ordering is defined exactly if the shapes agree and the other matrix has an element in its
storage for every element of this one; the size of the storage is kept. -/
theorem C01_add_defined_iff [Field K] (A B : FullMatrix K) :
    ((∃ C, A.addAssign B = some C) ↔ A.rows = B.rows ∧ A.cols = B.cols ∧ A.ord = B.ord ∧ ∀ i < A.data.length, ∃ x, B.data[i]? = some x) ∧
    ∀ C, A.addAssign B = some C → C.data.length = A.data.length ∧ C.rows = A.rows ∧ C.cols = A.cols := by
  have hlen : (∀ i < A.data.length, ∃ x, B.data[i]? = some x) ↔ A.data.length ≤ B.data.length := by
    constructor
    · intro h
      by_contra hh
      obtain ⟨x, hx⟩ := h B.data.length (by omega)
      simp at hx
    · intro h i hi
      exact ⟨_, List.getElem?_eq_getElem (by omega)⟩
  rw [hlen]
  unfold FullMatrix.addAssign
  split_ifs with h
  · exact ⟨⟨fun _ => h, fun _ => ⟨_, rfl⟩⟩, fun C hC => by obtain rfl := Option.some.inj hC; simp [h.2.2.2]⟩
  · exact ⟨⟨(fun ⟨C, hC⟩ => by cases hC), fun hh => absurd hh h⟩, (fun C hC => by cases hC)⟩

example : (∃ C, (⟨.c, 1, 2, [1, 2]⟩ : FullMatrix ℚ).addAssign ⟨.c, 1, 2, [3, 4]⟩ = some C) ∧
    ¬ ∃ C, (⟨.c, 1, 2, [1, 2]⟩ : FullMatrix ℚ).addAssign ⟨.c, 1, 2, [3]⟩ = some C :=
  ⟨(C01_add_defined_iff _ _).1.mpr ⟨rfl, rfl, rfl, fun i hi => ⟨_, List.getElem?_eq_getElem (l := [(3 : ℚ), 4]) hi⟩⟩, fun h => by
    have := ((C01_add_defined_iff _ _).1.mp h).2.2.2 1 (by decide)
    simp at this⟩

/-- C01 (initialisers). `zero` and `eye` give the zero and the (rectangular) unit matrix. -/
theorem C01_zero_eye [Field K] {r c : Nat} {A : FullMatrix K} (hA : WF A) (hr : A.rows = r) (hc : A.cols = c) :
    (∃ Z, A.zero = some Z ∧ Z.ord = A.ord ∧ Represents Z (0 : Matrix (Fin r) (Fin c) K)) ∧
    (∃ E, A.eye = some E ∧ E.ord = A.ord ∧
      Represents E (Matrix.of fun (i : Fin r) (j : Fin c) => if (i : Nat) = j then (1 : K) else 0)) :=
  ⟨zero_spec hA hr hc, eye_spec hA hr hc⟩

/-- C01 (constructor). A matrix built from a buffer of exactly `rows*cols` values reads that buffer in the
chosen ordering; a matrix built without a buffer is zero; both have well-formed storage. -/
theorem C01_constructor [Field K] (o : Ordering) (rows cols : Nat) :
    (∃ A, FullMatrix.mk' (K := K) o rows cols none = some A ∧ WF A ∧
      Represents A (0 : Matrix (Fin rows) (Fin cols) K)) ∧
    ∀ l : List K, rows * cols ≤ l.length → ∃ A, FullMatrix.mk' o rows cols (some l) = some A ∧ WF A ∧
      ∀ r c, r < rows → c < cols → A.get r c = l[o.idx rows cols r c]? := by
  constructor
  · refine ⟨⟨o, rows, cols, List.replicate (rows * cols) 0⟩, rfl, by simp [WF], rfl, rfl, by simp, ?_⟩
    intro i j
    have := idx_lt o i.2 j.2
    simp [FullMatrix.get, i.2, j.2, this]
  · intro l hl
    refine ⟨⟨o, rows, cols, l.take (rows * cols)⟩, by simp [FullMatrix.mk', hl], by simp [WF, hl], ?_⟩
    intro r c hr hc
    have := idx_lt o hr hc
    simp [FullMatrix.get, hr, hc, List.getElem?_take, this]

/-! Witnesses for C01: a 2 × 3 matrix in either ordering. -/

example : WF (⟨.c, 2, 3, [1, 2, 3, 4, 5, 6]⟩ : FullMatrix ℚ) := rfl

example : Represents (⟨.fortran, 2, 3, [1, 2, 3, 4, 5, 6]⟩ : FullMatrix ℚ) !![1, 3, 5; 2, 4, 6] :=
  ⟨rfl, rfl, rfl, by decide⟩

example : Represents (⟨.c, 2, 3, [1, 3, 5, 2, 4, 6]⟩ : FullMatrix ℚ) !![1, 3, 5; 2, 4, 6] :=
  ⟨rfl, rfl, rfl, by decide⟩

/-! ### C02: products -/

section
variable [Field K]

/-- C02 (`prod` of matrices), any orderings of the three operands, any initial content of the result. -/
theorem C02_prod {m k n : Nat} {A B C : FullMatrix K} {MA : Matrix (Fin m) (Fin k) K}
    {MB : Matrix (Fin k) (Fin n) K} (hA : Represents A MA) (hB : Represents B MB)
    (hC : WF C) (hCr : C.rows = m) (hCc : C.cols = n) :
    ∃ C', FullMatrix.prod A B C = some C' ∧ C'.ord = C.ord ∧ Represents C' (MA * MB) :=
  prod_spec hA hB hC hCr hCc

/-- C02 (`prod` of a square matrix and a vector). -/
theorem C02_prodVec {n : Nat} {A : FullMatrix K} {MA : Matrix (Fin n) (Fin n) K} {x : List K}
    {v : Fin n → K} (hA : Represents A MA) (hx : IsVec x v) :
    ∃ y, FullMatrix.prodVec A x = some y ∧ IsVec y (MA.mulVec v) :=
  prodVec_spec hA hx

/-- C02 (`trace`). -/
theorem C02_trace {n : Nat} {A : FullMatrix K} {MA : Matrix (Fin n) (Fin n) K} (hA : Represents A MA) :
    A.trace = some (∑ i, MA i i) := by
  rw [trace_spec hA]
  congr 1
  exact Fintype.sum_equiv (finCongr (Nat.min_self n)) _ _ (fun i => rfl)

/-- C02 (`vecMulAdd_N`), Fortran- and C-ordered matrix: `y ← a1*A*x + a2*y`. The matrix must not be empty
(the BLAS kernel rejects a zero leading dimension). -/
theorem C02_vecMulAddN {m n : Nat} {A : FullMatrix K} {MA : Matrix (Fin m) (Fin n) K}
    {x y : List K} {vx : Fin n → K} {vy : Fin m → K}
    (hA : Represents A MA) (hx : IsVec x vx) (hy : IsVec y vy) (hm : 0 < m) (hn : 0 < n) (a1 a2 : K) :
    ∃ y', (match A.ord with
        | .fortran => FullMatrix.vecMulAddN a1 A x a2 y
        | .c => FullMatrix.vecMulAddNC a1 A x a2 y) = some y' ∧
      IsVec y' (a1 • MA.mulVec vx + a2 • vy) := by
  cases ho : A.ord with
  | fortran => exact vecMulAddN_spec hA ho hx hy hm a1 a2
  | c =>
    obtain ⟨y', h1, h2⟩ := vecMulAddT_spec (represents_reinterpretT hA ho) rfl hx hy hn a1 a2
    refine ⟨y', by simp [FullMatrix.vecMulAddNC, ho, h1], ?_⟩
    rwa [Matrix.transpose_transpose] at h2

/-- C02 (`vecMulAdd_T`): `y ← a1*Aᵀ*x + a2*y`. -/
theorem C02_vecMulAddT {m n : Nat} {A : FullMatrix K} {MA : Matrix (Fin m) (Fin n) K}
    {x y : List K} {vx : Fin m → K} {vy : Fin n → K}
    (hA : Represents A MA) (oA : A.ord = .fortran) (hx : IsVec x vx) (hy : IsVec y vy)
    (hm : 0 < m) (a1 a2 : K) :
    ∃ y', FullMatrix.vecMulAddT a1 A x a2 y = some y' ∧
      IsVec y' (a1 • MA.transpose.mulVec vx + a2 • vy) :=
  vecMulAddT_spec hA oA hx hy hm a1 a2

/-- C02 (`matMulAdd_NN`), `B` Fortran- or C-ordered: `C ← a1*A*B + a2*C`. -/
theorem C02_matMulAddNN {m k n : Nat} {A B C : FullMatrix K} {MA : Matrix (Fin m) (Fin k) K}
    {MB : Matrix (Fin k) (Fin n) K} {MC : Matrix (Fin m) (Fin n) K}
    (hA : Represents A MA) (hB : Represents B MB) (hC : Represents C MC)
    (oA : A.ord = .fortran) (oC : C.ord = .fortran)
    (hm : 0 < m) (hk : 0 < k) (hn : 0 < n) (a1 a2 : K) :
    ∃ C', (match B.ord with
        | .fortran => FullMatrix.matMulAddNN a1 A B a2 C
        | .c => FullMatrix.matMulAddNN_BC a1 A B a2 C) = some C' ∧ C'.ord = .fortran ∧
      Represents C' (a1 • (MA * MB) + a2 • MC) := by
  cases ho : B.ord with
  | fortran => exact matMulAddNN_spec hA hB hC oA ho oC hm hk a1 a2
  | c =>
    obtain ⟨C', h1, h2, h3⟩ := matMulAddNT_spec hA (represents_reinterpretT hB ho) hC oA rfl oC hm hn a1 a2
    refine ⟨C', by simp [FullMatrix.matMulAddNN_BC, ho, h1], h2, ?_⟩
    rwa [Matrix.transpose_transpose] at h3

/-- C02 (`matMulAdd_NT`): `C ← a1*A*Bᵀ + a2*C`. -/
theorem C02_matMulAddNT {m k n : Nat} {A B C : FullMatrix K} {MA : Matrix (Fin m) (Fin k) K}
    {MB : Matrix (Fin n) (Fin k) K} {MC : Matrix (Fin m) (Fin n) K}
    (hA : Represents A MA) (hB : Represents B MB) (hC : Represents C MC)
    (oA : A.ord = .fortran) (oB : B.ord = .fortran) (oC : C.ord = .fortran)
    (hm : 0 < m) (hn : 0 < n) (a1 a2 : K) :
    ∃ C', FullMatrix.matMulAddNT a1 A B a2 C = some C' ∧ C'.ord = .fortran ∧
      Represents C' (a1 • (MA * MB.transpose) + a2 • MC) :=
  matMulAddNT_spec hA hB hC oA oB oC hm hn a1 a2

/-- C02 (`matMulAdd_TN`): `C ← a1*Aᵀ*B + a2*C`. -/
theorem C02_matMulAddTN {m k n : Nat} {A B C : FullMatrix K} {MA : Matrix (Fin k) (Fin m) K}
    {MB : Matrix (Fin k) (Fin n) K} {MC : Matrix (Fin m) (Fin n) K}
    (hA : Represents A MA) (hB : Represents B MB) (hC : Represents C MC)
    (oA : A.ord = .fortran) (oB : B.ord = .fortran) (oC : C.ord = .fortran)
    (hm : 0 < m) (hk : 0 < k) (a1 a2 : K) :
    ∃ C', FullMatrix.matMulAddTN a1 A B a2 C = some C' ∧ C'.ord = .fortran ∧
      Represents C' (a1 • (MA.transpose * MB) + a2 • MC) :=
  matMulAddTN_spec hA hB hC oA oB oC hm hk a1 a2

/-- C02 (symmetric rank update): `C ← a1*A*Aᵀ + a2*C` in both triangles, for symmetric `C`. -/
theorem C02_symmetricUpdate {n k : Nat} {A C : FullMatrix K} {MA : Matrix (Fin n) (Fin k) K}
    {MC : Matrix (Fin n) (Fin n) K} (hA : Represents A MA) (hC : Represents C MC)
    (oA : A.ord = .fortran) (oC : C.ord = .fortran) (hn : 0 < n) (hsym : MC.transpose = MC) (a1 a2 : K) :
    ∃ C', FullMatrix.symmetricUpdate a1 A a2 C = some C' ∧ C'.ord = .fortran ∧
      Represents C' (a1 • (MA * MA.transpose) + a2 • MC) :=
  symmetricUpdate_spec hA hC oA oC hn hsym a1 a2

/-- C02 (symmetric two-sided update `B ← A*B*Aᵀ`), proved for diagonal `A` and symmetric `B`.
Missing: general `A`; see `C02_symmetricUpdate2_violated`. -/
theorem C02_symmetricUpdate2_partial {n : Nat} {A B : FullMatrix K} {d : Fin n → K}
    {MB : Matrix (Fin n) (Fin n) K}
    (hA : Represents A (Matrix.diagonal d)) (hB : Represents B MB) (oA : A.ord = .fortran)
    (oB : B.ord = .fortran) (hn : 0 < n) (hsym : MB.transpose = MB) :
    ∃ B', FullMatrix.symmetricUpdate2 A B = some B' ∧ B'.ord = .fortran ∧
      Represents B' (Matrix.diagonal d * MB * (Matrix.diagonal d).transpose) := by
  obtain ⟨B', h1, h2, h3⟩ := symmetricUpdate2_general hA hB oA oB hn
  refine ⟨B', h1, h2, represents_congr h3 ?_⟩
  have hU : (Matrix.of fun i j : Fin n => if i ≤ j then Matrix.diagonal d i j else 0) = Matrix.diagonal d := by
    ext i j
    by_cases h : i = j
    · subst h; simp
    · simp [h]
  intro i j
  simp only [hU, Matrix.of_apply, Matrix.diagonal_transpose]
  split
  · rfl
  · have : ∀ a b, (Matrix.diagonal d * MB * Matrix.diagonal d) a b = d a * MB a b * d b := by
      intro a b; rw [Matrix.mul_diagonal, Matrix.diagonal_mul]
    rw [this, this, ← congrFun (congrFun hsym j) i, Matrix.transpose_apply]; ring

end

/-- C02 is violated by the two-sided symmetric update for a symmetric non-diagonal `A`: for
`A = [1 1; 1 1]` and `B = I` the code returns `[1 2; 2 1]` instead of `A*B*Aᵀ = [2 2; 2 2]` (only the upper
triangle of `A` is used as a triangular factor). -/
theorem C02_symmetricUpdate2_violated :
    ∃ (A B : FullMatrix ℚ) (MA MB : Matrix (Fin 2) (Fin 2) ℚ), Represents A MA ∧ Represents B MB ∧
      A.ord = .fortran ∧ B.ord = .fortran ∧ MA.transpose = MA ∧ MB.transpose = MB ∧
      ∃ B', FullMatrix.symmetricUpdate2 A B = some B' ∧ ¬ Represents B' (MA * MB * MA.transpose) := by
  refine ⟨⟨.fortran, 2, 2, [1, 1, 1, 1]⟩, ⟨.fortran, 2, 2, [1, 0, 0, 1]⟩, !![1, 1; 1, 1], !![1, 0; 0, 1],
    ⟨rfl, rfl, rfl, by decide⟩, ⟨rfl, rfl, rfl, by decide⟩, rfl, rfl, by decide, by decide,
    ⟨.fortran, 2, 2, [1, 2, 2, 1]⟩, by decide +kernel, ?_⟩
  intro h
  have := h.entry 0 0
  revert this
  decide +kernel

/-! Witnesses for C02. -/

example : Represents (⟨.fortran, 2, 2, [2, 0, 0, 3]⟩ : FullMatrix ℚ) (Matrix.diagonal ![2, 3]) :=
  ⟨rfl, rfl, rfl, by decide⟩

example : IsVec [(1 : ℚ), 2, 3] ![1, 2, 3] := by simp [IsVec]

/-! ### C03: small inverses -/

section
variable [Field K] [DecidableEq K]

/-- C03 (2 × 2): the routine divides by zero exactly for singular matrices and otherwise returns a two-sided
inverse. -/
theorem C03_inverse2x2 (m : Matrix (Fin 2) (Fin 2) K) :
    (m.det = 0 → inverse2x2 m = none) ∧
    (m.det ≠ 0 → ∃ mi, inverse2x2 m = some mi ∧ m * Matrix.of mi = 1 ∧ Matrix.of mi * m = 1) := by
  have hdet : m.det = m 0 0 * m 1 1 - m 0 1 * m 1 0 := Matrix.det_fin_two m
  constructor
  · intro h
    rw [hdet] at h
    simp [inverse2x2, h]
  · intro h
    rw [hdet] at h
    have h' := mul_inv_cancel₀ h
    refine ⟨_, by simp only [inverse2x2, h, if_false]; rfl, ?_, ?_⟩ <;>
    · ext i j
      fin_cases i <;> fin_cases j <;>
        simp [Matrix.mul_apply, Fin.sum_univ_two, div_eq_mul_inv] <;>
        first | ring1 | linear_combination h'

omit [DecidableEq K] in
/-- The product of the two divisors of `inverse3x3` is the determinant. -/
theorem det3_eq (m : Matrix (Fin 3) (Fin 3) K) (hi : m 2 2 ≠ 0) :
    m.det = m 2 2 * ((m 0 0 - m 0 2 * m 2 0 / m 2 2) * (m 1 1 - m 1 2 * m 2 1 / m 2 2) -
      (m 0 2 * m 2 1 / m 2 2 - m 0 1) * (m 1 2 * m 2 0 / m 2 2 - m 1 0)) := by
  rw [Matrix.det_fin_three]
  field_simp
  ring

/-- C03 (3 × 3), proved for matrices with `m(2,2) ≠ 0`. Missing: invertible matrices with `m(2,2) = 0`, for
which the code divides by zero (`C03_inverse3x3_violated`). -/
theorem C03_inverse3x3_partial (m : Matrix (Fin 3) (Fin 3) K) (hi : m 2 2 ≠ 0) :
    (m.det = 0 → inverse3x3 m = none) ∧
    (m.det ≠ 0 → ∃ mi, inverse3x3 m = some mi ∧ m * Matrix.of mi = 1 ∧ Matrix.of mi * m = 1) := by
  have hdet := det3_eq m hi
  set x := (m 0 0 - m 0 2 * m 2 0 / m 2 2) * (m 1 1 - m 1 2 * m 2 1 / m 2 2) -
      (m 0 2 * m 2 1 / m 2 2 - m 0 1) * (m 1 2 * m 2 0 / m 2 2 - m 1 0) with hx
  constructor
  · intro h
    have hx0 : x = 0 := by
      rw [h] at hdet
      exact (mul_eq_zero.mp hdet.symm).resolve_left hi
    simp only [inverse3x3, hi, if_false, ← hx, hx0, if_true]
  · intro h
    have hx0 : x ≠ 0 := by
      intro h0; rw [h0, mul_zero] at hdet; exact h hdet
    have hx1 : m 2 2 ^ 2 * x = (m 0 0 * m 2 2 - m 0 2 * m 2 0) * (m 1 1 * m 2 2 - m 1 2 * m 2 1) -
      (m 0 2 * m 2 1 - m 0 1 * m 2 2) * (m 1 2 * m 2 0 - m 1 0 * m 2 2) := by
      rw [hx]; field_simp
    have key : ∃ mi, inverse3x3 m = some mi ∧ m * Matrix.of mi = 1 := by
      refine ⟨_, by simp only [inverse3x3, hi, if_false, ← hx, hx0]; rfl, ?_⟩
      ext i j
      fin_cases i <;> fin_cases j <;>
        simp [Matrix.mul_apply, Fin.sum_univ_three] <;> field_simp <;>
        first
          | ring1
          | (linear_combination hx1)
          | (linear_combination (-1 : K) * hx1)
          | (linear_combination (m 0 2) * hx1)
          | (linear_combination (-m 0 2) * hx1)
          | (linear_combination (m 1 2) * hx1)
          | (linear_combination (-m 1 2) * hx1)
    obtain ⟨mi, h1, h2⟩ := key
    exact ⟨mi, h1, h2, mul_eq_one_comm.mp h2⟩

end

/-- C03 is violated by `inverse3x3`: the permutation matrix exchanging the last two coordinates is invertible
(it is its own inverse) but the routine divides by zero. -/
theorem C03_inverse3x3_violated :
    ∃ m : Matrix (Fin 3) (Fin 3) ℚ, m.det ≠ 0 ∧ m * m = 1 ∧ inverse3x3 m = none := by
  refine ⟨!![1, 0, 0; 0, 0, 1; 0, 1, 0], ?_, ?_, ?_⟩
  · rw [Matrix.det_fin_three]; decide +kernel
  · decide +kernel
  · simp [inverse3x3]

example : (!![2, 1, 0; 1, 3, 1; 0, 1, 4] : Matrix (Fin 3) (Fin 3) ℚ) 2 2 ≠ 0 ∧
    (!![2, 1, 0; 1, 3, 1; 0, 1, 4] : Matrix (Fin 3) (Fin 3) ℚ).det ≠ 0 := by
  constructor
  · simp
  · rw [Matrix.det_fin_three]; decide +kernel

end Verif.Dense
