import Verif.Spec.Uzawa
import Mathlib.Algebra.BigOperators.Ring.Finset
import Mathlib.Tactic.Ring
import Mathlib.Tactic.LinearCombination
import Mathlib.Tactic.NormNum
import Mathlib.Algebra.Field.Rat

/-!
C48: the solvers and operators of the mortar system.
-/

namespace Verif.MatrixOps

variable {K : Type} [Field K]

theorem dot_fold (f : Nat → Option K) (alpha : K) (g : Nat → K) (s : K) (k : Nat) :
    (List.range k).foldl (fun s j => match f j with
      | some a => s + alpha * a * g j
      | none => s) s = s + alpha * ∑ j ∈ Finset.range k, (f j).getD 0 * g j := by
  induction k with
  | zero => simp
  | succ k ih =>
    rw [List.range_succ, List.foldl_append, ih, List.foldl_cons, List.foldl_nil, Finset.sum_range_succ]
    cases f k with
    | none => simp
    | some a => simp only [Option.getD_some]; ring

theorem rowDot_eq (A : Sparse K) (alpha : K) (x : Vec K) (i : Nat) (s : K) : rowDot A alpha x i s = s + alpha * mulAt A x.at_ i :=
  dot_fold (fun j => A.entry i j) alpha x.at_ s A.m

theorem colDot_eq (A : Sparse K) (alpha : K) (x : Vec K) (j : Nat) (s : K) : colDot A alpha x j s = s + alpha * tmulAt A x.at_ j :=
  dot_fold (fun i => A.entry i j) alpha x.at_ s A.n

theorem mulAt_congr (A : Sparse K) (x y : Nat → K) (h : ∀ j < A.m, x j = y j) (i : Nat) : mulAt A x i = mulAt A y i :=
  Finset.sum_congr rfl fun j hj => by rw [h j (Finset.mem_range.mp hj)]

theorem tmulAt_congr (A : Sparse K) (x y : Nat → K) (h : ∀ i < A.n, x i = y i) (j : Nat) : tmulAt A x j = tmulAt A y j :=
  Finset.sum_congr rfl fun i hi => by rw [h i (Finset.mem_range.mp hi)]

theorem mulAt_sub (A : Sparse K) (x y : Nat → K) (i : Nat) : mulAt A (fun k => x k - y k) i = mulAt A x i - mulAt A y i := by
  unfold mulAt
  rw [← Finset.sum_sub_distrib]
  exact Finset.sum_congr rfl fun _ _ => by ring

theorem tmulAt_sub (A : Sparse K) (x y : Nat → K) (j : Nat) : tmulAt A (fun k => x k - y k) j = tmulAt A x j - tmulAt A y j := by
  unfold tmulAt
  rw [← Finset.sum_sub_distrib]
  exact Finset.sum_congr rfl fun _ _ => by ring

theorem usmv_ok (A : Sparse K) (alpha : K) (x y : Vec K) (h1 : A.m ≤ x.len) (h2 : A.n ≤ y.len) :
    ∃ r, usmv A alpha x y = some r ∧ r.len = y.len ∧ (∀ i < A.n, r.at_ i = y.at_ i + alpha * mulAt A x.at_ i) ∧
      ∀ i, A.n ≤ i → r.at_ i = y.at_ i :=
  ⟨_, if_pos ⟨h1, h2⟩, rfl, fun i hi => (if_pos hi).trans (rowDot_eq A alpha x i _), fun i hi => if_neg (by omega)⟩

theorem mv_ok (A : Sparse K) (x y : Vec K) (h1 : A.m ≤ x.len) (h2 : A.n ≤ y.len) :
    ∃ r, mv A x y = some r ∧ r.len = y.len ∧ (∀ i < A.n, r.at_ i = mulAt A x.at_ i) ∧ ∀ i, A.n ≤ i → r.at_ i = y.at_ i :=
  ⟨_, if_pos ⟨h1, h2⟩, rfl, fun i hi => (if_pos hi).trans ((rowDot_eq A 1 x i _).trans (by ring)), fun i hi => if_neg (by omega)⟩

theorem mtv_ok (A : Sparse K) (x y : Vec K) (h1 : A.n ≤ x.len) (h2 : A.m ≤ y.len) :
    ∃ r, mtv A x y = some r ∧ r.len = y.len ∧ ∀ j < A.m, r.at_ j = tmulAt A x.at_ j :=
  ⟨_, if_pos ⟨h1, h2⟩, rfl, fun i hi => (if_pos hi).trans ((colDot_eq A 1 x i _).trans (by ring))⟩

theorem extract_ok (y : Vec K) (len start : Nat) (h : start + len ≤ y.len) :
    ∃ r, extract y len start = some r ∧ r.len = len ∧ ∀ i, r.at_ i = y.at_ (start + i) := ⟨_, if_pos h, rfl, fun _ => rfl⟩

theorem inject_ok (x y : Vec K) (len start : Nat) (h1 : start + len ≤ x.len) (h2 : len ≤ y.len) :
    ∃ r, inject x y len start = some r ∧ r.len = x.len ∧ (∀ i < len, r.at_ (start + i) = y.at_ i) ∧
      ∀ i, (i < start ∨ start + len ≤ i) → r.at_ i = x.at_ i :=
  ⟨_, if_pos ⟨h1, h2⟩, rfl, fun i hi => (if_pos (by omega)).trans (by rw [show start + i - start = i by omega]),
    fun i hi => if_neg (by omega)⟩

/-- **C48 (operator).** For `A` square and `B` with as many rows, the operator applies the whole matrix `[A B; Bᵀ 0]`, whatever the
result vector contained. -/
theorem C48_operator (A B : Sparse K) (hsq : A.m = A.n) (hB : B.n = A.n) (x y : Vec K) (hx : x.len = A.n + B.m)
    (hy : y.len = A.n + B.m) :
    ∃ r, saddleApply A B x y = some r ∧ r.len = A.n + B.m ∧
      (∀ i < A.n, r.at_ i = mulAt A x.at_ i + mulAt B (fun j => x.at_ (A.n + j)) i) ∧
      ∀ j < B.m, r.at_ (A.n + j) = tmulAt B x.at_ j := by
  obtain ⟨l, e1, l1, v1⟩ := extract_ok x B.m A.n (by omega)
  obtain ⟨y1, e2, l2, v2, _⟩ := mv_ok A x y (by omega) (by omega)
  obtain ⟨y2, e3, l3, v3, _⟩ := usmv_ok B 1 l y1 (by omega) (by omega)
  obtain ⟨t, e4, l4, v4⟩ := mtv_ok B x (.zero l.len) (by omega) (by change B.m ≤ l.len; omega)
  obtain ⟨r, e5, l5, v5, k5⟩ := inject_ok y2 t B.m A.n (by omega) (by rw [l4]; change B.m ≤ l.len; omega)
  refine ⟨r, ?_, by omega, ?_, ?_⟩
  · unfold saddleApply
    rw [e1, Option.bind_some, e2, Option.bind_some, e3, Option.bind_some, e4, Option.bind_some, e5]
  · intro i hi
    rw [k5 i (Or.inl hi), v3 i (by omega), v2 i hi, mulAt_congr B l.at_ _ (fun j _ => v1 j)]
    ring
  · intro j hj
    rw [v5 j hj, v4 j hj]

/-- **C48 (scaled operator, `_partial`).** The scaled variant adds `α [A 0; Bᵀ 0] + [0 B; 0 0]` times the vector. It is `α` times the
operator only for `α = 1` or vanishing `B λ`; see `C48_violated_scale`. -/
theorem C48_scaled_partial (A B : Sparse K) (hsq : A.m = A.n) (hB : B.n = A.n) (alpha : K) (x y : Vec K) (hx : x.len = A.n + B.m)
    (hy : y.len = A.n + B.m) :
    ∃ r, saddleScaleAdd A B alpha x y = some r ∧ r.len = A.n + B.m ∧
      (∀ i < A.n, r.at_ i = y.at_ i + alpha * mulAt A x.at_ i + mulAt B (fun j => x.at_ (A.n + j)) i) ∧
      ∀ j < B.m, r.at_ (A.n + j) = y.at_ (A.n + j) + alpha * tmulAt B x.at_ j := by
  obtain ⟨y1, e2, l2, v2, k2⟩ := usmv_ok A alpha x y (by omega) (by omega)
  obtain ⟨l, e1, l1, v1⟩ := extract_ok x B.m A.n (by omega)
  obtain ⟨y2, e3, l3, v3, k3⟩ := usmv_ok B 1 l y1 (by omega) (by omega)
  obtain ⟨t, e4, l4, v4⟩ := mtv_ok B x (.zero l.len) (by omega) (by change B.m ≤ l.len; omega)
  have l4' : t.len = l.len := l4
  refine ⟨⟨y2.len, fun i => if A.n ≤ i ∧ i < y2.len then y2.at_ i + alpha * t.at_ (i - A.n) else y2.at_ i⟩, ?_, by simp only; omega, ?_, ?_⟩
  · unfold saddleScaleAdd
    rw [e2, Option.bind_some, e1, Option.bind_some, e3, Option.bind_some, e4, Option.bind_some, if_pos (by omega)]
  · intro i hi
    simp only
    rw [if_neg (by omega), v3 i (by omega), v2 i hi, mulAt_congr B l.at_ _ (fun j _ => v1 j)]
    ring
  · intro j hj
    simp only
    rw [if_pos (by omega), show A.n + j - A.n = j by omega, v4 j hj, k3 _ (by omega), k2 _ (by omega)]

/-- A 1×1 system with coupling one. -/
def one11 : Sparse ℚ := ⟨1, 1, fun i j => if i = 0 ∧ j = 0 then some 1 else none⟩

/-- **C48 (violation, scaled operator).** With factor `-1` (the residual computation of the iterative solvers) the multiplier part enters
with the wrong sign: for `A = B = 1`, `x = (0, 1)` and `y = 0` the first entry is `1` instead of `-1`. -/
theorem C48_violated_scale : (saddleScaleAdd one11 one11 (-1) ⟨2, fun i => if i = 1 then 1 else 0⟩ (.zero 2)).map (fun r => r.at_ 0) = some 1 ∧
    (saddleApply one11 one11 ⟨2, fun i => if i = 1 then 1 else 0⟩ (.zero 2)).map (fun r => r.at_ 0) = some 1 := by
  decide +kernel

/-- **C48 (block elimination).** With exact solvers for `A` and for the Schur complement, and any right-hand side `b`, the result
`(u, λ)` satisfies `A u + B λ = b₁` and `Bᵀ u = 0`, whatever the solution vector contained. -/
theorem C48_uzawa (A B : Sparse K) (hsq : A.m = A.n) (hB : B.n = A.n) (inner outer : Vec K → Vec K → Vec K) (hin : Solves A inner)
    (hout : SolvesSchur A B outer) (x b : Vec K) (hx : x.len = A.n + B.m) (hb : b.len = A.n + B.m) :
    ∃ r, uzawa inner outer B x b = some r ∧ r.len = A.n + B.m ∧
      (∀ i < A.n, mulAt A r.at_ i + mulAt B (fun j => r.at_ (A.n + j)) i = b.at_ i) ∧
      ∀ j < B.m, tmulAt B r.at_ j = 0 := by
  let u : Vec K := ⟨B.n, fun i => b.at_ (0 + i)⟩
  have hu : extract b B.n 0 = some u := if_pos (by omega)
  have i1 := hin (.zero B.n) u hB hB
  let lam : Vec K := ⟨B.m, fun j => if j < B.m then colDot B 1 (inner (.zero B.n) u) j 0 else 0⟩
  have hlam : mtv B (inner (.zero B.n) u) (.zero B.m) = some lam := if_pos ⟨by rw [i1.1, hB], Nat.le_refl _⟩
  have o1 := hout (.zero B.m) lam rfl rfl
  let z : Vec K := outer (.zero B.m) lam
  let u' : Vec K := ⟨B.n, fun i => if i < B.n then rowDot B (-1) z i (u.at_ i) else u.at_ i⟩
  have hu' : usmv B (-1) z u = some u' := if_pos ⟨by rw [show z.len = B.m from o1.1], Nat.le_refl _⟩
  have i2 := hin (.zero B.n) u' hB hB
  let w : Vec K := inner (.zero B.n) u'
  have hw : w.len = A.n := i2.1
  let x1 : Vec K := ⟨x.len, fun i => if 0 ≤ i ∧ i < 0 + B.n then w.at_ (i - 0) else x.at_ i⟩
  have hx1 : inject x w B.n 0 = some x1 := if_pos ⟨by omega, by rw [hw, hB]⟩
  let r : Vec K := ⟨x.len, fun i => if B.n ≤ i ∧ i < B.n + B.m then z.at_ (i - B.n) else x1.at_ i⟩
  have hr : inject x1 z B.m B.n = some r := if_pos ⟨by change B.n + B.m ≤ x.len; omega, by rw [show z.len = B.m from o1.1]⟩
  have hru : ∀ i < A.n, r.at_ i = w.at_ i := by
    intro i hi
    change (if B.n ≤ i ∧ i < B.n + B.m then z.at_ (i - B.n) else (if 0 ≤ i ∧ i < 0 + B.n then w.at_ (i - 0) else x.at_ i)) = _
    rw [if_neg (by omega), if_pos (by omega)]
    rfl
  have hrl : ∀ j < B.m, r.at_ (A.n + j) = z.at_ j := by
    intro j hj
    change (if B.n ≤ A.n + j ∧ A.n + j < B.n + B.m then z.at_ (A.n + j - B.n) else _) = _
    rw [if_pos (by omega), show A.n + j - B.n = j by omega]
  have hAw : ∀ i < A.n, mulAt A w.at_ i = b.at_ i - mulAt B z.at_ i := by
    intro i hi
    rw [show mulAt A w.at_ i = u'.at_ i from i2.2 i hi]
    change (if i < B.n then rowDot B (-1) z i (u.at_ i) else u.at_ i) = _
    rw [if_pos (by omega), rowDot_eq]
    change b.at_ (0 + i) + _ = _
    rw [Nat.zero_add]
    ring
  refine ⟨r, ?_, hx, ?_, ?_⟩
  · unfold uzawa
    rw [hu]
    simp only [Option.bind_some]
    rw [show u.len = B.n from rfl, hlam]
    simp only [Option.bind_some]
    rw [show lam.len = B.m from rfl, hu']
    simp only [Option.bind_some]
    rw [i1.1, ← hB]
    rw [hx1]
    exact hr
  · intro i hi
    rw [mulAt_congr A r.at_ w.at_ (fun j hj => hru j (by omega)), mulAt_congr B _ z.at_ (fun j hj => hrl j hj), hAw i hi]
    ring
  · intro j hj
    rw [tmulAt_congr B r.at_ w.at_ (fun i hi => hru i (by omega))]
    have h := o1.2 (fun k => (inner (.zero B.n) u).at_ k - w.at_ k) (fun i hi => by
      rw [mulAt_sub, hAw i hi, i1.2 i hi]
      change b.at_ (0 + i) - _ = _
      rw [Nat.zero_add]
      change _ = mulAt B z.at_ i
      ring) j hj
    rw [tmulAt_sub] at h
    have hl : lam.at_ j = tmulAt B (inner (.zero B.n) u).at_ j := by
      change (if j < B.m then colDot B 1 (inner (.zero B.n) u) j 0 else 0) = _
      rw [if_pos hj, colDot_eq]
      ring
    rw [hl] at h
    linear_combination -h

/-- **C48 (violation, constraint right-hand side).** The second part of the right-hand side is ignored: for every `b` the result satisfies
`Bᵀ u = 0`, so a system with `b₂ ≠ 0` is not solved. -/
theorem C48_violated_rhs (A B : Sparse K) (hsq : A.m = A.n) (hB : B.n = A.n) (inner outer : Vec K → Vec K → Vec K) (hin : Solves A inner)
    (hout : SolvesSchur A B outer) (x b : Vec K) (hx : x.len = A.n + B.m) (hb : b.len = A.n + B.m) (j : Nat) (hj : j < B.m)
    (hne : b.at_ (A.n + j) ≠ 0) :
    ∀ r, uzawa inner outer B x b = some r → tmulAt B r.at_ j ≠ b.at_ (A.n + j) := by
  intro r hr h
  obtain ⟨r', h1, _, _, h4⟩ := C48_uzawa A B hsq hB inner outer hin hout x b hx hb
  rw [h1] at hr
  rw [← Option.some.inj hr, h4 j hj] at h
  exact hne h.symm

/-- **C48 (Schur complement).** With a solver for the first block, the operator applies `Bᵀ A⁻¹ B`: there is `w` with `A w = B x` and the
result is `Bᵀ w`. -/
theorem C48_schur (A B : Sparse K) (hB : B.n = A.n) (inner : Vec K → Vec K → Vec K) (hin : Solves A inner) (x y : Vec K)
    (hx : B.m ≤ x.len) (hy : B.m ≤ y.len) :
    ∃ r, schurApply inner B x y = some r ∧ r.len = y.len ∧
      ∃ w : Nat → K, (∀ i < A.n, mulAt A w i = mulAt B x.at_ i) ∧ ∀ j < B.m, r.at_ j = tmulAt B w j := by
  let t : Vec K := ⟨B.n, fun i => if i < B.n then rowDot B 1 x i 0 else 0⟩
  have ht : mv B x (.zero B.n) = some t := if_pos ⟨hx, Nat.le_refl _⟩
  have i1 := hin (.zero B.n) t hB hB
  refine ⟨⟨y.len, fun j => if j < B.m then colDot B 1 (inner (.zero B.n) t) j 0 else 0⟩, ?_, rfl, (inner (.zero B.n) t).at_, ?_, ?_⟩
  · unfold schurApply schurScaleAdd
    rw [ht]
    exact if_pos ⟨by rw [show (inner (Vec.zero t.len) t).len = A.n from i1.1, hB], hy⟩
  · intro i hi
    rw [i1.2 i hi]
    change (if i < B.n then rowDot B 1 x i 0 else (0 : K)) = _
    rw [if_pos (by omega), rowDot_eq]
    ring
  · intro j hj
    change (if j < B.m then colDot B 1 (inner (.zero B.n) t) j 0 else 0) = _
    rw [if_pos hj, colDot_eq]
    ring

/-- **C48 (columns of the Schur complement, `_partial`).** If there are at most as many multipliers as displacement unknowns, each column
of the dense matrix is `Bᵀ w` with `A w` the column of `B`. Missing: more multipliers than unknowns (`C48_violated_columns`). -/
theorem C48_columns_partial (A B : Sparse K) (hB : B.n = A.n) (inner : Vec K → Vec K → Vec K) (hin : Solves A inner)
    (hm : B.m ≤ B.n) (i : Nat) (hi : i < B.m) :
    ∃ w : Nat → K, (∀ k < A.n, mulAt A w k = B.val k i) ∧
      mortarColumn inner B i = some ((List.range B.m).map fun j => tmulAt B w j) := by
  obtain ⟨r, h1, h2, w, h3, h4⟩ := C48_schur A B hB inner hin ⟨B.n, fun k => if k = i then 1 else 0⟩ (.zero B.n) hm hm
  refine ⟨w, ?_, ?_⟩
  · intro k hk
    rw [h3 k hk]
    unfold mulAt
    rw [Finset.sum_eq_single i]
    · simp
    · intro j _ hj
      simp only
      rw [if_neg hj, mul_zero]
    · intro h
      exact absurd (Finset.mem_range.mpr hi) h
  · unfold mortarColumn
    rw [if_pos (by omega), h1, Option.bind_some, if_pos (by rw [h2]; exact hm)]
    congr 1
    exact List.map_congr_left fun j hj => h4 j (List.mem_range.mp hj)

/-- **C48 (violation, columns).** With more multipliers than displacement unknowns the vectors are too short: the result cannot be
computed, whatever the solver. -/
theorem C48_violated_columns (inner : Vec K → Vec K → Vec K) (B : Sparse K) (hm : B.n < B.m) (i : Nat) : mortarColumn inner B i = none := by
  unfold mortarColumn
  by_cases h : i < B.n
  · rw [if_pos h]
    unfold schurApply schurScaleAdd mv
    rw [if_neg (by simp only [Vec.zero]; omega)]
    rfl
  · rw [if_neg h]

/-- **C48 (preconditioner).** With exact solvers `apre` for `A` and `lpre` for `P` the preconditioner solves `[A B; 0 P] v = d`, in the
symmetric variant `[A 0; 0 P] v = d`. -/
theorem C48_preconditioner (A B P : Sparse K) (hB : B.n = A.n) (hP : P.n = B.m) (lpre apre : Vec K → Vec K → Vec K) (hl : Solves P lpre)
    (ha : Solves A apre) (hsq : A.m = A.n) (hsqP : P.m = P.n) (sym : Bool) (v d : Vec K) (hv : v.len = A.n + B.m) (hd : d.len = A.n + B.m) :
    ∃ r, schurPre lpre apre B sym v d = some r ∧ r.len = A.n + B.m ∧
      (∀ i < A.n, mulAt A r.at_ i + (if sym then 0 else mulAt B (fun j => r.at_ (A.n + j)) i) = d.at_ i) ∧
      ∀ j < B.m, mulAt P (fun j => r.at_ (A.n + j)) j = d.at_ (A.n + j) := by
  let t : Vec K := ⟨B.m, fun i => d.at_ (B.n + i)⟩
  have ht : extract d B.m B.n = some t := if_pos (by omega)
  have l1 := hl (.zero B.m) t hP.symm hP.symm
  let z : Vec K := lpre (.zero B.m) t
  have hz : z.len = B.m := l1.1.trans hP
  let v1 : Vec K := ⟨v.len, fun i => if B.n ≤ i ∧ i < B.n + B.m then z.at_ (i - B.n) else v.at_ i⟩
  have hv1 : inject v z B.m B.n = some v1 := if_pos ⟨by omega, by omega⟩
  let s : Vec K := ⟨B.n, fun i => d.at_ (0 + i)⟩
  have hs : extract d B.n 0 = some s := if_pos (by omega)
  let q : Vec K := if sym then s else ⟨B.n, fun i => if i < B.n then rowDot B (-1) z i (s.at_ i) else s.at_ i⟩
  have hqlen : q.len = A.n := by
    change (if sym then s else _ : Vec K).len = _
    cases sym <;> exact hB
  have hq : (if sym then some s else usmv B (-1) z s) = some q := by
    change _ = some (if sym then s else _)
    cases sym
    · exact if_pos (show B.m ≤ z.len ∧ B.n ≤ s.len from ⟨by rw [hz], Nat.le_refl _⟩)
    · rfl
  have a1 := ha (.zero B.n) q hB hqlen
  let w : Vec K := apre (.zero B.n) q
  have hw : w.len = A.n := a1.1
  let r : Vec K := ⟨v1.len, fun i => if 0 ≤ i ∧ i < 0 + B.n then w.at_ (i - 0) else v1.at_ i⟩
  have hr : inject v1 w B.n 0 = some r := if_pos ⟨by change 0 + B.n ≤ v.len; omega, by omega⟩
  have hru : ∀ i < A.n, r.at_ i = w.at_ i := by
    intro i hi
    change (if 0 ≤ i ∧ i < 0 + B.n then w.at_ (i - 0) else _) = _
    rw [if_pos (by omega)]
    rfl
  have hrl : ∀ j < B.m, r.at_ (A.n + j) = z.at_ j := by
    intro j hj
    change (if 0 ≤ A.n + j ∧ A.n + j < 0 + B.n then _ else (if B.n ≤ A.n + j ∧ A.n + j < B.n + B.m then z.at_ (A.n + j - B.n) else _)) = _
    rw [if_neg (by omega), if_pos (by omega), show A.n + j - B.n = j by omega]
  have hqv : ∀ i < A.n, q.at_ i + (if sym then 0 else mulAt B z.at_ i) = d.at_ i := by
    intro i hi
    change (if sym then s else ⟨B.n, fun i => if i < B.n then rowDot B (-1) z i (s.at_ i) else s.at_ i⟩ : Vec K).at_ i + _ = _
    cases sym
    · simp only [Bool.false_eq_true, if_false]
      rw [if_pos (by omega), rowDot_eq]
      change d.at_ (0 + i) + _ + _ = _
      rw [Nat.zero_add]
      ring
    · simp only [if_true]
      change d.at_ (0 + i) + 0 = _
      rw [Nat.zero_add, add_zero]
  refine ⟨r, ?_, hv, ?_, ?_⟩
  · unfold schurPre
    rw [ht]
    simp only [Option.bind_some]
    rw [show t.len = B.m from rfl, hv1]
    simp only [Option.bind_some]
    rw [hs]
    simp only [Option.bind_some]
    rw [hq]
    exact hr
  · intro i hi
    rw [mulAt_congr A r.at_ w.at_ (fun j hj => hru j (by omega)), mulAt_congr B _ z.at_ (fun j hj => hrl j hj)]
    rw [show mulAt A w.at_ i = q.at_ i from a1.2 i hi]
    exact hqv i hi
  · intro j hj
    rw [mulAt_congr P _ z.at_ (fun k hk => hrl k (by omega)), show mulAt P z.at_ j = t.at_ j from l1.2 j (by omega)]
    change d.at_ (B.n + j) = _
    rw [hB]

section Examples

/-- The hypotheses are met: `A = B = (1)` with the identity as exact solvers. -/
theorem ex_solves : Solves one11 (fun _ b => b) := by
  intro x0 b _ hb
  refine ⟨hb, ?_⟩
  intro i hi
  have : i = 0 := by change i < 1 at hi; omega
  subst this
  unfold mulAt
  rw [show one11.m = 1 from rfl, Finset.sum_range_one]
  simp [one11, Sparse.val]

theorem ex_schur : SolvesSchur one11 one11 (fun _ b => b) := by
  intro x0 b _ hb
  refine ⟨hb, ?_⟩
  intro w hw j hj
  have : j = 0 := by change j < 1 at hj; omega
  subst this
  have h := hw 0 (by decide)
  unfold mulAt at h
  unfold tmulAt
  rw [show one11.m = 1 from rfl, Finset.sum_range_one, Finset.sum_range_one] at h
  rw [show one11.n = 1 from rfl, Finset.sum_range_one]
  simp [one11, Sparse.val] at h ⊢
  exact h

example : ∃ r, uzawa (fun _ b => b) (fun _ b => b) one11 (.zero 2) ⟨2, fun i => if i = 0 then 3 else 5⟩ = some r ∧
    (∀ j < 1, tmulAt one11 r.at_ j = 0) := by
  obtain ⟨r, h, _, _, h2⟩ := C48_uzawa one11 one11 rfl rfl _ _ ex_solves ex_schur (.zero 2) ⟨2, fun i => if i = 0 then 3 else 5⟩ rfl rfl
  exact ⟨r, h, h2⟩

example : ∃ r, schurPre (fun _ b => b) (fun _ b => b) one11 false (.zero 2) ⟨2, fun i => if i = 0 then 3 else 5⟩ = some r := by
  obtain ⟨r, h, _⟩ := C48_preconditioner one11 one11 one11 rfl rfl _ _ ex_solves ex_solves rfl rfl false (.zero 2)
    ⟨2, fun i => if i = 0 then 3 else 5⟩ rfl rfl
  exact ⟨r, h⟩

example : one11.n < (⟨1, 2, fun _ _ => none⟩ : Sparse ℚ).m := by decide

end Examples

end Verif.MatrixOps
