import Verif.Model.Shape
import Mathlib.Analysis.Calculus.Deriv.Mul
import Mathlib.Algebra.BigOperators.Fin
import Mathlib.Analysis.Calculus.Deriv.Add
import Mathlib.Analysis.Calculus.Deriv.Pow
import Mathlib.Tactic.Ring
import Mathlib.Tactic.Linarith
import Mathlib.Tactic.FieldSimp
import Mathlib.Tactic.LinearCombination
import Mathlib.Tactic.Positivity
import Mathlib.Tactic.NormNum

/-!
Property C72: Legendre polynomials, their derivatives and the iteration for Gauss-Lobatto points.
-/

namespace Verif.Shape

/-- The values computed by the recursion. -/
noncomputable def P (x : ℝ) (n : Nat) : ℝ := (legendrePair x n).1

theorem pair_snd (x : ℝ) (n : Nat) : (legendrePair x n).2 = P x (n + 1) := rfl

theorem P_rec (x : ℝ) (n : Nat) :
    ((n : ℝ) + 2) * P x (n + 2) = (2 * (n : ℝ) + 3) * x * P x (n + 1) - ((n : ℝ) + 1) * P x n := by
  have h : P x (n + 2) = (2 * ((n + 1 : Nat) : ℝ) + 1) / (((n + 1 : Nat) : ℝ) + 1) * x * P x (n + 1) -
      ((n + 1 : Nat) : ℝ) / (((n + 1 : Nat) : ℝ) + 1) * P x n := rfl
  rw [h]
  push_cast
  have : (n : ℝ) + 1 + 1 ≠ 0 := by positivity
  field_simp
  ring

/-- Derivatives of the values, by differentiating the recursion. -/
noncomputable def Q (x : ℝ) : Nat → ℝ
  | 0 => 0
  | 1 => 1
  | n + 2 => ((2 * (n : ℝ) + 3) * (P x (n + 1) + x * Q x (n + 1)) - ((n : ℝ) + 1) * Q x n) / ((n : ℝ) + 2)

theorem Q_rec (x : ℝ) (n : Nat) : Q x (n + 2) =
    ((2 * (n : ℝ) + 3) * (P x (n + 1) + x * Q x (n + 1)) - ((n : ℝ) + 1) * Q x n) / ((n : ℝ) + 2) := rfl

theorem P_deriv (x : ℝ) (n : Nat) : HasDerivAt (fun t => P t n) (Q x n) x := by
  induction n using Nat.strong_induction_on with
  | _ n ih =>
    match n with
    | 0 => exact hasDerivAt_const x 1
    | 1 => exact hasDerivAt_id x
    | n + 2 =>
      have h1 := ih (n + 1) (by omega)
      have h0 := ih n (by omega)
      have hn : (n : ℝ) + 2 ≠ 0 := by positivity
      have he : (fun t => P t (n + 2)) =
          fun t => ((2 * (n : ℝ) + 3) * (t * P t (n + 1)) - ((n : ℝ) + 1) * P t n) / ((n : ℝ) + 2) := by
        funext t
        rw [eq_div_iff hn, mul_comm, P_rec]
        ring
      rw [he]
      have := ((((hasDerivAt_id x).mul h1).const_mul (2 * (n : ℝ) + 3)).sub (h0.const_mul ((n : ℝ) + 1))).div_const
        ((n : ℝ) + 2)
      rw [Q_rec]
      rw [one_mul] at this
      exact this

theorem P_Q (x : ℝ) (n : Nat) :
    Q x (n + 1) = ((n : ℝ) + 1) * P x n + x * Q x n ∧ x * Q x (n + 1) - Q x n = ((n : ℝ) + 1) * P x (n + 1) := by
  induction n with
  | zero =>
    have h0 : P x 0 = 1 := rfl
    have h1 : P x (0 + 1) = x := rfl
    have q1 : Q x (0 + 1) = 1 := rfl
    have q0 : Q x 0 = 0 := rfl
    rw [h0, h1, q1, q0]
    simp
  | succ n ih =>
    obtain ⟨hA, hB⟩ := ih
    have hn : (n : ℝ) + 2 ≠ 0 := by positivity
    have hQ : ((n : ℝ) + 2) * Q x (n + 1 + 1) =
        (2 * (n : ℝ) + 3) * (P x (n + 1) + x * Q x (n + 1)) - ((n : ℝ) + 1) * Q x n := by
      rw [Q]
      field_simp
    have hP := P_rec x n
    have hA' : Q x (n + 1 + 1) = (((n + 1 : Nat) : ℝ) + 1) * P x (n + 1) + x * Q x (n + 1) := by
      apply mul_left_cancel₀ hn
      rw [hQ]
      push_cast
      linear_combination ((n : ℝ) + 1) * hB
    refine ⟨hA', ?_⟩
    rw [hA']
    push_cast
    rw [show n + 1 + 1 = n + 2 from rfl]
    linear_combination (-1 : ℝ) * hP - hA + x * hB

theorem Q_mul (x : ℝ) (n : Nat) : (1 - x * x) * Q x (n + 1) = ((n : ℝ) + 1) * (P x n - x * P x (n + 1)) := by
  obtain ⟨hA, hB⟩ := P_Q x n
  linear_combination hA - x * hB

theorem P_end (x : ℝ) (h : x * x = 1) (n : Nat) : P x n = x ^ n ∧ Q x (n + 1) = x ^ n * (n + 1) * (n + 2) / 2 := by
  have hP : ∀ n, P x n = x ^ n ∧ P x (n + 1) = x ^ (n + 1) := by
    intro n
    induction n with
    | zero => exact ⟨(pow_zero x).symm, (pow_one x).symm⟩
    | succ n ih =>
      refine ⟨ih.2, ?_⟩
      have hn : (n : ℝ) + 2 ≠ 0 := by positivity
      apply mul_left_cancel₀ hn
      have := P_rec x n
      rw [ih.1, ih.2] at this
      rw [show n + 1 + 1 = n + 2 from rfl, this]
      rw [pow_succ, pow_succ, pow_succ]
      linear_combination (x ^ n * ((n : ℝ) + 1)) * h
  refine ⟨(hP n).1, ?_⟩
  induction n with
  | zero => show (1 : ℝ) = _; norm_num
  | succ n ih =>
    rw [(P_Q x (n + 1)).1, ih, (hP (n + 1)).1]
    push_cast
    rw [pow_succ]
    ring

/-- C72: for every degree `n ≥ 1` and every point the function returns a value, one at `x = 1`, and as a function of the
point it solves Legendre's differential equation `((1 - x²) y')' = - n (n + 1) y`, with the reported derivative as `y'`. -/
theorem C72_legendre (n : Nat) (hn : 1 ≤ n) :
    ∃ y y' : ℝ → ℝ, (∀ x, legendre x n = some (y x)) ∧ (∀ x, legendreDerivative x n = some (y' x)) ∧ y 1 = 1 ∧
      (∀ x, HasDerivAt y (y' x) x) ∧
      ∀ x, HasDerivAt (fun t => (1 - t * t) * y' t) (-((n : ℝ) * (n + 1) * y x)) x := by
  obtain ⟨m, rfl⟩ : ∃ m, n = m + 1 := ⟨n - 1, by omega⟩
  refine ⟨fun x => P x (m + 1), fun x => Q x (m + 1), ?_, ?_, ?_, ?_, ?_⟩
  · intro x
    rfl
  · intro x
    unfold legendreDerivative
    rw [if_neg (by omega)]
    by_cases h : x = 1 ∨ x = -1
    · rw [if_pos h]
      have hx : x * x = 1 := by rcases h with rfl | rfl <;> norm_num
      show _ = some (Q x (m + 1))
      rw [(P_end x hx m).2, Nat.add_sub_cancel]
      congr 1
      push_cast
      ring
    · rw [if_neg h]
      push Not at h
      have hx : 1 - x * x ≠ 0 := by
        intro hc
        have : (1 - x) * (1 + x) = 0 := by linear_combination hc
        rcases mul_eq_zero.mp this with h' | h'
        · exact h.1 (by linarith)
        · exact h.2 (by linarith)
      congr 1
      have := Q_mul x m
      rw [Nat.add_sub_cancel]
      show ((m + 1 : Nat) : ℝ) / (1 - x * x) * P x m - ((m + 1 : Nat) : ℝ) * x / (1 - x * x) * P x (m + 1) = _
      push_cast
      rw [← mul_right_inj' hx, this, div_mul_eq_mul_div, div_mul_eq_mul_div, ← sub_div, mul_div_cancel₀ _ hx]
      ring
  · show P 1 (m + 1) = 1
    rw [(P_end 1 (by norm_num) (m + 1)).1, one_pow]
  · intro x
    exact P_deriv x (m + 1)
  · intro x
    have he : (fun t => (1 - t * t) * Q t (m + 1)) = fun t => ((m : ℝ) + 1) * (P t m - t * P t (m + 1)) :=
      funext fun t => Q_mul t m
    rw [he]
    have hd := ((P_deriv x m).sub ((hasDerivAt_id x).mul (P_deriv x (m + 1)))).const_mul ((m : ℝ) + 1)
    have hB := (P_Q x m).2
    have hv : -(((m + 1 : Nat) : ℝ) * (((m + 1 : Nat) : ℝ) + 1) * P x (m + 1)) =
        ((m : ℝ) + 1) * (Q x m - (1 * P x (m + 1) + x * Q x (m + 1))) := by
      push_cast
      linear_combination ((m : ℝ) + 1) * hB
    show HasDerivAt _ (-(((m + 1 : Nat) : ℝ) * (((m + 1 : Nat) : ℝ) + 1) * P x (m + 1))) x
    rw [hv]
    exact hd

/-- C72: a step of the Gauss-Lobatto iteration for `n ≥ 2` points is a Newton step for `q(x) = (1 - x²) P'(x)`, with `P` the
Legendre polynomial of degree `n - 1`; so a point is kept exactly if it is a zero of `q`. -/
theorem C72_lobatto_newton (n : Nat) (hn : 2 ≤ n) :
    ∃ y' q : ℝ → ℝ, (∀ x, legendreDerivative x (n - 1) = some (y' x)) ∧ (∀ x, q x = (1 - x * x) * y' x) ∧
      ∀ x, ∃ q' : ℝ, HasDerivAt q q' x ∧ (q' = 0 → lobattoStep n x = none) ∧
        (q' ≠ 0 → lobattoStep n x = some (x - q x / q') ∧ (lobattoStep n x = some x ↔ q x = 0)) := by
  obtain ⟨y, y', h1, h2, -, -, h5⟩ := C72_legendre (n - 1) (by omega)
  refine ⟨y', fun x => (1 - x * x) * y' x, h2, fun _ => rfl, fun x => ⟨_, h5 x, ?_, ?_⟩⟩
  · intro h
    unfold lobattoStep
    rw [h1, h2]
    dsimp only
    rw [if_pos]
    rw [Nat.cast_sub (by omega)] at h
    push_cast at h
    linear_combination -h
  · intro h
    rw [Nat.cast_sub (by omega)] at h ⊢
    push_cast at h ⊢
    have hne : ((n : ℝ) - 1) * n * y x ≠ 0 := by
      intro hc
      apply h
      linear_combination -hc
    have hstep : lobattoStep n x = some (x - (1 - x * x) * y' x / -(((n : ℝ) - 1) * ((n : ℝ) - 1 + 1) * y x)) := by
      unfold lobattoStep
      rw [h1, h2]
      dsimp only
      rw [if_neg hne]
      congr 1
      rw [show ((n : ℝ) - 1) * ((n : ℝ) - 1 + 1) * y x = ((n : ℝ) - 1) * n * y x by ring, div_neg]
      ring
    refine ⟨hstep, ?_⟩
    rw [hstep]
    simp only [Option.some.injEq]
    constructor
    · intro he
      have : (1 - x * x) * y' x / -(((n : ℝ) - 1) * ((n : ℝ) - 1 + 1) * y x) = 0 := by linarith
      exact (div_eq_zero_iff.mp this).resolve_right h
    · intro he
      rw [he]
      ring

theorem gauss_entry (n : Nat) (hn : 2 ≤ n) (A : Fin n → Fin n → ℝ) (hA : gaussMatrix n = some A) (i j : Fin n) :
    A i j = (if j.val + 1 = i.val then (i.val : ℝ) / (2 * i.val + 1) else 0) +
      (if j.val = i.val + 1 then ((i.val : ℝ) + 1) / (2 * i.val + 1) else 0) := by
  unfold gaussMatrix at hA
  rw [if_neg (by omega)] at hA
  have hi := i.isLt
  have hj := j.isLt
  have := congrFun (congrFun (Option.some.inj hA) i) j
  rw [← this]
  by_cases h0 : i.val = 0
  · rw [if_pos h0, if_neg (by omega : ¬ j.val + 1 = i.val), h0]
    norm_num
  · rw [if_neg h0]
    have e : 2 * ((i.val : ℝ) + 1) - 1 = 2 * i.val + 1 := by ring
    by_cases h1 : i.val < n - 1
    · rw [if_pos h1, e]
      by_cases h2 : j.val = i.val - 1
      · rw [if_pos h2, if_pos (by omega), if_neg (by omega), add_zero]
      · rw [if_neg h2, if_neg (by omega : ¬ j.val + 1 = i.val), zero_add]
    · rw [if_neg h1, if_neg (by omega : ¬ j.val = i.val + 1), add_zero]
      have hin : (n : ℝ) = (i.val : ℝ) + 1 := by
        have : n = i.val + 1 := by omega
        rw [show (n : ℝ) = ((i.val + 1 : Nat) : ℝ) by rw [← this]]
        push_cast
        rfl
      by_cases h2 : j.val = n - 2
      · rw [if_pos h2, if_pos (by omega), hin, e, add_sub_cancel_right]
      · rw [if_neg h2, if_neg (by omega)]

theorem sum_at (n : Nat) (w : Nat → ℝ) (c : ℝ) (k : Nat) :
    ∑ j : Fin n, (if j.val = k then c else 0) * w j.val = if k < n then c * w k else 0 := by
  by_cases h : k < n
  · rw [if_pos h, Finset.sum_eq_single (⟨k, h⟩ : Fin n)]
    · simp
    · intro b _ hb
      rw [if_neg fun hc => hb (Fin.ext hc), zero_mul]
    · intro hc
      exact absurd (Finset.mem_univ _) hc
  · rw [if_neg h]
    apply Finset.sum_eq_zero
    intro j _
    rw [if_neg (by have := j.isLt; omega), zero_mul]

theorem gauss_row (n : Nat) (hn : 2 ≤ n) (A : Fin n → Fin n → ℝ) (hA : gaussMatrix n = some A) (w : Nat → ℝ)
    (i : Fin n) : ∑ j : Fin n, A i j * w j.val =
      (if 0 < i.val then (i.val : ℝ) / (2 * i.val + 1) * w (i.val - 1) else 0) +
      (if i.val + 1 < n then ((i.val : ℝ) + 1) / (2 * i.val + 1) * w (i.val + 1) else 0) := by
  have hi := i.isLt
  have : ∀ j : Fin n, A i j * w j.val =
      (if 0 < i.val then (if j.val = i.val - 1 then (i.val : ℝ) / (2 * i.val + 1) else 0) * w j.val else 0) +
      (if j.val = i.val + 1 then ((i.val : ℝ) + 1) / (2 * i.val + 1) else 0) * w j.val := by
    intro j
    rw [gauss_entry n hn A hA, add_mul]
    congr 1
    by_cases h : 0 < i.val
    · rw [if_pos h]
      congr 1
      by_cases h2 : j.val = i.val - 1
      · rw [if_pos h2, if_pos (by omega)]
      · rw [if_neg h2, if_neg (by omega)]
    · rw [if_neg h, if_neg (by omega), zero_mul]
  rw [Finset.sum_congr rfl fun j _ => this j, Finset.sum_add_distrib, sum_at]
  congr 1
  by_cases h : 0 < i.val
  · simp only [if_pos h]
    rw [sum_at, if_pos (by omega)]
  · simp only [if_neg h]
    rw [Finset.sum_const_zero]

/-- C72: the eigenvalues of the matrix of the Gauss point search for `n ≥ 2` points are exactly the zeros of the Legendre
polynomial of degree `n`. -/
theorem C72_gauss_eigenvalues (n : Nat) (hn : 2 ≤ n) (A : Fin n → Fin n → ℝ) (hA : gaussMatrix n = some A) (x : ℝ) :
    (∃ v : Fin n → ℝ, v ≠ 0 ∧ ∀ i, ∑ j, A i j * v j = x * v i) ↔ legendre x n = some 0 := by
  have hleg : legendre x n = some (P x n) := by
    unfold legendre
    rw [if_neg (by omega)]
    rfl
  have hrec : ∀ i : Nat, 0 < i → ((i : ℝ) + 1) * P x (i + 1) = (2 * (i : ℝ) + 1) * x * P x i - (i : ℝ) * P x (i - 1) := by
    intro i hi
    obtain ⟨m, rfl⟩ : ∃ m, i = m + 1 := ⟨i - 1, by omega⟩
    have := P_rec x m
    rw [Nat.add_sub_cancel]
    push_cast
    rw [show m + 1 + 1 = m + 2 from rfl]
    linear_combination this
  rw [hleg, Option.some.injEq]
  constructor
  · rintro ⟨v, hv, h⟩
    set w : Nat → ℝ := fun k => if hk : k < n then v ⟨k, hk⟩ else 0 with hw
    have hwv : ∀ j : Fin n, v j = w j.val := by
      intro j
      rw [hw]
      dsimp only
      rw [dif_pos j.isLt]
    have hrow : ∀ i : Fin n, (if 0 < i.val then (i.val : ℝ) / (2 * i.val + 1) * w (i.val - 1) else 0) +
      (if i.val + 1 < n then ((i.val : ℝ) + 1) / (2 * i.val + 1) * w (i.val + 1) else 0) = x * w i.val := by
      intro i
      rw [← gauss_row n hn A hA, ← hwv, ← h i]
      exact Finset.sum_congr rfl fun j _ => by rw [hwv]
    have hP : ∀ k, k < n → w k = w 0 * P x k := by
      intro k
      induction k using Nat.strong_induction_on with
      | _ k ih =>
        intro hk
        match k with
        | 0 =>
          show w 0 = w 0 * 1
          rw [mul_one]
        | 1 =>
          have := hrow ⟨0, by omega⟩
          simp only [lt_irrefl, if_false, zero_add, Nat.cast_zero, mul_zero] at this
          rw [if_pos (by omega)] at this
          show w 1 = w 0 * x
          linarith
        | k + 2 =>
          have h1 := ih (k + 1) (by omega) (by omega)
          have h0 := ih k (by omega) (by omega)
          have := hrow ⟨k + 1, by omega⟩
          dsimp only at this
          rw [if_pos (by omega), if_pos (by omega), Nat.add_sub_cancel, h1, h0] at this
          have hr := P_rec x k
          push_cast at this
          have hpos : (2 : ℝ) * ((k : ℝ) + 1) + 1 ≠ 0 := by positivity
          field_simp at this
          have hk2 : (k : ℝ) + 2 ≠ 0 := by positivity
          apply mul_left_cancel₀ hk2
          rw [show k + 1 + 1 = k + 2 from rfl] at this
          linear_combination this - w 0 * hr
    have hw0 : w 0 ≠ 0 := by
      intro hc
      apply hv
      funext j
      rw [hwv, hP _ j.isLt, hc, zero_mul]
      rfl
    have := hrow ⟨n - 1, by omega⟩
    dsimp only at this
    rw [if_pos (by omega), if_neg (by omega), add_zero, hP _ (by omega), hP (n - 1) (by omega)] at this
    have hr := hrec (n - 1) (by omega)
    rw [Nat.sub_add_cancel (by omega)] at hr
    have hc1 : ((n - 1 : Nat) : ℝ) = (n : ℝ) - 1 := by rw [Nat.cast_sub (by omega)]; norm_num
    rw [hc1] at this hr
    have hn2 : (2 : ℝ) ≤ n := by exact_mod_cast hn
    have hpos : (2 : ℝ) * ((n : ℝ) - 1) + 1 ≠ 0 := by linarith
    rw [div_mul_eq_mul_div, div_eq_iff hpos] at this
    have h3 : w 0 * ((n : ℝ) * P x n) = 0 := by
      linear_combination w 0 * hr - this
    have hn0 : (n : ℝ) ≠ 0 := by linarith
    rcases mul_eq_zero.mp h3 with h4 | h4
    · exact absurd h4 hw0
    · exact (mul_eq_zero.mp h4).resolve_left hn0
  · intro h
    refine ⟨fun j => P x j.val, ?_, ?_⟩
    · intro hc
      have : P x 0 = 0 := congrFun hc ⟨0, by omega⟩
      exact one_ne_zero this
    · intro i
      rw [gauss_row n hn A hA (P x) i]
      have hi := i.isLt
      have hpos : (2 : ℝ) * (i.val : ℝ) + 1 ≠ 0 := by positivity
      by_cases h0 : 0 < i.val
      · rw [if_pos h0]
        have hr := hrec i.val h0
        by_cases h1 : i.val + 1 < n
        · rw [if_pos h1]
          field_simp
          linear_combination hr
        · rw [if_neg h1, add_zero]
          rw [show i.val + 1 = n by omega, h, mul_zero] at hr
          field_simp
          linear_combination hr
      · have h00 : i.val = 0 := by omega
        rw [if_neg h0, h00, if_pos (by omega)]
        have e1 : P x 0 = 1 := rfl
        have e2 : P x (0 + 1) = x := rfl
        show _ = x * P x i.val
        rw [h00, e1, e2]
        norm_num

/-- Degree 0 is outside the domain of both functions: they write past their array. -/
theorem C72_violated_degree_zero (x : ℝ) : legendre x 0 = none ∧ legendreDerivative x 0 = none := ⟨rfl, rfl⟩

example : legendre (1 / 2 : ℚ) 3 = some (-7 / 16) ∧ legendreDerivative (1 / 2 : ℚ) 3 = some (3 / 8) ∧
    legendreDerivative (-1 : ℚ) 4 = some (-10) ∧ lobattoStep 3 (1 / 2 : ℚ) = some (-1) := by
  refine ⟨?_, ?_, ?_, ?_⟩ <;> norm_num [legendre, legendreDerivative, legendrePair, lobattoStep]

end Verif.Shape
