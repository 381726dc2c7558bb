import Verif.Model.BoundaryGrid
import Verif.Spec.BoundaryGrid
import Mathlib.Data.List.Basic
import Mathlib.Data.Real.Sqrt
import Mathlib.Tactic.Ring
import Mathlib.Tactic.Linarith
import Mathlib.Tactic.LinearCombination
import Mathlib.Tactic.NormNum
import Mathlib.Tactic.FinCases
import Mathlib.Tactic.Positivity
import Mathlib.Tactic.FieldSimp
import Mathlib.Algebra.Field.Rat
import Mathlib.Algebra.Order.Ring.Unbundled.Rat
import Mathlib.Algebra.Order.Field.Rat

/-! C45 and C77: inversion of the bilinear map of a quad, and location of points. -/

namespace Verif.BGrid

variable {K : Type} [Field K] [LinearOrder K] [IsStrictOrderedRing K]

/-! ### The bilinear map -/

/-- **C45**: the map from reference coordinates is the bilinear map; its weights sum to one, and it maps the corners of the unit square
to the vertices. -/
theorem C45_map (q : Quad K) (xi eta : K) :
    q.pos xi eta = (bilinear q.xs xi eta, bilinear q.ys xi eta) ∧
    evalBasis xi eta 0 + evalBasis xi eta 1 + evalBasis xi eta 2 + evalBasis xi eta 3 = 1 ∧
    q.pos 0 0 = (q.v 0).c ∧ q.pos 1 0 = (q.v 1).c ∧ q.pos 1 1 = (q.v 2).c ∧ q.pos 0 1 = (q.v 3).c := by
  refine ⟨Prod.ext ?_ ?_, ?_, Prod.ext ?_ ?_, Prod.ext ?_ ?_, Prod.ext ?_ ?_, Prod.ext ?_ ?_⟩ <;>
    simp [Quad.pos, evalBasis, bilinear, Quad.xs, Quad.ys] <;> ring

theorem resid_x (q : Quad K) (c : K × K) (x y : K) : resid (coefX q c) x y = bilinear q.xs x y - c.1 := by
  simp [resid, coefX, bilinear, Quad.xs]; ring

theorem resid_y (q : Quad K) (c : K × K) (x y : K) : resid (coefY q c) x y = bilinear q.ys x y - c.2 := by
  simp [resid, coefY, bilinear, Quad.ys]; ring

/-! ### Roots -/

theorem quad_residual {sqrt : K → K} (hs : IsSqrt sqrt) {eps B C D z : K} (he : 0 ≤ eps) (hz : z ∈ quadSolve sqrt eps B C D) :
    |B * (z * z) + C * z + D| ≤ max (eps * (z * z)) (eps ^ 3) := by
  unfold quadSolve at hz
  have hmax : 0 ≤ max (eps * (z * z)) (eps ^ 3) := le_max_of_le_right (by positivity)
  split at hz
  · rename_i hB
    have hB0 : B ≠ 0 := by
      intro h; rw [h, abs_zero] at hB; exact absurd hB (not_lt.mpr he)
    have h2B : B + B ≠ 0 := by
      intro h; apply hB0; linarith
    dsimp only at hz
    split at hz
    · rename_i hP
      obtain ⟨_, hsq⟩ := hs _ hP
      have key : B * (z * z) + C * z + D = 0 := by
        have h4 : 4 * B * (B * (z * z) + C * z + D) = 0 := by
          rcases List.mem_cons.mp hz with h | h
          · have e : (B + B) * z = -C + sqrt (C * C - 4 * B * D) := by rw [h]; field_simp
            have : ((B + B) * z + C) * ((B + B) * z + C) = C * C - 4 * B * D := by rw [e]; linear_combination hsq
            linear_combination this
          · have h := List.mem_singleton.mp h
            have e : (B + B) * z = -C - sqrt (C * C - 4 * B * D) := by rw [h]; field_simp
            have : ((B + B) * z + C) * ((B + B) * z + C) = C * C - 4 * B * D := by rw [e]; linear_combination hsq
            linear_combination this
        rcases mul_eq_zero.mp h4 with h | h
        · exact absurd (by linarith : B = 0) hB0
        · exact h
      rw [key, abs_zero]; exact hmax
    · split at hz
      · rename_i hP1 hP2
        have hz' : z = -C / (B + B) := by
          simpa using hz
        have e : (B + B) * z = -C := by rw [hz']; field_simp
        have h4 : 4 * B * (B * (z * z) + C * z + D) = -(C * C - 4 * B * D) := by
          linear_combination ((B + B) * z + C) * e
        have habs : 4 * |B| * |B * (z * z) + C * z + D| ≤ eps ^ 4 := by
          rw [show (4 : K) * |B| = |4 * B| by rw [abs_mul]; simp, ← abs_mul, h4, abs_le]
          constructor <;> linarith
        refine le_trans ?_ (le_max_right _ _)
        rcases he.eq_or_lt with h0 | h0
        · rw [← h0] at hP2
          exact absurd hP2 (by simpa using hP1)
        · by_contra hcon
          push Not at hcon
          have h5 : eps * eps ^ 3 < |B| * |B * (z * z) + C * z + D| :=
            mul_lt_mul'' hB hcon he (by positivity)
          have h6 : 0 ≤ |B| * |B * (z * z) + C * z + D| := by positivity
          have h7 : eps * eps ^ 3 = eps ^ 4 := by ring
          linarith
      · simp at hz
  · rename_i hB
    split at hz
    · rename_i hC
      have hC0 : C ≠ 0 := by
        intro h; rw [h, abs_zero] at hC; exact absurd hC (not_lt.mpr he)
      have hz' : z = -D / C := by simpa using hz
      have e : C * z + D = 0 := by rw [hz']; field_simp; ring
      have e2 : B * (z * z) + C * z + D = B * (z * z) := by linear_combination e
      rw [e2, abs_mul, abs_mul_self]
      exact le_trans (mul_le_mul_of_nonneg_right (not_lt.mp hB) (mul_self_nonneg z)) (le_max_left _ _)
    · simp at hz

theorem quad_exact {sqrt : K → K} (hs : IsSqrt sqrt) {eps B C D z : K} (he : 0 ≤ eps) (hB : Clear eps B)
    (hP : ¬ (-eps ^ 4 < C * C - 4 * B * D ∧ C * C - 4 * B * D < 0)) (hz : z ∈ quadSolve sqrt eps B C D) :
    B * (z * z) + C * z + D = 0 := by
  unfold quadSolve at hz
  split at hz
  · rename_i hB
    have hB0 : B ≠ 0 := by
      intro h; rw [h, abs_zero] at hB; exact absurd hB (not_lt.mpr he)
    have h2B : B + B ≠ 0 := by
      intro h; apply hB0; linarith
    dsimp only at hz
    have h4 : 4 * B * (B * (z * z) + C * z + D) = 0 := by
      split at hz
      · rename_i hP
        obtain ⟨_, hsq⟩ := hs _ hP
        rcases List.mem_cons.mp hz with h | h
        · have e : (B + B) * z = -C + sqrt (C * C - 4 * B * D) := by rw [h]; field_simp
          have : ((B + B) * z + C) * ((B + B) * z + C) = C * C - 4 * B * D := by rw [e]; linear_combination hsq
          linear_combination this
        · have h := List.mem_singleton.mp h
          have e : (B + B) * z = -C - sqrt (C * C - 4 * B * D) := by rw [h]; field_simp
          have : ((B + B) * z + C) * ((B + B) * z + C) = C * C - 4 * B * D := by rw [e]; linear_combination hsq
          linear_combination this
      · split at hz
        · rename_i hP1 hP2
          have hz' : z = -C / (B + B) := by
            simpa using hz
          have e : (B + B) * z = -C := by rw [hz']; field_simp
          have hP0 : C * C - 4 * B * D = 0 := by
            rcases lt_trichotomy (C * C - 4 * B * D) 0 with h | h | h
            · exact absurd ⟨hP2, h⟩ hP
            · exact h
            · exact absurd h hP1
          linear_combination ((B + B) * z + C) * e - hP0
        · simp at hz
    rcases mul_eq_zero.mp h4 with h | h
    · exact absurd (by linarith : B = 0) hB0
    · exact h
  · rename_i hB1
    have hB0 : B = 0 := by
      rcases hB with h | h
      · exact h
      · exact absurd h hB1
    split at hz
    · rename_i hC
      have hC0 : C ≠ 0 := by
        intro h; rw [h, abs_zero] at hC; exact absurd hC (not_lt.mpr he)
      have hz' : z = -D / C := by simpa using hz
      have e : C * z + D = 0 := by rw [hz']; field_simp; ring
      rw [hB0]; linear_combination e
    · simp at hz

/-! ### Elimination -/

/-- Coefficients of the equation for the first coordinate. -/
def qx (A B : Fin 4 → K) (x : K) : K :=
  (A 0 * B 1 - B 0 * A 1) * (x * x) + (B 0 * A 3 - A 0 * B 3 - (A 1 * B 2 - B 1 * A 2)) * x + (B 2 * A 3 - A 2 * B 3)

/-- Coefficients of the equation for the second coordinate. -/
def qy (A B : Fin 4 → K) (y : K) : K :=
  (A 0 * B 2 - B 0 * A 2) * (y * y) + (B 0 * A 3 - A 0 * B 3 + (A 1 * B 2 - B 1 * A 2)) * y + (B 1 * A 3 - A 1 * B 3)

theorem qx_eq (A B : Fin 4 → K) (x y : K) :
    qx A B x = (A 0 * x + A 2) * resid B x y - (B 0 * x + B 2) * resid A x y := by
  unfold qx resid; ring

theorem qy_eq (A B : Fin 4 → K) (x y : K) :
    qy A B y = (A 0 * y + A 1) * resid B x y - (B 0 * y + B 1) * resid A x y := by
  unfold qy resid; ring

theorem disc_y (A B : Fin 4 → K) : disc A B =
  (B 0 * A 3 - A 0 * B 3 + (A 1 * B 2 - B 1 * A 2)) * (B 0 * A 3 - A 0 * B 3 + (A 1 * B 2 - B 1 * A 2)) -
    4 * (A 0 * B 2 - B 0 * A 2) * (B 1 * A 3 - A 1 * B 3) := by
  unfold disc; ring

theorem geoTol_nonneg {eps : K} (he : 0 ≤ eps) (A B : Fin 4 → K) : 0 ≤ geoTol eps A B := by
  unfold geoTol
  refine mul_nonneg ?_ he
  have : ∀ (l : List K) (t : K), 0 ≤ t → 0 ≤ l.foldl (fun t a => if |a| > t then |a| else t) t := by
    intro l
    induction l with
    | nil => intro t ht; exact ht
    | cons a l ih =>
      intro t ht
      rw [List.foldl_cons]
      refine ih _ ?_
      split
      · exact abs_nonneg a
      · exact ht
  exact this _ 0 le_rfl

theorem geoTol_ge {eps : K} (he : 0 ≤ eps) (A B : Fin 4 → K) : |A 0| * eps ≤ geoTol eps A B := by
  unfold geoTol
  refine mul_le_mul_of_nonneg_right ?_ he
  have : ∀ (l : List K) (t : K), t ≤ l.foldl (fun t a => if |a| > t then |a| else t) t := by
    intro l
    induction l with
    | nil => intro t; exact le_rfl
    | cons a l ih =>
      intro t
      rw [List.foldl_cons]
      refine le_trans ?_ (ih _)
      split
      · rename_i h; exact h.le
      · exact le_rfl
  rw [List.foldl_cons]
  refine le_trans ?_ (this _ _)
  split
  · exact le_rfl
  · rename_i h; exact not_lt.mp h

theorem mem_firstPass {tol : K} {A : Fin 4 → K} {Z : List K} {p : K × K} (ht : 0 ≤ tol) :
    p ∈ firstPass tol A Z ↔ p.1 ∈ Z ∧ |A 0 * p.1 + A 2| > tol ∧ p.2 = (A 3 - A 1 * p.1) / (A 0 * p.1 + A 2) := by
  unfold firstPass
  rw [List.mem_filterMap]
  constructor
  · rintro ⟨z, hz, h⟩
    split at h
    · rename_i hc
      obtain rfl := Option.some.inj h
      exact ⟨hz, hc, rfl⟩
    · exact absurd h (by simp)
  · rintro ⟨h1, h2, h3⟩
    refine ⟨p.1, h1, ?_⟩
    rw [if_pos h2, ← h3]

theorem mem_secondPass {tol eps : K} {A : Fin 4 → K} {Z : List K} {XY : List (K × K)} {p : K × K}
    (h : p ∈ secondPass tol eps A Z XY) :
    p ∈ XY ∨ (p.2 ∈ Z ∧ |A 0 * p.2 + A 1| > tol ∧ p.1 = (A 3 - A 2 * p.2) / (A 0 * p.2 + A 1)) := by
  unfold secondPass at h
  induction Z generalizing XY with
  | nil => exact Or.inl h
  | cons z Z ih =>
    rw [List.foldl_cons] at h
    rcases ih h with h' | h'
    · split at h'
      · rename_i hc
        rcases List.mem_append.mp h' with h'' | h''
        · exact Or.inl h''
        · obtain rfl := List.mem_singleton.mp h''
          exact Or.inr ⟨by simp, hc.1, rfl⟩
      · exact Or.inl h'
    · exact Or.inr ⟨by simp [h'.1], h'.2⟩

theorem ne_of_abs_gt {tol v : K} (ht : 0 ≤ tol) (h : |v| > tol) : v ≠ 0 := by
  intro hv; rw [hv, abs_zero] at h; exact absurd h (not_lt.mpr ht)

/-- **C45**: how far a returned pair can be from a solution. Linear equations are used when the mixed terms are below the
tolerance: then both residuals are at most the tolerance times the product of the coordinates. Otherwise the first equation holds,
and the residual of the second is bounded by the tolerances of the quadratic equation. -/
theorem C45_residual {sqrt : K → K} (hs : IsSqrt sqrt) {eps : K} (he : 0 ≤ eps) (A B : Fin 4 → K) (x y : K)
    (h : (x, y) ∈ bilinearSolve sqrt eps A B) :
    (|resid A x y| ≤ geoTol eps A B * |x * y| ∧ |resid B x y| ≤ geoTol eps A B * |x * y|) ∨
    (resid A x y = 0 ∧ |A 0 * x + A 2| > geoTol eps A B ∧
      |A 0 * x + A 2| * |resid B x y| ≤ max (eps * (x * x)) (eps ^ 3)) ∨
    (resid A x y = 0 ∧ |A 0 * y + A 1| > geoTol eps A B ∧
      |A 0 * y + A 1| * |resid B x y| ≤ max (eps * (y * y)) (eps ^ 3)) := by
  have ht := geoTol_nonneg he A B
  unfold bilinearSolve at h
  dsimp only at h
  split at h
  · rename_i hlin
    split at h
    · simp at h
    · rename_i hdet
      left
      have h := List.mem_singleton.mp h
      obtain ⟨hx, hy⟩ := Prod.mk.inj h
      have hd0 : A 1 * B 2 - B 1 * A 2 ≠ 0 := by
        intro hd
        rw [hd, abs_zero] at hdet
        have h1 : 0 < geoTol eps A B := lt_of_le_of_lt (abs_nonneg _) hlin.1
        exact hdet (mul_pos h1 h1)
      have hx' := (eq_div_iff hd0).mp hx
      have hy' := (eq_div_iff hd0).mp hy
      have e1 : A 1 * x + A 2 * y = A 3 := mul_right_cancel₀ hd0 (by linear_combination A 1 * hx' + A 2 * hy')
      have e2 : B 1 * x + B 2 * y = B 3 := mul_right_cancel₀ hd0 (by linear_combination B 1 * hx' + B 2 * hy')
      have r1 : resid A x y = A 0 * (x * y) := by unfold resid; linear_combination e1
      have r2 : resid B x y = B 0 * (x * y) := by unfold resid; linear_combination e2
      rw [r1, r2, abs_mul (A 0), abs_mul (B 0)]
      exact ⟨mul_le_mul_of_nonneg_right hlin.1.le (abs_nonneg _), mul_le_mul_of_nonneg_right hlin.2.le (abs_nonneg _)⟩
  · right
    rcases mem_secondPass h with h | ⟨h1, h2, h3⟩
    · left
      rw [mem_firstPass ht] at h
      obtain ⟨h1, h2, h3⟩ := h
      have hne := ne_of_abs_gt ht h2
      dsimp only at h1 h2 h3 hne
      have r1 : resid A x y = 0 := by
        unfold resid
        have : y * (A 0 * x + A 2) = A 3 - A 1 * x := (eq_div_iff hne).mp h3
        linear_combination this
      refine ⟨r1, h2, ?_⟩
      have := quad_residual hs he h1
      have e := qx_eq A B x y
      rw [r1, mul_zero, sub_zero] at e
      rw [← abs_mul, ← e]
      exact this
    · right
      have hne := ne_of_abs_gt ht h2
      dsimp only at h1 h2 h3 hne
      have r1 : resid A x y = 0 := by
        unfold resid
        have : x * (A 0 * y + A 1) = A 3 - A 2 * y := (eq_div_iff hne).mp h3
        linear_combination this
      refine ⟨r1, h2, ?_⟩
      have := quad_residual hs he h1
      have e := qy_eq A B x y
      rw [r1, mul_zero, sub_zero] at e
      rw [← abs_mul, ← e]
      exact this

/-- Every pair returned for coefficients that no tolerance test confuses with zero solves both equations. -/
theorem solve_exact {sqrt : K → K} (hs : IsSqrt sqrt) {eps : K} (he : 0 ≤ eps) (A B : Fin 4 → K)
    (hlin : |A 0| < geoTol eps A B ∧ |B 0| < geoTol eps A B → A 0 = 0 ∧ B 0 = 0)
    (h2x : Clear eps (A 0 * B 1 - B 0 * A 1)) (h2y : Clear eps (A 0 * B 2 - B 0 * A 2))
    (hd : ¬ (-eps ^ 4 < disc A B ∧ disc A B < 0)) (x y : K) (h : (x, y) ∈ bilinearSolve sqrt eps A B) :
    resid A x y = 0 ∧ resid B x y = 0 := by
  have ht := geoTol_nonneg he A B
  unfold bilinearSolve at h
  dsimp only at h
  split at h
  · rename_i hl
    obtain ⟨a0, b0⟩ := hlin hl
    split at h
    · simp at h
    · rename_i hdet
      have h := List.mem_singleton.mp h
      obtain ⟨hx, hy⟩ := Prod.mk.inj h
      have hd0 : A 1 * B 2 - B 1 * A 2 ≠ 0 := by
        intro hd
        rw [hd, abs_zero] at hdet
        have h1 : 0 < geoTol eps A B := lt_of_le_of_lt (abs_nonneg _) hl.1
        exact hdet (mul_pos h1 h1)
      have hx' := (eq_div_iff hd0).mp hx
      have hy' := (eq_div_iff hd0).mp hy
      have e1 : A 1 * x + A 2 * y = A 3 := mul_right_cancel₀ hd0 (by linear_combination A 1 * hx' + A 2 * hy')
      have e2 : B 1 * x + B 2 * y = B 3 := mul_right_cancel₀ hd0 (by linear_combination B 1 * hx' + B 2 * hy')
      unfold resid
      rw [a0, b0]
      exact ⟨by linear_combination e1, by linear_combination e2⟩
  · rcases mem_secondPass h with h | ⟨h1, h2, h3⟩
    · rw [mem_firstPass ht] at h
      obtain ⟨h1, h2, h3⟩ := h
      have hne := ne_of_abs_gt ht h2
      dsimp only at h1 h2 h3 hne
      have r1 : resid A x y = 0 := by
        unfold resid
        have : y * (A 0 * x + A 2) = A 3 - A 1 * x := (eq_div_iff hne).mp h3
        linear_combination this
      refine ⟨r1, ?_⟩
      have := quad_exact hs he h2x hd h1
      have e := qx_eq A B x y
      rw [r1, mul_zero, sub_zero] at e
      have e2 : (A 0 * x + A 2) * resid B x y = 0 := e.symm.trans this
      rcases mul_eq_zero.mp e2 with h | h
      · exact absurd h hne
      · exact h
    · have hne := ne_of_abs_gt ht h2
      dsimp only at h1 h2 h3 hne
      have r1 : resid A x y = 0 := by
        unfold resid
        have : x * (A 0 * y + A 1) = A 3 - A 2 * y := (eq_div_iff hne).mp h3
        linear_combination this
      refine ⟨r1, ?_⟩
      have := quad_exact hs he h2y (by rw [← disc_y]; exact hd) h1
      have e := qy_eq A B x y
      rw [r1, mul_zero, sub_zero] at e
      have e2 : (A 0 * y + A 1) * resid B x y = 0 := e.symm.trans this
      rcases mul_eq_zero.mp e2 with h | h
      · exact absurd h hne
      · exact h

/-- **C45 (partial)**: every pair of reference coordinates that the inversion considers is mapped to the point, if no test against a
tolerance treats a number that is not zero as zero. (Missing: coefficients below the tolerances, see `C45_residual` for what holds and
`C45_violated` for a counterexample.) -/
theorem C45_exact_partial {sqrt : K → K} (hs : IsSqrt sqrt) {eps : K} (he : 0 ≤ eps) (q : Quad K) (c : K × K)
    (hlin : |coefX q c 0| < geoTol eps (coefX q c) (coefY q c) ∧ |coefY q c 0| < geoTol eps (coefX q c) (coefY q c) →
      coefX q c 0 = 0 ∧ coefY q c 0 = 0)
    (h2x : Clear eps (coefX q c 0 * coefY q c 1 - coefY q c 0 * coefX q c 1))
    (h2y : Clear eps (coefX q c 0 * coefY q c 2 - coefY q c 0 * coefX q c 2))
    (hd : ¬ (-eps ^ 4 < disc (coefX q c) (coefY q c) ∧ disc (coefX q c) (coefY q c) < 0)) (x y : K)
    (h : (x, y) ∈ bilinearSolve sqrt eps (coefX q c) (coefY q c)) : q.pos x y = c := by
  obtain ⟨h1, h2⟩ := solve_exact hs he _ _ hlin h2x h2y hd x y h
  rw [resid_x] at h1
  rw [resid_y] at h2
  rw [(C45_map q x y).1]
  exact Prod.ext (by dsimp only; linarith) (by dsimp only; linarith)

/-- A quad with given vertices. -/
def mkQuad (a b c d : K × K) : Quad K := ⟨![⟨0, a⟩, ⟨1, b⟩, ⟨2, c⟩, ⟨3, d⟩], a, c⟩

/-- **C45 is violated**: for a square with one corner moved by `10⁻¹⁰` the computed coordinates of the point `(1/2, 1/2)` are mapped to
another point. -/
theorem C45_violated : ∃ (q : Quad ℚ) (c : ℚ × ℚ) (sqrt : ℚ → ℚ),
    (bilinearSolve sqrt (1 / 10 ^ 8) (coefX q c) (coefY q c)).map (fun p => decide (q.pos p.1 p.2 = c)) = [false] := by
  refine ⟨mkQuad (0, 0) (1, 0) (1 + 1 / 10 ^ 10, 1) (0, 1), (1 / 2, 1 / 2), fun x => x, by decide +kernel⟩

/-- The square root of real numbers is a square root. -/
example : IsSqrt Real.sqrt := fun x hx => ⟨Real.sqrt_nonneg x, Real.mul_self_sqrt hx.le⟩

/-- A trapezoid meets the conditions of `C45_exact_partial`, and the point `(1/2, 1/2)` is found. -/
example : let q : Quad ℚ := mkQuad (0, 0) (2, 0) (1, 1) (0, 1)
    let c : ℚ × ℚ := (1 / 2, 1 / 2)
    ¬ (|coefX q c 0| < geoTol (1 / 10 ^ 8) (coefX q c) (coefY q c)) ∧
    coefX q c 0 * coefY q c 1 - coefY q c 0 * coefX q c 1 = 0 ∧ coefX q c 0 * coefY q c 2 - coefY q c 0 * coefX q c 2 = -1 ∧
    disc (coefX q c) (coefY q c) = 9 / 4 ∧
    bilinearSolve (fun x => if x = 9 / 4 then 3 / 2 else 0) (1 / 10 ^ 8) (coefX q c) (coefY q c) = [(1 / 3, 1 / 2)] := by
  decide +kernel

end Verif.BGrid
