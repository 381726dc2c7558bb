import Verif.Props.BoundaryInverse

/-! C77: location of points in a quad and in a boundary grid. -/

namespace Verif.BGrid

variable {K : Type} [Field K] [LinearOrder K] [IsStrictOrderedRing K]

theorem sqrt_sq {sqrt : K → K} (hs : IsSqrt sqrt) {P J : K} (hJ : 0 < J) (hP : P = J * J) : sqrt P = J := by
  obtain ⟨h1, h2⟩ := hs P (by rw [hP]; exact mul_pos hJ hJ)
  exact (mul_self_inj h1 hJ.le).mp (h2.trans hP)

/-- The roots when one root `z` and the derivative `d` there are known. -/
theorem roots {sqrt : K → K} (hs : IsSqrt sqrt) {eps B C D z J d : K} (he : 0 ≤ eps) (hB : Clear eps B) (hJ : eps < J)
    (hd : d = J ∨ d = -J) (hz : B * (z * z) + C * z + D = 0) (hder : (B + B) * z + C = d) :
    (B = 0 → quadSolve sqrt eps B C D = [z]) ∧
    (B ≠ 0 → ∃ w, B * (w * w) + C * w + D = 0 ∧
      quadSolve sqrt eps B C D = if d = J then [z, w] else [w, z]) ∧
    (∀ w, B * (w * w) + C * w + D = 0 → w ∈ quadSolve sqrt eps B C D) := by
  have hJ0 : 0 < J := lt_of_le_of_lt he hJ
  have hdd : d * d = J * J := by
    rcases hd with h | h <;> rw [h]; ring
  have hP : C * C - 4 * B * D = J * J := by
    rw [← hdd, ← hder]; linear_combination (-4 * B) * hz
  have hsq := sqrt_sq hs hJ0 hP
  by_cases hB0 : B = 0
  · have hC : C = d := by rw [← hder, hB0]; ring
    have hCabs : |C| = J := by
      rw [hC]
      rcases hd with h | h <;> rw [h]
      · exact abs_of_pos hJ0
      · rw [abs_neg]; exact abs_of_pos hJ0
    have hC0 : C ≠ 0 := by
      intro h; rw [h, abs_zero] at hCabs; exact hJ0.ne hCabs
    have hval : quadSolve sqrt eps B C D = [z] := by
      unfold quadSolve
      rw [if_neg (by rw [hB0, abs_zero]; exact not_lt.mpr he), if_pos (by rw [hCabs]; exact hJ)]
      congr 1
      rw [div_eq_iff hC0]
      rw [hB0] at hz
      linear_combination -hz
    refine ⟨fun _ => hval, fun h => absurd hB0 h, fun w hw => ?_⟩
    rw [hval, List.mem_singleton]
    have : C * (w - z) = 0 := by rw [hB0] at hw hz; linear_combination hw - hz
    rcases mul_eq_zero.mp this with h | h
    · exact absurd h hC0
    · linarith
  · have hBgt : eps < |B| := by
      rcases hB with h | h
      · exact absurd h hB0
      · exact h
    have h2B : B + B ≠ 0 := by
      intro h; apply hB0; linarith
    have hval : quadSolve sqrt eps B C D = [(-C + J) / (B + B), (-C - J) / (B + B)] := by
      unfold quadSolve
      rw [if_pos hBgt]
      dsimp only
      rw [if_pos (by rw [hP]; exact mul_pos hJ0 hJ0), hsq]
    have hr : ∀ s w : K, s * s = J * J → w = (-C + s) / (B + B) → B * (w * w) + C * w + D = 0 := by
      intro s w hss hw
      have h1 := (eq_div_iff h2B).mp hw
      have h4 : (4 * B) * (B * (w * w) + C * w + D) = 0 := by
        linear_combination (w * (B + B) + C + s) * h1 + hss - hP
      rcases mul_eq_zero.mp h4 with h | h
      · exact absurd (by linarith : B = 0) hB0
      · exact h
    refine ⟨fun h => absurd h hB0, fun _ => ?_, fun w hw => ?_⟩
    · rcases hd with h | h
      · refine ⟨(-C - J) / (B + B), hr (-J) _ (by ring) (by rw [sub_eq_add_neg]), ?_⟩
        rw [if_pos h, hval]
        congr 1
        rw [div_eq_iff h2B]; rw [h] at hder; linear_combination -hder
      · refine ⟨(-C + J) / (B + B), hr J _ rfl rfl, ?_⟩
        rw [if_neg (by rw [h]; intro h'; linarith), hval]
        congr 2
        rw [div_eq_iff h2B]; rw [h] at hder; linear_combination -hder
    · rw [hval]
      have h1 : ((B + B) * w + C - J) * ((B + B) * w + C + J) = 0 := by
        linear_combination (4 * B) * hw + hP
      rcases mul_eq_zero.mp h1 with h | h
      · refine List.mem_cons.mpr (Or.inl ?_)
        rw [eq_div_iff h2B]; linear_combination h
      · refine List.mem_cons.mpr (Or.inr (List.mem_singleton.mpr ?_))
        rw [eq_div_iff h2B]; linear_combination h

/-- One step of the second pass. -/
def pushY (tol eps : K) (A : Fin 4 → K) (XY : List (K × K)) (z : K) : List (K × K) :=
  if |A 0 * z + A 1| > tol ∧ ∀ p ∈ XY, ¬ |p.2 - z| ≤ eps then XY ++ [((A 3 - A 2 * z) / (A 0 * z + A 1), z)] else XY

theorem push_skip {tol eps : K} {A : Fin 4 → K} {XY : List (K × K)} {z : K} (he : 0 ≤ eps)
    (h : |A 0 * z + A 1| > tol → ∃ p ∈ XY, p.2 = z) : pushY tol eps A XY z = XY := by
  unfold pushY
  refine if_neg ?_
  rintro ⟨h1, h2⟩
  obtain ⟨p, hp, hpz⟩ := h h1
  exact h2 p hp (by rw [hpz, sub_self, abs_zero]; exact he)

/-- The solution list ends with the solution at which the Jacobian is positive and the first coordinate increases. -/
theorem solve_last {sqrt : K → K} (hs : IsSqrt sqrt) {eps : K} (he : 0 ≤ eps) (A B : Fin 4 → K) (x y : K)
    (hA : resid A x y = 0) (hB : resid B x y = 0)
    (hJ : eps < (A 0 * y + A 1) * (B 0 * x + B 2) - (A 0 * x + A 2) * (B 0 * y + B 1)) (hU : 0 < A 0 * y + A 1)
    (hlin : |A 0| < geoTol eps A B ∧ |B 0| < geoTol eps A B → A 0 = 0 ∧ B 0 = 0 ∧
      geoTol eps A B * geoTol eps A B ≤ A 1 * B 2 - B 1 * A 2)
    (h2x : Clear eps (A 0 * B 1 - B 0 * A 1)) (h2y : Clear eps (A 0 * B 2 - B 0 * A 2))
    (hsol : ∀ x' y', resid A x' y' = 0 → resid B x' y' = 0 →
      Clear (geoTol eps A B) (A 0 * x' + A 2) ∧ Clear (geoTol eps A B) (A 0 * y' + A 1)) :
    ∃ l, bilinearSolve sqrt eps A B = l ++ [(x, y)] ∧ ∀ p ∈ l, resid A p.1 p.2 = 0 ∧ resid B p.1 p.2 = 0 := by
  have ht := geoTol_nonneg he A B
  have htA := geoTol_ge he A B
  set tol := geoTol eps A B with htol
  set J := (A 0 * y + A 1) * (B 0 * x + B 2) - (A 0 * x + A 2) * (B 0 * y + B 1) with hJdef
  have hJ0 : 0 < J := lt_of_le_of_lt he hJ
  unfold bilinearSolve
  dsimp only
  rw [← htol]
  split
  · rename_i hl
    obtain ⟨a0, b0, hdet⟩ := hlin hl
    have hd : A 1 * B 2 - B 1 * A 2 = J := by rw [hJdef, a0, b0]; ring
    have hd0 : A 1 * B 2 - B 1 * A 2 ≠ 0 := by rw [hd]; exact hJ0.ne'
    rw [if_neg (by rw [abs_of_pos (by rw [hd]; exact hJ0)]; exact not_lt.mpr hdet)]
    refine ⟨[], ?_, by simp⟩
    unfold resid at hA hB
    rw [a0] at hA
    rw [b0] at hB
    rw [List.nil_append]
    congr 2
    · rw [div_eq_iff hd0]; linear_combination A 2 * hB - B 2 * hA
    · rw [div_eq_iff hd0]; linear_combination B 1 * hA - A 1 * hB
  · -- roots for x
    have hqx : (A 0 * B 1 - B 0 * A 1) * (x * x) + (B 0 * A 3 - A 0 * B 3 - (A 1 * B 2 - B 1 * A 2)) * x +
        (B 2 * A 3 - A 2 * B 3) = 0 := by
      have := qx_eq A B x y
      rw [hA, hB, mul_zero, mul_zero, sub_zero] at this
      exact this
    have hqy : (A 0 * B 2 - B 0 * A 2) * (y * y) + (B 0 * A 3 - A 0 * B 3 + (A 1 * B 2 - B 1 * A 2)) * y +
        (B 1 * A 3 - A 1 * B 3) = 0 := by
      have := qy_eq A B x y
      rw [hA, hB, mul_zero, mul_zero, sub_zero] at this
      exact this
    have hA' := hA
    have hB' := hB
    unfold resid at hA' hB'
    have hdx : ((A 0 * B 1 - B 0 * A 1) + (A 0 * B 1 - B 0 * A 1)) * x + (B 0 * A 3 - A 0 * B 3 - (A 1 * B 2 - B 1 * A 2)) = -J := by
      rw [hJdef]; linear_combination A 0 * hB' - B 0 * hA'
    have hdy : ((A 0 * B 2 - B 0 * A 2) + (A 0 * B 2 - B 0 * A 2)) * y + (B 0 * A 3 - A 0 * B 3 + (A 1 * B 2 - B 1 * A 2)) = J := by
      rw [hJdef]; linear_combination A 0 * hB' - B 0 * hA'
    obtain ⟨x1, x2, x3⟩ := roots hs he h2x hJ (Or.inr rfl) hqx hdx
    obtain ⟨y1, y2, y3⟩ := roots hs he h2y hJ (Or.inl rfl) hqy hdy
    set Z := quadSolve sqrt eps (A 0 * B 1 - B 0 * A 1) (B 0 * A 3 - A 0 * B 3 - (A 1 * B 2 - B 1 * A 2)) (B 2 * A 3 - A 2 * B 3)
      with hZ
    set W := quadSolve sqrt eps (A 0 * B 2 - B 0 * A 2) (B 0 * A 3 - A 0 * B 3 + (A 1 * B 2 - B 1 * A 2)) (B 1 * A 3 - A 1 * B 3)
      with hW
    have hneg : ¬ -J = J := by intro h; linarith
    -- shape of Z: all roots, x last
    have hZlast : ∃ lz, Z = lz ++ [x] ∧ ∀ w ∈ lz, qx A B w = 0 := by
      by_cases h : A 0 * B 1 - B 0 * A 1 = 0
      · exact ⟨[], x1 h, by simp⟩
      · obtain ⟨w, hw, he'⟩ := x2 h
        rw [if_neg hneg] at he'
        exact ⟨[w], he', by intro v hv; rw [List.mem_singleton.mp hv]; exact hw⟩
    obtain ⟨lz, hZe, hlz⟩ := hZlast
    have hZroot : ∀ w ∈ Z, qx A B w = 0 := by
      intro w hw
      rw [hZe, List.mem_append, List.mem_singleton] at hw
      rcases hw with h | h
      · exact hlz w h
      · rw [h]; exact hqx
    set XY := firstPass tol A Z with hXY
    have hXYsol : ∀ p ∈ XY, resid A p.1 p.2 = 0 ∧ resid B p.1 p.2 = 0 ∧ A 0 * p.1 + A 2 ≠ 0 := by
      intro p hp
      rw [hXY, mem_firstPass ht] at hp
      obtain ⟨p1, p2, p3⟩ := hp
      have hne := ne_of_abs_gt ht p2
      have r1 : resid A p.1 p.2 = 0 := by
        have := (eq_div_iff hne).mp p3
        unfold resid; linear_combination this
      refine ⟨r1, ?_, hne⟩
      have e := qx_eq A B p.1 p.2
      rw [hZroot _ p1, r1, mul_zero, sub_zero] at e
      rcases mul_eq_zero.mp e.symm with h | h
      · exact absurd h hne
      · exact h
    have hXYall : ∀ x' y', resid A x' y' = 0 → resid B x' y' = 0 → A 0 * x' + A 2 ≠ 0 → (x', y') ∈ XY := by
      intro x' y' r1 r2 hne
      rw [hXY, mem_firstPass ht]
      refine ⟨x3 x' ?_, ?_, ?_⟩
      · have e := qx_eq A B x' y'
        rw [r1, r2, mul_zero, mul_zero, sub_zero] at e
        exact e
      · rcases (hsol x' y' r1 r2).1 with h | h
        · exact absurd h hne
        · exact h
      · dsimp only
        rw [eq_div_iff hne]
        unfold resid at r1; linear_combination r1
    -- product identity
    have hprod : ∀ x' y', resid A x' y' = 0 → (A 0 * x' + A 2) * (A 0 * y' + A 1) = (A 0 * x + A 2) * (A 0 * y + A 1) := by
      intro x' y' r
      unfold resid at r
      linear_combination A 0 * r - A 0 * hA'
    -- solutions from the second pass
    have hsecond : ∀ z, qy A B z = 0 → A 0 * z + A 1 ≠ 0 →
        resid A ((A 3 - A 2 * z) / (A 0 * z + A 1)) z = 0 ∧ resid B ((A 3 - A 2 * z) / (A 0 * z + A 1)) z = 0 := by
      intro z hz hne
      set w := (A 3 - A 2 * z) / (A 0 * z + A 1) with hw
      have hw' := (eq_div_iff hne).mp hw
      have r1 : resid A w z = 0 := by unfold resid; linear_combination hw'
      refine ⟨r1, ?_⟩
      have e := qy_eq A B w z
      rw [hz, r1, mul_zero, sub_zero] at e
      rcases mul_eq_zero.mp e.symm with h | h
      · exact absurd h hne
      · exact h
    have hUtol : |A 0 * y + A 1| > tol := by
      rcases (hsol x y hA hB).2 with h | h
      · exact absurd h hU.ne'
      · exact h
    have hfold : secondPass tol eps A W XY = W.foldl (pushY tol eps A) XY := rfl
    rw [hfold]
    by_cases hV : A 0 * x + A 2 = 0
    · -- the solution comes from the second pass
      have hpush : pushY tol eps A XY y = XY ++ [(x, y)] := by
        unfold pushY
        rw [if_pos]
        · congr 3
          rw [div_eq_iff hU.ne']; linear_combination -hA'
        · refine ⟨hUtol, ?_⟩
          intro p hp hle
          obtain ⟨r1, _, r3⟩ := hXYsol p hp
          have e := hprod p.1 p.2 r1
          rw [hV, zero_mul] at e
          have hp0 : A 0 * p.2 + A 1 = 0 := by
            rcases mul_eq_zero.mp e with h | h
            · exact absurd h r3
            · exact h
          have e2 : A 0 * y + A 1 = A 0 * -(p.2 - y) := by linear_combination hp0
          rw [e2, abs_mul, abs_neg] at hUtol
          have : |A 0| * |p.2 - y| ≤ |A 0| * eps := mul_le_mul_of_nonneg_left hle (abs_nonneg _)
          linarith
      by_cases hq : A 0 * B 2 - B 0 * A 2 = 0
      · rw [y1 hq]
        refine ⟨XY, by rw [List.foldl_cons, hpush]; rfl, fun p hp => ⟨(hXYsol p hp).1, (hXYsol p hp).2.1⟩⟩
      · obtain ⟨w, hw, hWe⟩ := y2 hq
        rw [if_pos rfl] at hWe
        rw [hWe, List.foldl_cons, hpush, List.foldl_cons, List.foldl_nil]
        refine ⟨XY, ?_, fun p hp => ⟨(hXYsol p hp).1, (hXYsol p hp).2.1⟩⟩
        refine push_skip he fun hgt => ?_
        have hne := ne_of_abs_gt ht hgt
        obtain ⟨r1, r2⟩ := hsecond w hw hne
        set x2 := (A 3 - A 2 * w) / (A 0 * w + A 1) with hx2
        have e := hprod x2 w r1
        rw [hV, zero_mul] at e
        have hv2 : A 0 * x2 + A 2 = 0 := by
          rcases mul_eq_zero.mp e with h | h
          · exact h
          · exact absurd h hne
        have hA0 : A 0 ≠ 0 := by
          intro h
          apply hq
          rw [h, zero_mul, zero_add] at hV
          rw [h, hV]; ring
        have hxx : x2 = x := mul_left_cancel₀ hA0 (by linear_combination hv2 - hV)
        have hJe : J = (A 0 * y + A 1) * (B 0 * x + B 2) := by rw [hJdef, hV]; ring
        have hb : B 0 * x + B 2 ≠ 0 := by
          intro h; rw [hJe, h, mul_zero] at hJ0; exact absurd hJ0 (lt_irrefl _)
        rw [hxx] at r2
        unfold resid at r2
        have hwy : w = y := mul_left_cancel₀ hb (by linear_combination r2 - hB')
        exact ⟨(x, y), by simp, hwy.symm⟩
    · -- the solution comes from the first pass
      have hxtol : |A 0 * x + A 2| > tol := by
        rcases (hsol x y hA hB).1 with h | h
        · exact absurd h hV
        · exact h
      have hXYe : XY = firstPass tol A lz ++ [(x, y)] := by
        rw [hXY, hZe]
        unfold firstPass
        rw [List.filterMap_append]
        congr 1
        rw [List.filterMap_cons, if_pos hxtol]
        have : (A 3 - A 1 * x) / (A 0 * x + A 2) = y := by rw [div_eq_iff hV]; linear_combination -hA'
        rw [this]
        rfl
      have hmem : (x, y) ∈ XY := by rw [hXYe]; simp
      have hskip1 : pushY tol eps A XY y = XY := push_skip he fun _ => ⟨(x, y), hmem, rfl⟩
      have hfinal : W.foldl (pushY tol eps A) XY = XY := by
        by_cases hq : A 0 * B 2 - B 0 * A 2 = 0
        · rw [y1 hq, List.foldl_cons, hskip1]; rfl
        · obtain ⟨w, hw, hWe⟩ := y2 hq
          rw [if_pos rfl] at hWe
          rw [hWe, List.foldl_cons, hskip1, List.foldl_cons, List.foldl_nil]
          refine push_skip he fun hgt => ?_
          have hne := ne_of_abs_gt ht hgt
          obtain ⟨r1, r2⟩ := hsecond w hw hne
          refine ⟨_, hXYall _ w r1 r2 ?_, rfl⟩
          intro h0
          have e := hprod _ w r1
          rw [h0, zero_mul] at e
          rcases mul_eq_zero.mp e.symm with h | h
          · exact hV h
          · exact hU.ne' h
      rw [hfinal]
      refine ⟨firstPass tol A lz, hXYe, fun p hp => ?_⟩
      have hp' : p ∈ XY := by rw [hXYe]; simp [hp]
      exact ⟨(hXYsol p hp').1, (hXYsol p hp').2.1⟩

theorem dist2_nonneg (a b : K × K) : 0 ≤ dist2 a b := add_nonneg (mul_self_nonneg _) (mul_self_nonneg _)

theorem invStep_exact (q : Quad K) (c : K × K) (tol : K) (s : InvState K) (p : K × K) (hp : q.pos p.1 p.2 = c) :
    (invStep q c tol s p).res = p ∧ (p.1 < tol ∧ p.2 < tol → 0 < (invStep q c tol s p).inside) := by
  have hno : ¬ dist2 c (q.pos s.res.1 s.res.2) < dist2 c (q.pos p.1 p.2) := by
    rw [hp]
    have : dist2 c c = 0 := by unfold dist2; ring
    rw [this]
    exact not_lt.mpr (dist2_nonneg _ _)
  unfold invStep
  dsimp only
  by_cases h : p.1 < tol ∧ p.2 < tol
  · rw [if_pos h, if_neg fun h' => hno h'.2]
    exact ⟨rfl, fun _ => Nat.succ_pos _⟩
  · rw [if_neg h, if_neg fun h' => hno h'.2.2]
    exact ⟨rfl, fun h' => absurd h' h⟩

/-- **C77 (partial)**: the reference coordinates of a point of a convex quad are recovered. The quad has counterclockwise vertices (positive
Jacobian at the point) and its first two and last two vertices are ordered by the first coordinate; the point is the image of `(x, y)` in
the unit square; and no test against a tolerance treats a number that is not zero as zero. Then the inversion reports a solution
inside and returns `(x, y)`. (Missing: coefficients below the tolerances.) -/
theorem C77_inverse_partial {sqrt : K → K} (hs : IsSqrt sqrt) {eps epsOut : K} (he : 0 ≤ eps) (ho : 0 < epsOut) (q : Quad K)
    (x y : K) (hx1 : x ≤ 1) (hy0 : 0 ≤ y) (hy1 : y ≤ 1) (r0 : K × K)
    (hordX : (q.v 0).c.1 < (q.v 1).c.1 ∧ (q.v 3).c.1 < (q.v 2).c.1)
    (hJ : eps < jacobian q.xs q.ys x y) {A B : Fin 4 → K} (hAdef : A = coefX q (q.pos x y)) (hBdef : B = coefY q (q.pos x y))
    (hlin : |A 0| < geoTol eps A B ∧ |B 0| < geoTol eps A B → A 0 = 0 ∧ B 0 = 0 ∧
      geoTol eps A B * geoTol eps A B ≤ A 1 * B 2 - B 1 * A 2)
    (h2x : Clear eps (A 0 * B 1 - B 0 * A 1)) (h2y : Clear eps (A 0 * B 2 - B 0 * A 2))
    (hsol : ∀ x' y', q.pos x' y' = q.pos x y →
      Clear (geoTol eps A B) (A 0 * x' + A 2) ∧ Clear (geoTol eps A B) (A 0 * y' + A 1)) :
    0 < (q4inv sqrt q (q.pos x y) eps epsOut r0).1 ∧ (q4inv sqrt q (q.pos x y) eps epsOut r0).2 = (x, y) := by
  set c := q.pos x y with hc
  have hpos : ∀ x' y', resid A x' y' = 0 → resid B x' y' = 0 → q.pos x' y' = c := by
    intro x' y' h1 h2
    rw [hAdef, resid_x] at h1
    rw [hBdef, resid_y] at h2
    rw [(C45_map q x' y').1]
    exact Prod.ext (by dsimp only; linarith) (by dsimp only; linarith)
  have hA : resid A x y = 0 := by
    rw [hAdef, resid_x, hc, (C45_map q x y).1]; ring
  have hB : resid B x y = 0 := by
    rw [hBdef, resid_y, hc, (C45_map q x y).1]; ring
  have hJ' : jacobian q.xs q.ys x y = (A 0 * y + A 1) * (B 0 * x + B 2) - (A 0 * x + A 2) * (B 0 * y + B 1) := by
    rw [hAdef, hBdef]
    simp only [jacobian, coefX, coefY, Quad.xs, Quad.ys]
    simp
    ring
  have hU : 0 < A 0 * y + A 1 := by
    have e : A 0 * y + A 1 = (1 - y) * ((q.v 1).c.1 - (q.v 0).c.1) + y * ((q.v 2).c.1 - (q.v 3).c.1) := by
      rw [hAdef]; simp [coefX]; ring
    rw [e]
    rcases hy0.eq_or_lt with h | h
    · rw [← h]; simp; exact hordX.1
    · exact add_pos_of_nonneg_of_pos (mul_nonneg (by linarith) (by linarith [hordX.1])) (mul_pos h (by linarith [hordX.2]))
  obtain ⟨l, hl, hlp⟩ := solve_last hs he A B x y hA hB (by rw [← hJ']; exact hJ) hU hlin h2x h2y
    fun x' y' h1 h2 => hsol x' y' (hpos x' y' h1 h2)
  unfold q4inv
  rw [← hAdef, ← hBdef, hl, List.foldl_append, List.foldl_cons, List.foldl_nil]
  have := invStep_exact q c (1 + epsOut) (l.foldl (invStep q c (1 + epsOut)) ⟨0, 0, r0⟩) (x, y) hc.symm
  exact ⟨this.2 ⟨by dsimp only; linarith, by dsimp only; linarith⟩, this.1⟩

/-- **C77**: what a successful search returns: the number of a vertex within `10⁻⁸` of the point, or a quad of the grid whose bounding
box contains the point (up to `10⁻⁸`) and the result of the inversion in it. -/
theorem C77_find (sqrt : K → K) (grid : List (Quad K)) (c : K × K) (f : Found K) (h : find sqrt grid c = some f) :
    ∃ q ∈ grid, InBox c q.lo q.hi (1 / 10 ^ 8) ∧
      ((∃ m : Fin 4, f = .node (q.v m).i ∧ dist2 c (q.v m).c < (1 / 10 ^ 8) * (1 / 10 ^ 8)) ∨
       (∃ r, f = .inside q r ∧ (∀ m : Fin 4, ¬ dist2 c (q.v m).c < (1 / 10 ^ 8) * (1 / 10 ^ 8)) ∧
         0 < (q4inv sqrt q c (1 / 10 ^ 8) (1 / 10 ^ 8) (0, 0)).1 ∧ r = (q4inv sqrt q c (1 / 10 ^ 8) (1 / 10 ^ 8) (0, 0)).2)) := by
  unfold find at h
  obtain ⟨l1, q, l2, hgrid, hq, _⟩ := List.findSome?_eq_some_iff.mp h
  refine ⟨q, by rw [hgrid]; simp, ?_⟩
  unfold tryQuad at hq
  split at hq
  · rename_i hb
    refine ⟨⟨hb.1, hb.2.1, hb.2.2.1, hb.2.2.2⟩, ?_⟩
    split at hq
    · rename_i v hv
      left
      obtain rfl := Option.some.inj hq
      have h1 := List.find?_some hv
      have h2 := List.mem_of_find?_eq_some hv
      simp only [List.mem_cons, List.not_mem_nil, or_false] at h2
      have h1' := of_decide_eq_true h1
      rcases h2 with rfl | rfl | rfl | rfl
      · exact ⟨0, rfl, h1'⟩
      · exact ⟨1, rfl, h1'⟩
      · exact ⟨2, rfl, h1'⟩
      · exact ⟨3, rfl, h1'⟩
    · rename_i hv
      right
      dsimp only at hq
      split at hq
      · rename_i hpos
        obtain rfl := Option.some.inj hq
        refine ⟨_, rfl, ?_, hpos, rfl⟩
        intro m hm
        rw [List.find?_eq_none] at hv
        refine hv (q.v m) ?_ (decide_eq_true hm)
        fin_cases m <;> simp
      · exact absurd hq (by simp)
  · exact absurd hq (by simp)

/-- **C77**: a point of the grid is always found, if in the quad that contains it the inversion succeeds. -/
theorem C77_found (sqrt : K → K) (grid : List (Quad K)) (c : K × K) (q : Quad K) (hq : q ∈ grid)
    (hb : InBox c q.lo q.hi (1 / 10 ^ 8))
    (hin : 0 < (q4inv sqrt q c (1 / 10 ^ 8) (1 / 10 ^ 8) (0, 0)).1) : ∃ f, find sqrt grid c = some f := by
  rw [← Option.isSome_iff_exists]
  unfold find
  rw [List.findSome?_isSome_iff]
  refine ⟨q, hq, ?_⟩
  unfold tryQuad
  rw [if_pos (show bounded c q from ⟨hb.1, hb.2.1, hb.2.2.1, hb.2.2.2⟩)]
  split
  · rfl
  · dsimp only
    rw [if_pos hin]; rfl

theorem widen_spec (b : (K × K) × (K × K)) (c : K × K) :
    (widen b c).1.1 = min b.1.1 c.1 ∧ (widen b c).1.2 = min b.1.2 c.2 ∧ (widen b c).2.1 = max b.2.1 c.1 ∧
      (widen b c).2.2 = max b.2.2 c.2 := by
  unfold widen
  refine ⟨?_, ?_, ?_, ?_⟩ <;> simp only <;> split <;> rename_i h
  · rw [min_eq_right h.le]
  · rw [min_eq_left (not_lt.mp h)]
  · rw [min_eq_right h.le]
  · rw [min_eq_left (not_lt.mp h)]
  · rw [max_eq_right (le_of_lt h)]
  · rw [max_eq_left (not_lt.mp h)]
  · rw [max_eq_right (le_of_lt h)]
  · rw [max_eq_left (not_lt.mp h)]

theorem four_min (a b c d : K) : (∀ x ∈ [a, b, c, d], min (min (min a b) c) d ≤ x) ∧
    (min (min (min a b) c) d = a ∨ min (min (min a b) c) d = b ∨ min (min (min a b) c) d = c ∨ min (min (min a b) c) d = d) := by
  constructor
  · intro x hx
    simp only [List.mem_cons, List.not_mem_nil, or_false] at hx
    rcases hx with rfl | rfl | rfl | rfl
    · exact (min_le_left _ _).trans ((min_le_left _ _).trans (min_le_left _ _))
    · exact (min_le_left _ _).trans ((min_le_left _ _).trans (min_le_right _ _))
    · exact (min_le_left _ _).trans (min_le_right _ _)
    · exact min_le_right _ _
  · rcases min_choice (min (min a b) c) d with h | h
    · rw [h]
      rcases min_choice (min a b) c with h | h
      · rw [h]
        rcases min_choice a b with h | h <;> rw [h] <;> simp
      · rw [h]; simp
    · rw [h]; simp

theorem four_max (a b c d : K) : (∀ x ∈ [a, b, c, d], x ≤ max (max (max a b) c) d) ∧
    (max (max (max a b) c) d = a ∨ max (max (max a b) c) d = b ∨ max (max (max a b) c) d = c ∨ max (max (max a b) c) d = d) := by
  constructor
  · intro x hx
    simp only [List.mem_cons, List.not_mem_nil, or_false] at hx
    rcases hx with rfl | rfl | rfl | rfl
    · exact (le_max_left _ _).trans ((le_max_left _ _).trans (le_max_left _ _))
    · exact (le_max_right _ _).trans ((le_max_left _ _).trans (le_max_left _ _))
    · exact (le_max_right _ _).trans (le_max_left _ _)
    · exact le_max_right _ _
  · rcases max_choice (max (max a b) c) d with h | h
    · rw [h]
      rcases max_choice (max a b) c with h | h
      · rw [h]
        rcases max_choice a b with h | h <;> rw [h] <;> simp
      · rw [h]; simp
    · rw [h]; simp

/-- **C77 (boxes).** Every quad of a grid that is built by adding quads carries the smallest box around its vertices. -/
theorem C77_boxes (vs : List (Fin 4 → Vertex K)) : ∀ q ∈ vs.foldl add [], Boxed q := by
  have one : ∀ (grid : List (Quad K)) (v : Fin 4 → Vertex K), (∀ q ∈ grid, Boxed q) → ∀ q ∈ add grid v, Boxed q := by
    intro grid v hg q hq
    unfold add at hq
    simp only at hq
    split at hq
    · exact hg q hq
    · rcases List.mem_append.mp hq with hq | hq
      · exact hg q hq
      · obtain rfl := List.mem_singleton.mp hq
        obtain ⟨a1, a2, a3, a4⟩ := widen_spec (widen (widen ((v 0).c, (v 0).c) (v 1).c) (v 2).c) (v 3).c
        obtain ⟨b1, b2, b3, b4⟩ := widen_spec (widen ((v 0).c, (v 0).c) (v 1).c) (v 2).c
        obtain ⟨c1, c2, c3, c4⟩ := widen_spec ((v 0).c, (v 0).c) (v 1).c
        rw [b1, c1] at a1
        rw [b2, c2] at a2
        rw [b3, c3] at a3
        rw [b4, c4] at a4
        have h1 := four_min (v 0).c.1 (v 1).c.1 (v 2).c.1 (v 3).c.1
        have h2 := four_min (v 0).c.2 (v 1).c.2 (v 2).c.2 (v 3).c.2
        have h3 := four_max (v 0).c.1 (v 1).c.1 (v 2).c.1 (v 3).c.1
        have h4 := four_max (v 0).c.2 (v 1).c.2 (v 2).c.2 (v 3).c.2
        rw [← a1] at h1
        rw [← a2] at h2
        rw [← a3] at h3
        rw [← a4] at h4
        refine ⟨?_, ?_, ?_, ?_, ?_⟩
        · intro m
          refine ⟨h1.1 _ ?_, h3.1 _ ?_, h2.1 _ ?_, h4.1 _ ?_⟩ <;> fin_cases m <;> simp
        · rcases h1.2 with h | h | h | h
          · exact ⟨0, h.symm⟩
          · exact ⟨1, h.symm⟩
          · exact ⟨2, h.symm⟩
          · exact ⟨3, h.symm⟩
        · rcases h3.2 with h | h | h | h
          · exact ⟨0, h.symm⟩
          · exact ⟨1, h.symm⟩
          · exact ⟨2, h.symm⟩
          · exact ⟨3, h.symm⟩
        · rcases h2.2 with h | h | h | h
          · exact ⟨0, h.symm⟩
          · exact ⟨1, h.symm⟩
          · exact ⟨2, h.symm⟩
          · exact ⟨3, h.symm⟩
        · rcases h4.2 with h | h | h | h
          · exact ⟨0, h.symm⟩
          · exact ⟨1, h.symm⟩
          · exact ⟨2, h.symm⟩
          · exact ⟨3, h.symm⟩
  have all : ∀ (vs : List (Fin 4 → Vertex K)) (grid : List (Quad K)), (∀ q ∈ grid, Boxed q) → ∀ q ∈ vs.foldl add grid, Boxed q := by
    intro vs
    induction vs with
    | nil => intro grid h; exact h
    | cons v vs ih => intro grid h; exact ih _ (one grid v h)
  exact all vs [] (by simp)

theorem bilinear_between (f : Fin 4 → K) (lo hi x y : K) (h : ∀ m, lo ≤ f m ∧ f m ≤ hi) (hx0 : 0 ≤ x) (hx1 : x ≤ 1) (hy0 : 0 ≤ y)
    (hy1 : y ≤ 1) : lo ≤ bilinear f x y ∧ bilinear f x y ≤ hi := by
  have w0 : 0 ≤ (1 - x) * (1 - y) := mul_nonneg (by linarith) (by linarith)
  have w1 : 0 ≤ x * (1 - y) := mul_nonneg hx0 (by linarith)
  have w2 : 0 ≤ x * y := mul_nonneg hx0 hy0
  have w3 : 0 ≤ (1 - x) * y := mul_nonneg (by linarith) hy0
  have k0 := mul_le_mul_of_nonneg_left (h 0).1 w0
  have k1 := mul_le_mul_of_nonneg_left (h 1).1 w1
  have k2 := mul_le_mul_of_nonneg_left (h 2).1 w2
  have k3 := mul_le_mul_of_nonneg_left (h 3).1 w3
  have l0 := mul_le_mul_of_nonneg_left (h 0).2 w0
  have l1 := mul_le_mul_of_nonneg_left (h 1).2 w1
  have l2 := mul_le_mul_of_nonneg_left (h 2).2 w2
  have l3 := mul_le_mul_of_nonneg_left (h 3).2 w3
  unfold bilinear
  constructor <;> nlinarith

/-- **C77 (points are found, `_partial`).** In a grid built by adding quads, a point of a quad of which the inversion is well conditioned
(hypotheses of `C77_inverse_partial`) is found. Missing: ill conditioned quads, and that the quad that is found is the one that contains the
point (`C77_violated_outside`). -/
theorem C77_located_partial {sqrt : K → K} (hs : IsSqrt sqrt) (vs : List (Fin 4 → Vertex K)) (q : Quad K) (hq : q ∈ vs.foldl add [])
    (x y : K) (hx0 : 0 ≤ x) (hx1 : x ≤ 1) (hy0 : 0 ≤ y) (hy1 : y ≤ 1)
    (hordX : (q.v 0).c.1 < (q.v 1).c.1 ∧ (q.v 3).c.1 < (q.v 2).c.1)
    (hJ : 1 / 10 ^ 8 < jacobian q.xs q.ys x y) {A B : Fin 4 → K} (hAdef : A = coefX q (q.pos x y)) (hBdef : B = coefY q (q.pos x y))
    (hlin : |A 0| < geoTol (1 / 10 ^ 8) A B ∧ |B 0| < geoTol (1 / 10 ^ 8) A B → A 0 = 0 ∧ B 0 = 0 ∧
      geoTol (1 / 10 ^ 8) A B * geoTol (1 / 10 ^ 8) A B ≤ A 1 * B 2 - B 1 * A 2)
    (h2x : Clear (1 / 10 ^ 8) (A 0 * B 1 - B 0 * A 1)) (h2y : Clear (1 / 10 ^ 8) (A 0 * B 2 - B 0 * A 2))
    (hsol : ∀ x' y', q.pos x' y' = q.pos x y →
      Clear (geoTol (1 / 10 ^ 8) A B) (A 0 * x' + A 2) ∧ Clear (geoTol (1 / 10 ^ 8) A B) (A 0 * y' + A 1)) :
    ∃ f, find sqrt (vs.foldl add []) (q.pos x y) = some f := by
  have he : (0 : K) < 1 / 10 ^ 8 := by positivity
  have hb := C77_boxes vs q hq
  refine C77_found sqrt _ _ q hq ?_ (C77_inverse_partial hs he.le he q x y hx1 hy0 hy1 (0, 0) hordX hJ hAdef hBdef hlin h2x h2y hsol).1
  have hm := C45_map q x y
  have h1 := bilinear_between q.xs q.lo.1 q.hi.1 x y (fun m => ⟨(hb.1 m).1, (hb.1 m).2.1⟩) hx0 hx1 hy0 hy1
  have h2 := bilinear_between q.ys q.lo.2 q.hi.2 x y (fun m => ⟨(hb.1 m).2.2.1, (hb.1 m).2.2.2⟩) hx0 hx1 hy0 hy1
  rw [hm.1]
  refine ⟨?_, ?_, ?_, ?_⟩ <;> simp only <;> linarith [h1.1, h1.2, h2.1, h2.2]

/-- The first quad of the counterexample. -/
def leaning : Quad ℚ := ⟨![⟨0, (0, 0)⟩, ⟨1, (1, 0)⟩, ⟨2, (2, 1)⟩, ⟨3, (1, 1)⟩], (0, 0), (2, 1)⟩
/-- Its left neighbour. -/
def leaningLeft : Quad ℚ := ⟨![⟨4, (-1, 0)⟩, ⟨0, (0, 0)⟩, ⟨3, (1, 1)⟩, ⟨5, (0, 1)⟩], (-1, 0), (1, 1)⟩

/-- Code of a result, to compare results: number of the first vertex of the quad and coordinates. -/
def Found.code : Found ℚ → Option (Int × (ℚ × ℚ))
  | .node _ => none
  | .inside q r => some ((q.v 0).i, r)

/-- **C77 is violated**: in a grid of two neighbouring parallelograms the search for the point `(1/4, 1/2)` of the second returns the
first, which does not contain it, with a negative reference coordinate: only the upper bound of the coordinates is checked. -/
theorem C77_violated_outside :
    (find (fun x => x) [leaning, leaningLeft] ((1 / 4, 1 / 2) : ℚ × ℚ)).map Found.code = some (some (0, (-1 / 4, 1 / 2))) ∧
    leaningLeft.pos (3 / 4) (1 / 2) = (1 / 4, 1 / 2) ∧
    ∀ x y : ℚ, 0 ≤ x → leaning.pos x y ≠ (1 / 4, 1 / 2) := by
  refine ⟨by decide +kernel, by decide +kernel, ?_⟩
  intro x y hx h
  have h1 := congrArg Prod.fst h
  have h2 := congrArg Prod.snd h
  rw [(C45_map leaning x y).1] at h1 h2
  simp [bilinear, leaning, Quad.xs, Quad.ys] at h1 h2
  linarith

/-- The bounding boxes of these quads are those that the grid computes. -/
example : (add (add [] leaning.v) leaningLeft.v).map (fun q => (q.lo, q.hi)) =
    [(leaning.lo, leaning.hi), (leaningLeft.lo, leaningLeft.hi)] := by decide +kernel

/-- A trapezoid and the point with reference coordinates `(1/3, 1/2)` meet the conditions of `C77_inverse_partial`. -/
example : let q : Quad ℝ := mkQuad (0, 0) (2, 0) (1, 1) (0, 1)
    0 < (q4inv Real.sqrt q (q.pos (1 / 3) (1 / 2)) (1 / 10 ^ 8) (1 / 10 ^ 8) (0, 0)).1 ∧
    (q4inv Real.sqrt q (q.pos (1 / 3) (1 / 2)) (1 / 10 ^ 8) (1 / 10 ^ 8) (0, 0)).2 = (1 / 3, 1 / 2) := by
  intro q
  have hA : coefX q (q.pos (1 / 3) (1 / 2)) = ![-1, 2, 0, 1 / 2] := by
    funext i; fin_cases i <;> simp [q, coefX, mkQuad, Quad.pos, evalBasis] <;> norm_num
  have hB : coefY q (q.pos (1 / 3) (1 / 2)) = ![0, 0, 1, 1 / 2] := by
    funext i; fin_cases i <;> simp [q, coefY, mkQuad, Quad.pos, evalBasis] <;> norm_num
  have ht : geoTol (1 / 10 ^ 8) ![(-1 : ℝ), 2, 0, 1 / 2] ![0, 0, 1, 1 / 2] = 2 / 10 ^ 8 := by
    simp [geoTol]; norm_num
  refine C77_inverse_partial (fun x hx => ⟨Real.sqrt_nonneg x, Real.mul_self_sqrt hx.le⟩) (by norm_num) (by norm_num) q
    (1 / 3) (1 / 2) (by norm_num) (by norm_num) (by norm_num) (0, 0) (by simp [q, mkQuad]) ?_ hA.symm hB.symm ?_ ?_ ?_ ?_
  · simp [q, jacobian, mkQuad, Quad.xs, Quad.ys]; norm_num
  · rw [ht]; intro h; norm_num at h
  · left; norm_num
  · right; simp; norm_num
  · rw [ht]
    intro x' y' h
    have h1 := congrArg Prod.fst h
    have h2 := congrArg Prod.snd h
    simp [q, mkQuad, Quad.pos, evalBasis] at h1 h2
    have e2 : y' = 1 / 2 := by linarith
    rw [e2] at h1
    have e1 : x' = 1 / 3 := by linarith
    rw [e1, e2]
    constructor
    · right; simp; norm_num
    · right; norm_num [abs_of_nonneg]

end Verif.BGrid
