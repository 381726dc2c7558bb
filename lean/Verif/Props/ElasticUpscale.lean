import Verif.Lemmas.ElasticRun
import Verif.Lemmas.ElasticExample

/-!
C94: the upscaled elasticity matrix is the stiffness of the sample: symmetric, positive semidefinite, not above the volume average.
C95: scaling and monotonicity.
-/

namespace Verif.ElasticUp

open Verif.Elastic Verif.Asm

variable {K : Type} [Field K] [LinearOrder K] [IsStrictOrderedRing K]

theorem energy_ep (D : Cell K → Fin 6 → Fin 6 → K) (cells : List (Cell K)) (x : Fin 6 → K) (v : Nat → Nat → K) :
    energy D cells x v = ep D cells (fun c q i => uniform x c q i + strainAt v c q i) (fun c q i => uniform x c q i + strainAt v c q i) := rfl

/-- **C94** (stiffness). For every sound sample and every exact solver all six load cases give a result. The matrix of the results is
symmetric, and its quadratic form at a mean strain `x`, times the volume, is the smallest energy of `x` with any displacements that
satisfy the constraints; the smallest energy is attained. -/
theorem C94_stiffness (S : Sample K) (D : Cell K → Fin 6 → Fin 6 → K) (hS : Sound S D)
    (solver : Nat → (Nat → Nat → K) → (Nat → K) → Nat → K) (hX : Exact solver) :
    ∃ (h : Handler K) (R : Fin 6 → Fin 6 → K), resolveChains S.tol S.fuel S.handler = some h ∧
      (∀ m : Fin 6, upscaleCase solver S m = some (R m)) ∧ (∀ m n, R m n = R n m) ∧
      ∀ x : Fin 6 → K,
        (∃ v, Admissible h v ∧ volume S.cells * ∑ m, x m * ∑ n, R m n * x n = energy D S.cells x v) ∧
        ∀ v, Admissible h v → volume S.cells * ∑ m, x m * ∑ n, R m n * x n ≤ energy D S.cells x v := by
  obtain ⟨h, hR⟩ := ready S D hS
  obtain ⟨u, R, h1, h2, h3⟩ := case_ok hR hS hX
  have hz := hR.zero hS
  -- total strains of the load cases
  let T : Fin 6 → Cell K → QP K 6 → Fin 6 → K := fun m c q k => uniform (Pi.single m 1) c q k + strainOf h (u m) c q k
  have hT : ∀ m i, R m i * volume S.cells = ep D S.cells (T i) (T m) := by
    intro m i
    rw [h3]
    change _ = ep D S.cells (fun c q k => uniform (Pi.single i 1) c q k + strainOf h (u i) c q k) (T m)
    rw [ep_add_left, h2 m (u i), add_zero]
  let y : (Fin 6 → K) → Nat → K := fun x k => ∑ m, x m * u m k
  have hTx : ∀ x : Fin 6 → K, (fun (c : Cell K) (q : QP K 6) (i : Fin 6) => ∑ m, x m * T m c q i) =
      fun c q i => uniform x c q i + strainAt (expandSolution (preprocess h) (y x)) c q i := by
    intro x
    funext c q i
    change ∑ m, x m * (uniform (Pi.single m 1) c q i + strainOf h (u m) c q i) = _
    simp only [mul_add, Finset.sum_add_distrib]
    congr 1
    · unfold uniform
      simp [Pi.single_apply]
    · unfold strainOf strainAt
      simp only [Finset.mul_sum]
      rw [Finset.sum_comm]
      refine Finset.sum_congr rfl fun j _ => ?_
      rw [expand_sum (preprocess h) hz, Finset.mul_sum]
      exact Finset.sum_congr rfl fun m _ => by ring
  have hquad : ∀ x : Fin 6 → K, volume S.cells * ∑ m, x m * ∑ n, R m n * x n =
      energy D S.cells x (expandSolution (preprocess h) (y x)) := by
    intro x
    rw [energy_ep, ← hTx x, ep_sum_left, Finset.mul_sum]
    refine Finset.sum_congr rfl fun m _ => ?_
    rw [ep_symm hS.symm, ep_sum_left, Finset.mul_sum, Finset.mul_sum, Finset.mul_sum]
    refine Finset.sum_congr rfl fun n _ => ?_
    rw [← hT m n]; ring
  -- equilibrium of the combined load
  have hbal : ∀ (x : Fin 6 → K) (z : Nat → K), ep D S.cells (strainOf h z)
      (fun c q i => uniform x c q i + strainAt (expandSolution (preprocess h) (y x)) c q i) = 0 := by
    intro x z
    rw [← hTx x, ep_symm hS.symm, ep_sum_left]
    refine Finset.sum_eq_zero fun m _ => ?_
    rw [ep_symm hS.symm, h2 m z, mul_zero]
  refine ⟨h, R, hR.eq, h1, fun m n => ?_, fun x => ⟨⟨_, expand_admissible hR hS (y x), hquad x⟩, fun v hv => ?_⟩⟩
  · apply mul_right_cancel₀ hS.volume.ne'
    rw [hT, hT, ep_symm hS.symm]
  · obtain ⟨z, hzv⟩ := admissible_expand hR hS v hv
    have hst := strainAt_congr hS hR.nodes _ _ (fun n i hn hi => (hzv n i hn (by rw [hR.dim]; exact hi)).symm)
    -- difference of the solutions
    let d : Nat → K := fun k => z k + (-1) * y x k
    have hd : ∀ c ∈ S.cells, ∀ q i, uniform x c q i + strainAt v c q i =
        (uniform x c q i + strainAt (expandSolution (preprocess h) (y x)) c q i) + strainOf h d c q i := by
      intro c hc q i
      rw [hst c hc q i]
      unfold strainOf
      have : strainAt (expandSolution (preprocess h) d) c q i = strainAt (expandSolution (preprocess h) z) c q i -
          strainAt (expandSolution (preprocess h) (y x)) c q i := by
        have e : expandSolution (preprocess h) d = fun n i => expandSolution (preprocess h) z n i +
            (fun n i => (-1) * expandSolution (preprocess h) (y x) n i) n i := by
          funext n i
          exact expand_add (preprocess h) hz (-1) z (y x) n i
        rw [e, strainAt_add, strainAt_smul]; ring
      rw [this]; ring
    have he : energy D S.cells x v = ep D S.cells
        (fun c q i => (uniform x c q i + strainAt (expandSolution (preprocess h) (y x)) c q i) + strainOf h d c q i)
        (fun c q i => (uniform x c q i + strainAt (expandSolution (preprocess h) (y x)) c q i) + strainOf h d c q i) := by
      rw [energy_ep]
      unfold ep
      congr 1
      apply List.map_congr_left
      intro c hc
      congr 1
      apply List.map_congr_left
      intro q _
      congr 1
      refine Finset.sum_congr rfl fun i _ => ?_
      beta_reduce
      rw [hd c hc q i]
      congr 1
      refine Finset.sum_congr rfl fun k _ => ?_
      rw [hd c hc q k]
    rw [he, ep_quad hS.symm, hbal x d, hquad x, energy_ep]
    have := ep_nonneg hS.weight hS.psd (strainOf h d)
    linarith

/-- The hypotheses are met: two sheared hexahedra of different materials, corners fixed, middle nodes tied, moduli scaled by 100. -/
example : ∃ solver, Exact solver ∧ Sound (bar 100 1 7) (barD 100) ∧
    ∃ (h : Handler ℚ) (R : Fin 6 → Fin 6 → ℚ), resolveChains (1 / 10 ^ 8) 36 barHandler = some h ∧
      (∀ m : Fin 6, upscaleCase solver (bar 100 1 7) m = some (R m)) := by
  obtain ⟨solver, hX⟩ := exists_exact (K := ℚ)
  have hS := bar_sound 100 1 7 (by norm_num) (by norm_num)
  obtain ⟨h, R, h1, h2, -⟩ := C94_stiffness (bar 100 1 7) (barD 100) hS solver hX
  exact ⟨solver, hX, hS, h, R, h1, h2⟩

theorem zero_admissible (h : Handler K) : Admissible h fun _ _ => 0 :=
  ⟨fun _ _ _ => rfl, fun _ _ m _ _ _ => by simp⟩

theorem energy_zero (D : Cell K → Fin 6 → Fin 6 → K) (cells : List (Cell K)) (x : Fin 6 → K) :
    energy D cells x (fun _ _ => 0) = (cells.map fun c => (c.pts.map fun q => q.w).sum * ∑ i, x i * ∑ k, D c i k * x k).sum := by
  unfold energy
  congr 1
  apply List.map_congr_left
  intro c _
  rw [← List.sum_map_mul_right]
  congr 1
  apply List.map_congr_left
  intro q _
  have : ∀ i, strainAt (fun _ _ => (0 : K)) c q i = 0 := fun i => by unfold strainAt; simp
  simp only [this, add_zero]

/-- **C94** (bounds). The matrix of the six load cases is symmetric, positive semidefinite and not above the volume average of the
elasticity matrices. -/
theorem C94_bounds (S : Sample K) (D : Cell K → Fin 6 → Fin 6 → K) (hS : Sound S D)
    (solver : Nat → (Nat → Nat → K) → (Nat → K) → Nat → K) (hX : Exact solver) :
    ∃ R : Fin 6 → Fin 6 → K, (∀ m : Fin 6, upscaleCase solver S m = some (R m)) ∧ (∀ m n, R m n = R n m) ∧
      ∀ x : Fin 6 → K, 0 ≤ ∑ m, x m * ∑ n, R m n * x n ∧
        volume S.cells * ∑ m, x m * ∑ n, R m n * x n ≤
          (S.cells.map fun c => (c.pts.map fun q => q.w).sum * ∑ i, x i * ∑ k, D c i k * x k).sum := by
  obtain ⟨h, R, -, h1, h2, h3⟩ := C94_stiffness S D hS solver hX
  refine ⟨R, h1, h2, fun x => ⟨?_, ?_⟩⟩
  · obtain ⟨v, -, hv⟩ := (h3 x).1
    have := ep_nonneg hS.weight hS.psd (fun c q i => uniform x c q i + strainAt v c q i)
    rw [← energy_ep, ← hv] at this
    exact nonneg_of_mul_nonneg_right this hS.volume
  · rw [← energy_zero]
    exact (h3 x).2 _ (zero_admissible h)

/-- Symmetric matrices with the same quadratic form are equal. -/
theorem eq_of_form {R R' : Fin 6 → Fin 6 → K} (hs : ∀ m n, R m n = R n m) (hs' : ∀ m n, R' m n = R' n m)
    (hq : ∀ x : Fin 6 → K, ∑ m, x m * ∑ n, R m n * x n = ∑ m, x m * ∑ n, R' m n * x n) : R = R' := by
  have key : ∀ (Q : Fin 6 → Fin 6 → K) (a b : Fin 6), (∀ m n, Q m n = Q n m) →
      ∑ m, (Pi.single a 1 + Pi.single b 1 : Fin 6 → K) m * ∑ n, Q m n * (Pi.single a 1 + Pi.single b 1 : Fin 6 → K) n =
        Q a a + 2 * Q a b + Q b b := by
    intro Q a b hQ
    simp only [Pi.add_apply, Pi.single_apply, mul_add, add_mul, mul_ite, mul_one, mul_zero, Finset.sum_add_distrib, ite_mul,
      one_mul, zero_mul, Finset.sum_ite_eq', Finset.mem_univ, if_true]
    rw [hQ b a]; ring
  have hdiag : ∀ a, R a a = R' a a := by
    intro a
    have := hq (Pi.single a 1)
    simpa [Pi.single_apply] using this
  funext a b
  have := hq (Pi.single a 1 + Pi.single b 1)
  rw [key R a b hs, key R' a b hs', hdiag a, hdiag b] at this
  linarith

/-- Two samples with the same geometry and constraints, whose elasticity matrices are related cell by cell. -/
structure Alike (S S' : Sample K) (P : Cell K → Cell K → Prop) : Prop where
  handler : S.handler = S'.handler
  tol : S.tol = S'.tol
  fuel : S.fuel = S'.fuel
  cells : List.Forall₂ (fun c c' => c.vertex = c'.vertex ∧ c.pts = c'.pts ∧ P c c') S.cells S'.cells

theorem Alike.volume {S S' : Sample K} {P : Cell K → Cell K → Prop} (h : Alike S S' P) : volume S.cells = volume S'.cells := by
  have key : ∀ l l' : List (Cell K), List.Forall₂ (fun c c' => c.vertex = c'.vertex ∧ c.pts = c'.pts ∧ P c c') l l' →
      ElasticUp.volume l = ElasticUp.volume l' := by
    intro l l' hl
    unfold ElasticUp.volume
    induction hl with
    | nil => rfl
    | cons h1 _ ih => simp only [List.map_cons, List.sum_cons, ih, h1.2.1]
  exact key _ _ h.cells

theorem strainAt_pts (v : Nat → Nat → K) (c c' : Cell K) (hv : c.vertex = c'.vertex) (q : QP K 6) (i : Fin 6) :
    strainAt v c q i = strainAt v c' q i := by
  unfold strainAt; rw [hv]

theorem energy_le (D D' : Cell K → Fin 6 → Fin 6 → K) (l l' : List (Cell K))
    (h : List.Forall₂ (fun c c' => c.vertex = c'.vertex ∧ c.pts = c'.pts ∧
      ∀ e : Fin 6 → K, ∑ i, e i * ∑ k, D c i k * e k ≤ ∑ i, e i * ∑ k, D' c' i k * e k) l l')
    (hw : ∀ c ∈ l, ∀ q ∈ c.pts, 0 ≤ q.w) (x : Fin 6 → K) (v : Nat → Nat → K) : energy D l x v ≤ energy D' l' x v := by
  unfold energy
  induction h with
  | nil => simp
  | @cons c c' l l' h1 _ ih =>
    simp only [List.map_cons, List.sum_cons]
    refine add_le_add ?_ (ih fun c hc => hw c (List.mem_cons_of_mem _ hc))
    rw [← h1.2.1]
    apply List.sum_le_sum
    intro q hq
    simp only [← strainAt_pts v c c' h1.1]
    exact mul_le_mul_of_nonneg_left (h1.2.2 _) (hw c List.mem_cons_self q hq)

/-- **C95** (monotonicity). In a sample with the same geometry and constraints whose elasticity matrices are nowhere smaller the
upscaled matrix is not smaller. -/
theorem C95_monotone (S S' : Sample K) (D D' : Cell K → Fin 6 → Fin 6 → K) (hS : Sound S D) (hS' : Sound S' D')
    (hA : Alike S S' fun c c' => ∀ e : Fin 6 → K, ∑ i, e i * ∑ k, D c i k * e k ≤ ∑ i, e i * ∑ k, D' c' i k * e k)
    (solver solver' : Nat → (Nat → Nat → K) → (Nat → K) → Nat → K) (hX : Exact solver) (hX' : Exact solver') :
    ∃ R R' : Fin 6 → Fin 6 → K, (∀ m : Fin 6, upscaleCase solver S m = some (R m)) ∧
      (∀ m : Fin 6, upscaleCase solver' S' m = some (R' m)) ∧
      ∀ x : Fin 6 → K, ∑ m, x m * ∑ n, R m n * x n ≤ ∑ m, x m * ∑ n, R' m n * x n := by
  obtain ⟨h, R, he, h1, -, h3⟩ := C94_stiffness S D hS solver hX
  obtain ⟨h', R', he', h1', -, h3'⟩ := C94_stiffness S' D' hS' solver' hX'
  have hh : h = h' := by
    rw [hA.tol, hA.fuel, hA.handler, he'] at he
    exact (Option.some.inj he).symm
  refine ⟨R, R', h1, h1', fun x => ?_⟩
  obtain ⟨v, hv, hve⟩ := (h3' x).1
  have h4 := (h3 x).2 v (by rw [hh]; exact hv)
  have h5 := energy_le D D' S.cells S'.cells hA.cells hS.weight x v
  rw [← hve, ← hA.volume] at h5
  exact le_of_mul_le_mul_left (h4.trans h5) hS.volume

/-- The two-cell sample with a second cell that is stiffer. -/
example : Alike (bar 0 1 7) (bar 100 1 8) fun c c' =>
    ∀ e : Fin 6 → ℚ, ∑ i, e i * ∑ k, barD 0 c i k * e k ≤ ∑ i, e i * ∑ k, barD 100 c' i k * e k := by
  refine ⟨rfl, rfl, rfl, List.Forall₂.cons ⟨rfl, rfl, fun e => le_of_eq ?_⟩ (List.Forall₂.cons ⟨rfl, rfl, fun e => ?_⟩ List.Forall₂.nil)⟩
  · have h1 : barD 0 (barCell [0, 1, 3, 4, 6, 7, 9, 10] 1 (.iso (1 * if (0 : ℚ) < 0 then 0 else 1) (1 / 4) 0)) =
        barD 100 (barCell [0, 1, 3, 4, 6, 7, 9, 10] 1 (.iso (1 * if (0 : ℚ) < 100 then 100 else 1) (1 / 4) 0)) := by
      change (isoC6 ((1 * if (0 : ℚ) < 0 then 0 else 1) / if (0 : ℚ) < 0 then 0 else 1) (1 / 4) false).2 =
        (isoC6 ((1 * if (0 : ℚ) < 100 then 100 else 1) / if (0 : ℚ) < 100 then 100 else 1) (1 / 4) false).2
      norm_num
    rw [h1]
  · have h7 : barD 0 (barCell [1, 2, 4, 5, 7, 8, 10, 11] 2 (.iso (7 * if (0 : ℚ) < 0 then 0 else 1) (1 / 4) 0)) =
        (isoC6 7 (1 / 4) false).2 := by
      change (isoC6 ((7 * if (0 : ℚ) < 0 then 0 else 1) / if (0 : ℚ) < 0 then 0 else 1) (1 / 4) false).2 = _
      norm_num
    have h8 : barD 100 (barCell [1, 2, 4, 5, 7, 8, 10, 11] 2 (.iso (8 * if (0 : ℚ) < 100 then 100 else 1) (1 / 4) 0)) =
        fun i k => (isoC6 7 (1 / 4) false).2 i k * (8 / 7) := by
      rw [← iso_scaled]
      change (isoC6 ((8 * if (0 : ℚ) < 100 then 100 else 1) / if (0 : ℚ) < 100 then 100 else 1) (1 / 4) false).2 = _
      norm_num
    rw [h7, h8]
    obtain ⟨C, hC, -, hp⟩ := C43_posdef (7 : ℚ) (1 / 4) (by norm_num) (by norm_num) (by norm_num)
    rw [hC]
    have h0 : 0 ≤ ∑ i, e i * ∑ k, C i k * e k := by
      by_cases he : e = 0
      · subst he; simp
      · exact (hp e he).le
    have : ∑ i, e i * ∑ k, C i k * (8 / 7) * e k = 8 / 7 * ∑ i, e i * ∑ k, C i k * e k := by
      rw [Finset.mul_sum]
      refine Finset.sum_congr rfl fun i _ => ?_
      rw [mul_left_comm (8 / 7 : ℚ)]
      congr 1
      rw [Finset.mul_sum]
      exact Finset.sum_congr rfl fun k _ => by ring
    change _ ≤ ∑ i, e i * ∑ k, C i k * (8 / 7) * e k
    rw [this]
    linarith

/-- **C95** (numerical scaling). The result depends on the elasticity matrices, the geometry and the constraints only: not on the
scaling of the moduli (`Escale`, `Emin`), the colouring, the content of uninitialised memory or the choice among exact solvers. -/
theorem C95_independent (S S' : Sample K) (D D' : Cell K → Fin 6 → Fin 6 → K) (hS : Sound S D) (hS' : Sound S' D')
    (hA : Alike S S' fun c c' => D c = D' c')
    (solver solver' : Nat → (Nat → Nat → K) → (Nat → K) → Nat → K) (hX : Exact solver) (hX' : Exact solver') (m : Fin 6) :
    upscaleCase solver S m = upscaleCase solver' S' m := by
  have hA1 : Alike S S' fun c c' => ∀ e : Fin 6 → K, ∑ i, e i * ∑ k, D c i k * e k ≤ ∑ i, e i * ∑ k, D' c' i k * e k :=
    ⟨hA.handler, hA.tol, hA.fuel, hA.cells.imp fun c c' h => ⟨h.1, h.2.1, fun e => by rw [h.2.2]⟩⟩
  have hA2 : Alike S' S fun c c' => ∀ e : Fin 6 → K, ∑ i, e i * ∑ k, D' c i k * e k ≤ ∑ i, e i * ∑ k, D c' i k * e k :=
    ⟨hA.handler.symm, hA.tol.symm, hA.fuel.symm, (hA.cells.imp fun c c' h => ⟨h.1.symm, h.2.1.symm, fun e => by rw [h.2.2]⟩).flip⟩
  obtain ⟨R, R', h1, h2, h3⟩ := C95_monotone S S' D D' hS hS' hA1 solver solver' hX hX'
  obtain ⟨Q', Q, g1, g2, g3⟩ := C95_monotone S' S D' D hS' hS hA2 solver' solver hX' hX
  obtain ⟨P, p1, p2, -⟩ := C94_bounds S D hS solver hX
  obtain ⟨P', q1, q2, -⟩ := C94_bounds S' D' hS' solver' hX'
  have e1 : R = P := funext fun m => Option.some.inj ((h1 m).symm.trans (p1 m))
  have e2 : Q = P := funext fun m => Option.some.inj ((g2 m).symm.trans (p1 m))
  have e3 : R' = P' := funext fun m => Option.some.inj ((h2 m).symm.trans (q1 m))
  have e4 : Q' = P' := funext fun m => Option.some.inj ((g1 m).symm.trans (q1 m))
  rw [e1, e3] at h3
  rw [e2, e4] at g3
  have : P = P' := eq_of_form p2 q2 fun x => le_antisymm (h3 x) (g3 x)
  rw [p1 m, q1 m, this]

/-- Unscaled and scaled reading of the same sample. -/
example : Alike (bar 0 1 7) (bar 100 1 7) fun c c' => barD 0 c = barD 100 c' := by
  refine ⟨rfl, rfl, rfl, List.Forall₂.cons ⟨rfl, rfl, ?_⟩ (List.Forall₂.cons ⟨rfl, rfl, ?_⟩ List.Forall₂.nil)⟩
  · change (isoC6 ((1 * if (0 : ℚ) < 0 then 0 else 1) / if (0 : ℚ) < 0 then 0 else 1) (1 / 4) false).2 =
      (isoC6 ((1 * if (0 : ℚ) < 100 then 100 else 1) / if (0 : ℚ) < 100 then 100 else 1) (1 / 4) false).2
    norm_num
  · change (isoC6 ((7 * if (0 : ℚ) < 0 then 0 else 1) / if (0 : ℚ) < 0 then 0 else 1) (1 / 4) false).2 =
      (isoC6 ((7 * if (0 : ℚ) < 100 then 100 else 1) / if (0 : ℚ) < 100 then 100 else 1) (1 / 4) false).2
    norm_num

theorem energy_factor (D D' : Cell K → Fin 6 → Fin 6 → K) (a : K) (l l' : List (Cell K))
    (h : List.Forall₂ (fun c c' => c.vertex = c'.vertex ∧ c.pts = c'.pts ∧ ∀ i k, D' c' i k = a * D c i k) l l')
    (x : Fin 6 → K) (v : Nat → Nat → K) : energy D' l' x v = a * energy D l x v := by
  unfold energy
  induction h with
  | nil => simp
  | @cons c c' l l' h1 _ ih =>
    simp only [List.map_cons, List.sum_cons]
    rw [ih, mul_add, ← h1.2.1]
    congr 1
    rw [← List.sum_map_mul_left]
    congr 1
    apply List.map_congr_left
    intro q _
    simp only [← strainAt_pts v c c' h1.1, h1.2.2]
    rw [mul_left_comm]
    congr 1
    rw [Finset.mul_sum]
    refine Finset.sum_congr rfl fun i _ => ?_
    rw [mul_left_comm a]
    congr 1
    rw [Finset.mul_sum]
    exact Finset.sum_congr rfl fun k _ => by ring

/-- **C95** (change of units). Multiplying all elasticity matrices by a positive number multiplies the upscaled matrix by it. -/
theorem C95_factor (S S' : Sample K) (D D' : Cell K → Fin 6 → Fin 6 → K) (hS : Sound S D) (hS' : Sound S' D') (a : K) (ha : 0 < a)
    (hA : Alike S S' fun c c' => ∀ i k, D' c' i k = a * D c i k)
    (solver solver' : Nat → (Nat → Nat → K) → (Nat → K) → Nat → K) (hX : Exact solver) (hX' : Exact solver') :
    ∃ R : Fin 6 → Fin 6 → K, (∀ m : Fin 6, upscaleCase solver S m = some (R m)) ∧
      ∀ m : Fin 6, upscaleCase solver' S' m = some fun i => a * R m i := by
  obtain ⟨h, R, he, h1, h2, h3⟩ := C94_stiffness S D hS solver hX
  obtain ⟨h', R', he', h1', h2', h3'⟩ := C94_stiffness S' D' hS' solver' hX'
  have hh : h = h' := by
    rw [hA.tol, hA.fuel, hA.handler, he'] at he
    exact (Option.some.inj he).symm
  subst hh
  have hfac : ∀ x v, energy D' S'.cells x v = a * energy D S.cells x v := fun x v => energy_factor D D' a _ _ hA.cells x v
  have hq : R' = fun m n => a * R m n := by
    refine eq_of_form h2' (fun m n => by rw [h2]) fun x => ?_
    have e : ∑ m, x m * ∑ n, a * R m n * x n = a * ∑ m, x m * ∑ n, R m n * x n := by
      rw [Finset.mul_sum]
      refine Finset.sum_congr rfl fun m _ => ?_
      rw [mul_left_comm a]
      congr 1
      rw [Finset.mul_sum]
      exact Finset.sum_congr rfl fun n _ => by ring
    rw [e]
    apply mul_left_cancel₀ hS.volume.ne'
    apply le_antisymm
    · obtain ⟨v, hv, hve⟩ := (h3 x).1
      have := (h3' x).2 v hv
      rw [← hA.volume, hfac, ← hve] at this
      refine this.trans (le_of_eq (by ring))
    · obtain ⟨v, hv, hve⟩ := (h3' x).1
      have := (h3 x).2 v hv
      rw [← hA.volume, hfac] at hve
      rw [hve, mul_left_comm]
      exact mul_le_mul_of_nonneg_left this ha.le
  refine ⟨R, h1, fun m => ?_⟩
  rw [h1' m, hq]

/-- A sample in other units. -/
example : Alike (bar 0 1 7) (bar 0 1000 7000) fun c c' => ∀ i k, barD 0 c' i k = 1000 * barD 0 c i k := by
  have key : ∀ (E : ℚ) (vx : List Nat) (l : ℚ) (i k : Fin 6),
      barD 0 (barCell vx l (.iso (E * 1000 * if (0 : ℚ) < 0 then 0 else 1) (1 / 4) 0)) i k =
        1000 * barD 0 (barCell vx l (.iso (E * if (0 : ℚ) < 0 then 0 else 1) (1 / 4) 0)) i k := by
    intro E vx l i k
    change (isoC6 ((E * 1000 * if (0 : ℚ) < 0 then 0 else 1) / if (0 : ℚ) < 0 then 0 else 1) (1 / 4) false).2 i k =
      1000 * (isoC6 ((E * if (0 : ℚ) < 0 then 0 else 1) / if (0 : ℚ) < 0 then 0 else 1) (1 / 4) false).2 i k
    rw [if_neg (lt_irrefl _)]
    simp only [mul_one, div_one]
    rw [iso_scaled, mul_comm]
  refine ⟨rfl, rfl, rfl, List.Forall₂.cons ⟨rfl, rfl, fun i k => ?_⟩ (List.Forall₂.cons ⟨rfl, rfl, fun i k => ?_⟩ List.Forall₂.nil)⟩
  · have := key 1 [0, 1, 3, 4, 6, 7, 9, 10] 1 i k
    norm_num at this ⊢
    exact this
  · have := key 7 [1, 2, 4, 5, 7, 8, 10, 11] 2 i k
    norm_num at this ⊢
    exact this

end Verif.ElasticUp
