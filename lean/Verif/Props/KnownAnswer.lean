import Verif.Spec.KnownAnswer
import Mathlib.Analysis.Calculus.Deriv.Mul
import Mathlib.Tactic.Linarith
import Mathlib.Tactic.Ring
import Mathlib.Tactic.Positivity
import Mathlib.Tactic.FieldSimp

/-!
C138: the known answer test: the problem it poses has the answer it compares with; what the printed errors say.
-/

namespace Verif.KnownAnswer

open Spec

theorem deriv2_sin (a b c : ℝ) (x : ℝ) : deriv (fun t => deriv (fun s => Real.sin (a * s) * b * c) t) x = -(a * a * Real.sin (a * x)) * b * c := by
  have h1 : ∀ t, HasDerivAt (fun s => Real.sin (a * s) * b * c) (Real.cos (a * t) * a * b * c) t := by
    intro t
    have h := (((hasDerivAt_id t).const_mul a).sin.mul_const b).mul_const c
    simpa using h
  have h2 : (fun t => deriv (fun s => Real.sin (a * s) * b * c) t) = fun t => Real.cos (a * t) * a * b * c := funext fun t => (h1 t).deriv
  rw [h2]
  have h := ((((hasDerivAt_id x).const_mul a).cos.mul_const a).mul_const b).mul_const c
  simp only [id, mul_one] at h
  rw [h.deriv]
  ring

theorem deriv2_cos (a b c : ℝ) (x : ℝ) : deriv (fun t => deriv (fun s => b * Real.cos (a * s) * c) t) x = -(b * (a * a * Real.cos (a * x))) * c := by
  have h1 : ∀ t, HasDerivAt (fun s => b * Real.cos (a * s) * c) (b * (-Real.sin (a * t) * a) * c) t := by
    intro t
    have h := ((((hasDerivAt_id t).const_mul a).cos).const_mul b).mul_const c
    simpa using h
  have h2 : (fun t => deriv (fun s => b * Real.cos (a * s) * c) t) = fun t => b * (-Real.sin (a * t) * a) * c := funext fun t => (h1 t).deriv
  rw [h2]
  have h := ((((((hasDerivAt_id x).const_mul a).sin).neg).mul_const a).const_mul b).mul_const c
  simp only [id, mul_one, Pi.neg_apply] at h
  rw [h.deriv]
  ring

theorem deriv2_lin (b x : ℝ) : deriv (fun t => deriv (fun s => b * s) t) x = 0 := by
  have h2 : (fun t => deriv (fun s => b * s) t) = fun _ : ℝ => b := by
    funext t
    have h := (hasDerivAt_id t).const_mul b
    simpa using h.deriv
  rw [h2, deriv_const]

theorem laplace_u (x : Fin 3 → ℝ) : laplace u x = Lu x := by
  unfold laplace
  rw [Fin.sum_univ_three]
  have h0 : (fun t => deriv (fun s => u (Function.update x 0 s)) t) =
      fun t => deriv (fun s => Real.sin (2 * Real.pi * s) * Real.cos (2 * Real.pi * x 1) * x 2) t := by
    funext t
    congr 1
  have h1 : (fun t => deriv (fun s => u (Function.update x 1 s)) t) =
      fun t => deriv (fun s => Real.sin (2 * Real.pi * x 0) * Real.cos (2 * Real.pi * s) * x 2) t := by
    funext t
    congr 1
  have h2 : (fun t => deriv (fun s => u (Function.update x 2 s)) t) =
      fun t => deriv (fun s => Real.sin (2 * Real.pi * x 0) * Real.cos (2 * Real.pi * x 1) * s) t := by
    funext t
    congr 1
  rw [h0, h1, h2, deriv2_sin, deriv2_cos, deriv2_lin]
  unfold Lu
  ring

/-- The problem that the program poses is one that `u` solves: the permeability is the same number `k` in all cells and directions, and with it and the
mobility of the problem the source of every cell is the volume of the cell times a source density for which `u` satisfies the pressure equation, taken at the centroid; on the boundary the pressure is that of
`u` at the centroid of the face; there is no gravity. -/
theorem C138_problem (cells : List Cell) : ∃ k q, (∀ i < cells.length, (problem cells).perm i = some [k, 0, 0, 0, k, 0, 0, 0, k]) ∧
    Satisfies k (problem cells).mob q u ∧
    (problem cells).src = cells.map (fun c => q c.centroid * c.volume) ∧ (∀ x, (problem cells).bc x = .dirichlet (u x)) ∧
      (problem cells).gravity = 0 := by
  refine ⟨1, fun x => -Lu x, fun i hi => ?_, fun x => ?_, rfl, fun x => rfl, rfl⟩
  · simp only [problem, Reservoir.State.permeability, Reservoir.State.initUniform]
    rw [List.getElem?_replicate, if_pos hi, List.getElem?_replicate, if_pos hi]
    simp [List.range_succ]
  rw [laplace_u]
  simp [problem, totalMobility, FracFlow.mobility, FracFlow.quadRelPerm]

theorem sums_spec (cells : List Cell) (p : List ℝ) (h : cells.length ≤ p.length) (s : Sums) (k : Nat) (err : Nat → ℝ)
    (he : ∀ (i : Nat) c y, cells[i]? = some c → p[i]? = some y → err (i + k) = u c.centroid - y) (hv : ∀ c ∈ cells, 0 ≤ c.volume) :
    ∃ m, sums s cells p = some ⟨s.l1 + ((cells.zipIdx k).map fun c => |err c.2| * c.1.volume).sum,
      s.l2 + ((cells.zipIdx k).map fun c => err c.2 ^ 2 * c.1.volume).sum, m, s.vol + (cells.map Cell.volume).sum⟩ ∧
      s.linf ≤ m ∧ (∀ c ∈ cells.zipIdx k, |err c.2| ≤ m) ∧ (m = s.linf ∨ ∃ c ∈ cells.zipIdx k, m = |err c.2|) := by
  induction cells generalizing p s k with
  | nil =>
    refine ⟨s.linf, ?_, le_rfl, fun c hc => by simp at hc, Or.inl rfl⟩
    simp [sums]
  | cons c cells ih =>
    cases p with
    | nil => simp at h
    | cons y p =>
      have e0 : err k = u c.centroid - y := by
        have := he 0 c y rfl rfl
        rwa [Nat.zero_add] at this
      obtain ⟨m, h1, h2, h3, h4⟩ := ih p (by simpa using h) (step s c y) (k + 1) (by
        intro i c' y' hc hy
        have := he (i + 1) c' y' (by simpa using hc) (by simpa using hy)
        rw [← this]
        congr 1
        omega) fun c' hc' => hv c' (by simp [hc'])
      have hc := hv c (by simp)
      refine ⟨m, ?_, ?_, ?_, ?_⟩
      · unfold sums
        rw [h1]
        simp only [step, List.zipIdx_cons, List.map_cons, List.sum_cons, e0, abs_mul, abs_of_nonneg hc]
        simp only [Option.some.injEq, Sums.mk.injEq, true_and]
        refine ⟨?_, ?_, ?_⟩ <;> ring
      · exact (le_max_right _ _).trans h2
      · intro x hx
        rcases List.mem_cons.mp hx with rfl | hx
        · simp only [e0]
          exact (le_max_left _ _).trans h2
        · exact h3 x hx
      · rcases h4 with h4 | ⟨x, hx, h4⟩
        · rcases le_total |u c.centroid - y| s.linf with hle | hle
          · refine Or.inl ?_
            rw [h4]
            exact max_eq_right hle
          · refine Or.inr ⟨(c, k), by simp, ?_⟩
            rw [h4]
            simp only [e0]
            exact max_eq_left hle
        · exact Or.inr ⟨x, by simp [hx], h4⟩

theorem volume_pos (cells : List Cell) (hne : cells ≠ []) (hv : ∀ c ∈ cells, 0 < c.volume) : 0 < volume cells := by
  unfold volume
  obtain ⟨c, l, rfl⟩ := List.exists_cons_of_ne_nil hne
  rw [List.map_cons, List.sum_cons]
  have : 0 ≤ (l.map Cell.volume).sum := List.sum_nonneg fun x hx => by
    obtain ⟨d, hd, rfl⟩ := List.mem_map.mp hx
    exact (hv d (by simp [hd])).le
  linarith [hv c (by simp)]

/-- The printed errors: the first is the mean absolute error, the third the largest error; the second is the root mean square error divided by the square
root of the volume. All vanish if and only if every pressure is that of `u`. -/
theorem C138_errors_partial (cells : List Cell) (hne : cells ≠ []) (hv : ∀ c ∈ cells, 0 < c.volume) (p : List ℝ) (h : cells.length ≤ p.length)
    (err : Nat → ℝ) (he : ∀ (i : Nat) c y, cells[i]? = some c → p[i]? = some y → err i = u c.centroid - y) :
    ∃ m, comparePressure cells p = some (mean1 cells err, mean2 cells err / Real.sqrt (volume cells), m) ∧
      (∀ i < cells.length, |err i| ≤ m) ∧ (∃ i < cells.length, m = |err i|) ∧ mean1 cells err ≤ m ∧
      (m = 0 ↔ ∀ (i : Nat) c y, cells[i]? = some c → p[i]? = some y → y = u c.centroid) := by
  obtain ⟨m, h1, h2, h3, h4⟩ := sums_spec cells p h ⟨0, 0, 0, 0⟩ 0 err (fun i c y hc hy => he i c y hc hy) fun c hc => (hv c hc).le
  have hpos := volume_pos cells hne hv
  have hvol : (0 : ℝ) + (cells.map Cell.volume).sum = volume cells := zero_add _
  have hb : ∀ i < cells.length, |err i| ≤ m := by
    intro i hi
    exact h3 (cells[i], i) (List.mem_zipIdx_iff_getElem?.mpr (List.getElem?_eq_getElem hi))
  have hm : ∃ i < cells.length, m = |err i| := by
    rcases h4 with h4 | ⟨c, hc, h4⟩
    · refine ⟨0, List.length_pos_iff.mpr hne, ?_⟩
      have := hb 0 (List.length_pos_iff.mpr hne)
      have h5 := abs_nonneg (err 0)
      simp only at h4
      linarith
    · refine ⟨c.2, ?_, h4⟩
      have := List.mem_zipIdx_iff_getElem?.mp hc
      exact (List.getElem?_eq_some_iff.mp this).1
  refine ⟨m, ?_, hb, hm, ?_, ?_⟩
  · unfold comparePressure
    rw [h1]
    simp only [zero_add]
    rw [show (cells.map Cell.volume).sum = volume cells from rfl, if_neg hpos.ne']
    unfold mean1 mean2
    rw [Real.sqrt_div' _ hpos.le, div_div, Real.mul_self_sqrt hpos.le]
  · unfold mean1
    rw [div_le_iff₀ hpos]
    have : (cells.zipIdx.map fun c => |err c.2| * c.1.volume).sum ≤ (cells.zipIdx.map fun c => m * c.1.volume).sum := by
      refine List.sum_le_sum fun c hc => ?_
      refine mul_le_mul_of_nonneg_right (h3 c hc) (hv c.1 ?_).le
      exact List.mem_of_getElem? (List.mem_zipIdx_iff_getElem?.mp hc)
    refine this.trans (le_of_eq ?_)
    have e : (cells.zipIdx.map fun c => m * c.1.volume) = (cells.map fun c => m * c.volume) := by
      conv_rhs => rw [← List.zipIdx_map_fst 0 cells, List.map_map]
      rfl
    rw [e, List.sum_map_mul_left]
    rfl
  · constructor
    · intro h0 i c y hc hy
      have hi := (List.getElem?_eq_some_iff.mp hc).1
      have := hb i hi
      rw [h0, he i c y hc hy] at this
      have := abs_eq_zero.mp (le_antisymm this (abs_nonneg _))
      linarith
    · intro hall
      obtain ⟨i, hi, rfl⟩ := hm
      have hc : cells[i]? = some cells[i] := List.getElem?_eq_getElem hi
      have hy : p[i]? = some (p[i]'(by omega)) := List.getElem?_eq_getElem (by omega)
      rw [he i _ _ hc hy, hall i _ _ hc hy, sub_self, abs_zero]

/-- A cell of volume four where `u` is zero. -/
def exCell : Cell := ⟨fun _ => 0, 4⟩

theorem ex_compare (y : ℝ) : comparePressure [exCell] [y] = some (|y|, |y| / 2, |y|) := by
  have hu : u exCell.centroid = 0 := by simp [u, exCell]
  have hs : sums ⟨0, 0, 0, 0⟩ [exCell] [y] = some ⟨|y| * 4, y * y * 4, |y|, 4⟩ := by
    simp only [sums, step, hu]
    simp [exCell, abs_mul]
  unfold comparePressure
  rw [hs]
  simp only
  rw [if_neg (by norm_num)]
  have h1 : |y| * 4 / 4 = |y| := by ring
  have h2 : Real.sqrt (y * y * 4) / 4 = |y| / 2 := by
    rw [show y * y * 4 = (|y| * 2) ^ 2 by rw [mul_pow, sq_abs]; ring, Real.sqrt_sq (by positivity)]
    ring
  rw [h1, h2]

/-- The case of the theorem. -/
example : ∃ m, comparePressure [exCell] [3] = some (mean1 [exCell] (fun _ => -3), mean2 [exCell] (fun _ => -3) / Real.sqrt (volume [exCell]), m) := by
  obtain ⟨m, h, -⟩ := C138_errors_partial [exCell] (by simp) (by intro c hc; obtain rfl := List.mem_singleton.mp hc; norm_num [exCell]) [3] le_rfl (fun _ => -3) (by
    intro i c y hc hy
    cases i with
    | zero =>
      obtain rfl : exCell = c := by simpa using hc
      obtain rfl : (3 : ℝ) = y := by simpa using hy
      simp [u, exCell]
    | succ i => simp at hc)
  exact ⟨m, h⟩

/-- The "L2 error density" is no mean of the errors: it can be smaller than all of them. -/
theorem C138_violated_l2 : ∃ (cells : List Cell) (p : List ℝ) (a b m : ℝ), comparePressure cells p = some (a, b, m) ∧
    ∀ (i : Nat) c y, cells[i]? = some c → p[i]? = some y → b < |u c.centroid - y| := by
  refine ⟨[exCell], [1], _, _, _, ex_compare 1, ?_⟩
  intro i c y hc hy
  cases i with
  | zero =>
    obtain rfl : exCell = c := by simpa using hc
    obtain rfl : (1 : ℝ) = y := by simpa using hy
    have hu : u exCell.centroid = 0 := by simp [u, exCell]
    rw [hu]
    norm_num
  | succ i => simp at hc

/-- The program gives no verdict: whatever pressures the solver returns, it returns zero. -/
theorem C138_violated_verdict (cells : List Cell) (solver : Problem → Option (List ℝ)) (p : List ℝ) (h : solver (problem cells) = some p) :
    main solver cells = .exit 0 (comparePressure cells p) := by
  unfold main
  rw [h]

end Verif.KnownAnswer
