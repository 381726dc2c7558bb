import Mathlib.Tactic.Linarith
import Mathlib.Tactic.Ring
import Mathlib.Tactic.FieldSimp
import Verif.Model.Regularize
import Verif.Props.Chopper
import Verif.Props.Subsample

/-!
C121: regularising a grid.
-/

namespace Verif.Regularize

open Verif.Chopper

section

/-- **C121 (partial).** For the whole width of a grid of `d` columns and at most as many coarse columns: the coarse columns follow each other from 0 to `d` without gaps, every one has
at least one fine column, and their widths differ by at most one. What is missing: a part of the grid, and more coarse columns than fine ones. -/
theorem C121_columns_partial (d r : Nat) (hr : 1 ≤ r) (hd : r ≤ d) :
    ∃ l : List Int, indexMap d r d = some l ∧ l.length = r + 1 ∧ l[0]? = some 0 ∧ l[r]? = some (d : Int) ∧
      ∀ c < r, ∃ a b : Int, l[c]? = some a ∧ l[c + 1]? = some b ∧ 1 ≤ b - a ∧ (b - a = (d / r : Nat) ∨ b - a = (d / r : Nat) + 1) := by
  have hq : (d : Int).tdiv r = ((d / r : Nat) : Int) := by
    rw [Int.tdiv_eq_ediv_of_nonneg (by omega)]; norm_cast
  have hdm := Nat.div_add_mod d r
  have hml := Nat.mod_lt d (show r > 0 by omega)
  have hq1 : 1 ≤ d / r := Nat.div_pos hd (by omega)
  generalize hqq : d / r = q at *
  generalize hmm : d % r = m at *
  have hrem : (d : Int) - r * ((q : Nat) : Int) = m := by
    have : (d : Int) = r * q + m := by exact_mod_cast hdm.symm
    omega
  let f : Nat → Int := fun c => if c ≤ m then (c : Int) * (q + 1) else if c < r then (c : Int) * q + m else d
  have hl : indexMap d r d = some ((List.range (r + 1)).map f) := by
    unfold indexMap
    rw [if_neg (by omega)]
    simp only [hq, hrem]
    congr 1
    have e1 : ((m : Int) + 1).toNat = m + 1 := by omega
    have e2 : ((r : Int) - ((m : Int) + 1)).toNat = r - (m + 1) := by omega
    rw [e1, e2]
    have split : List.range (r + 1) = List.range (m + 1) ++ List.range' (m + 1) (r - (m + 1)) ++ [r] := by
      rw [List.range_succ, List.range_eq_range', List.range_eq_range']
      congr 1
      have := List.range'_append (s := 0) (m := m + 1) (n := r - (m + 1)) (step := 1)
      rw [Nat.one_mul, Nat.zero_add] at this
      rw [this]
      congr 1
      omega
    rw [split, List.map_append, List.map_append]
    congr 1
    · congr 1
      · apply List.map_congr_left
        intro c hc
        have := List.mem_range.mp hc
        exact (if_pos (by omega)).symm
      · apply List.map_congr_left
        intro c hc
        have := List.mem_range'_1.mp hc
        show _ = f c
        rw [show f c = (c : Int) * q + m from by
          show (if c ≤ m then _ else _) = _
          rw [if_neg (by omega), if_pos (by omega)]]
    · rw [List.map_singleton]
      congr 1
      show (d : Int) = if r ≤ m then _ else if r < r then _ else (d : Int)
      rw [if_neg (by omega), if_neg (by omega)]
  refine ⟨_, hl, by simp, ?_, ?_, ?_⟩
  · rw [List.getElem?_map, List.getElem?_range (by omega)]
    show some (if 0 ≤ m then ((0 : Nat) : Int) * (q + 1) else _) = _
    rw [if_pos (by omega)]; simp
  · rw [List.getElem?_map, List.getElem?_range (by omega)]
    show some (if r ≤ m then _ else if r < r then _ else (d : Int)) = _
    rw [if_neg (by omega), if_neg (by omega)]
  · intro c hc
    refine ⟨f c, f (c + 1), by rw [List.getElem?_map, List.getElem?_range (by omega)]; rfl, by rw [List.getElem?_map, List.getElem?_range (by omega)]; rfl, ?_⟩
    have hdi : (d : Int) = r * q + m := by exact_mod_cast hdm.symm
    have hfd : f (c + 1) - f c = q ∨ f (c + 1) - f c = q + 1 := by
      by_cases h1 : c + 1 ≤ m
      · right
        show (if c + 1 ≤ m then ((c + 1 : Nat) : Int) * (q + 1) else _) - (if c ≤ m then (c : Int) * (q + 1) else _) = _
        rw [if_pos h1, if_pos (by omega)]; push_cast; ring
      · left
        by_cases h2 : c + 1 < r
        · show (if c + 1 ≤ m then _ else if c + 1 < r then ((c + 1 : Nat) : Int) * q + m else _) - (if c ≤ m then (c : Int) * (q + 1) else if c < r then (c : Int) * q + m else _) = _
          rw [if_neg h1, if_pos h2]
          by_cases h3 : c ≤ m
          · obtain rfl : c = m := by omega
            rw [if_pos le_rfl]; push_cast; ring
          · rw [if_neg h3, if_pos hc]; push_cast; ring
        · obtain rfl : r = c + 1 := by omega
          show (if c + 1 ≤ m then _ else if c + 1 < c + 1 then _ else (d : Int)) - (if c ≤ m then (c : Int) * (q + 1) else if c < c + 1 then (c : Int) * q + m else _) = _
          rw [if_neg h1, if_neg (by omega)]
          by_cases h3 : c ≤ m
          · obtain rfl : c = m := by omega
            rw [if_pos le_rfl, hdi]; push_cast; ring
          · rw [if_neg h3, if_pos (by omega), hdi]; push_cast; ring
    refine ⟨?_, hfd⟩
    rcases hfd with h | h <;> omega

/-- Ten columns in four: three, three, two, two. -/
example : indexMap 10 4 10 = some [0, 3, 6, 8, 10] := by decide

variable {K : Type} [Field K] [LinearOrder K]

/-- **C121.** The coarse layers go from `zmin` to `zmax` and all have the same thickness. -/
theorem C121_layers [IsStrictOrderedRing K] (zmin zmax : K) (n : Nat) (hn : 1 ≤ n) :
    (layers zmin zmax n).length = n + 1 ∧ (layers zmin zmax n)[0]? = some zmin ∧ (layers zmin zmax n)[n]? = some zmax ∧
      ∀ k < n, ∃ a b, (layers zmin zmax n)[k]? = some a ∧ (layers zmin zmax n)[k + 1]? = some b ∧ (b - a) * n = zmax - zmin := by
  have hn0 : (n : K) ≠ 0 := by rw [Nat.cast_ne_zero]; omega
  have hl : layers zmin zmax n = (List.range (n + 1)).map fun (k : Nat) => zmin + (k : K) * (zmax - zmin) / n := by
    unfold layers
    rw [Int.toNat_natCast, List.range_succ, List.map_append, List.map_singleton, Int.cast_natCast]
    congr 2
    rw [mul_div_assoc, mul_div_cancel₀ _ hn0]
    ring
  rw [hl]
  refine ⟨by simp, by rw [List.getElem?_map, List.getElem?_range (by omega)]; simp, ?_, fun k hk => ?_⟩
  · rw [List.getElem?_map, List.getElem?_range (by omega)]
    simp only [Option.map_some]
    congr 1
    rw [mul_div_assoc, mul_div_cancel₀ _ hn0]
    ring
  · refine ⟨_, _, by rw [List.getElem?_map, List.getElem?_range (by omega)]; rfl, by rw [List.getElem?_map, List.getElem?_range (by omega)]; rfl, ?_⟩
    push_cast
    field_simp
    ring

/-- **C121 (deviation).** Whatever the grid and the options: if a coarse cell is asked for, nothing is written. -/
theorem C121_violated_never (D : Deck K) (L : Limits K) (A : Area K) (o : Opts K) (hi : 0 < o.ires) (hj : 0 < o.jres) (hk : 0 < o.zres) (f : File K) :
    run D L A o ≠ .written f := by
  unfold run
  split
  · split
    · unfold cells
      rw [if_pos ⟨hk, hj, hi⟩]
      split
      · rename_i h
        split at h
        · cases h; simp
        · split at h <;> (cases h; simp)
      · rename_i h
        split at h
        · cases h
        · split at h <;> cases h
    · simp
  · simp

/-- **C121 (deviation).** The lower limits of columns and rows have no effect on the coarse grid: options that differ in `imin` and `jmin` and pass the check
give the same result. -/
theorem C121_violated_lower (D : Deck K) (L : Limits K) (A : Area K) (o : Opts K) (a b : Int)
    (h1 : verifyInscribedShoebox D L o.imin 0 o.imax o.jmin 0 o.jmax o.zmin 0 o.zmax = true)
    (h2 : verifyInscribedShoebox D L a 0 o.imax b 0 o.jmax o.zmin 0 o.zmax = true) :
    run D L A { o with imin := a, jmin := b } = run D L A o := by
  unfold run
  rw [if_pos h1]
  rw [if_pos (show verifyInscribedShoebox D L a 0 o.imax b 0 o.jmax o.zmin 0 o.zmax = true from h2)]
  rfl

end

/-- The hypotheses of `C121_violated_lower` hold for the second column of the example grid. -/
example : verifyInscribedShoebox exDeck ⟨0, 2, 0, 2⟩ 0 0 2 0 0 1 0 0 2 = true ∧ verifyInscribedShoebox exDeck ⟨0, 2, 0, 2⟩ 1 0 2 0 0 1 0 0 2 = true := by
  decide +kernel

/-- **C121 (deviation).** For the first five of ten columns in two coarse ones, the first coarse column has all five and the second none; for the first four, the second
coarse column ends before it begins. -/
theorem C121_violated_upper : indexMap 10 2 5 = some [0, 5, 5] ∧ indexMap 10 2 4 = some [0, 5, 4] := by decide

/-- **C121 (deviation).** More coarse columns than fine ones: the last coarse column is empty. -/
theorem C121_violated_finer : indexMap 2 3 2 = some [0, 1, 2, 2] := by decide

/-- **C121 (deviation).** A resolution of zero divides by zero. -/
theorem C121_violated_zero {K : Type} [Field K] [LinearOrder K] (D : Deck K) (L : Limits K) (A : Area K) (o : Opts K)
    (h : verifyInscribedShoebox D L o.imin 0 o.imax o.jmin 0 o.jmax o.zmin 0 o.zmax = true) (h0 : o.ires = 0) : run D L A o = .ub := by
  unfold run
  rw [if_pos h, h0]
  rfl

/-- What is written, if anything. -/
def fileOf (r : Result ℚ) : Option (File ℚ) :=
  match r with
  | .written f => some f
  | _ => none

/-- **C121 (deviation).** With no layers a file is written, and its pillars begin at 0 also if the grid begins at 100. -/
theorem C121_violated_written : fileOf (run exDeck ⟨0, 2, 0, 2⟩ ⟨100, 102, 0, 1⟩ ⟨0, 2, 0, 1, 0, 2, 1, 1, 0⟩) =
    some ⟨(1, 1, 0), [0, 0, 0, 0, 0, 2,  2, 0, 0, 2, 0, 2,  0, 1, 0, 0, 1, 2,  2, 1, 0, 2, 1, 2], []⟩ := by
  decide +kernel

/-- **C121 (deviation).** Whatever the grid, the run is aborted as soon as the options pass the check and all resolutions are positive (and at most the
number of fine columns and rows). -/
theorem C121_violated_aborts {K : Type} [Field K] [LinearOrder K] (D : Deck K) (L : Limits K) (A : Area K) (o : Opts K)
    (h : verifyInscribedShoebox D L o.imin 0 o.imax o.jmin 0 o.jmax o.zmin 0 o.zmax = true)
    (hi : 0 < o.ires) (hj : 0 < o.jres) (hk : 0 < o.zres) : run D L A o = .aborted := by
  have hmap : ∀ (d r m : Int), 0 < r → ∃ l a b, indexMap d r m = some l ∧ l[0]? = some a ∧ l[1]? = some b := by
    intro d r m hr
    unfold indexMap
    rw [if_neg hr.ne']
    generalize he : (List.range (d - r * d.tdiv r + 1).toNat).map (fun (c : Nat) => (c : Int) * (d.tdiv r + 1)) ++
      (List.range' (d - r * d.tdiv r + 1).toNat (r - (d - r * d.tdiv r + 1)).toNat).map (fun (c : Nat) => (c : Int) * d.tdiv r + (d - r * d.tdiv r)) = l
    have hl : 1 ≤ l.length := by
      rw [← he, List.length_append, List.length_map, List.length_map, List.length_range, List.length_range']
      omega
    obtain ⟨x, l', hx⟩ := List.exists_cons_of_length_pos hl
    refine ⟨l ++ [m], x, (l' ++ [m])[0]'(by simp), by rw [← he], by rw [hx]; rfl, ?_⟩
    rw [hx]
    simp
  obtain ⟨is, i0, i1, e1, e2, e3⟩ := hmap D.nx o.ires o.imax hi
  obtain ⟨js, j0, j1, e4, e5, e6⟩ := hmap D.ny o.jres o.jmax hj
  obtain ⟨z0, z1, e7, e8⟩ : ∃ z0 z1, (layers o.zmin o.zmax o.zres)[0]? = some z0 ∧ (layers o.zmin o.zmax o.zres)[1]? = some z1 := by
    have : 2 ≤ (layers o.zmin o.zmax o.zres).length := by
      rw [layers, List.length_append, List.length_map, List.length_range, List.length_singleton]
      omega
    exact ⟨_, _, List.getElem?_eq_getElem (by omega), List.getElem?_eq_getElem (by omega)⟩
  have hreq : request is js (layers o.zmin o.zmax o.zres) 0 0 0 = some ⟨i0.toNat, i1.toNat, j0.toNat, j1.toNat, z0, z1, false⟩ := by
    unfold request
    simp only [Option.bind_eq_bind, e2, e3, e5, e6, e7, e8, Option.bind_some, zero_add]
    rfl
  unfold run
  rw [if_pos h, e1, e4]
  simp only [cells, if_pos (show 0 < o.zres ∧ 0 < o.jres ∧ 0 < o.ires from ⟨hk, hj, hi⟩), hreq]
  cases chop D L Out.init ⟨i0.toNat, i1.toNat, j0.toNat, j1.toNat, z0, z1, false⟩ <;> rfl

/-- The hypotheses for the example grid in one coarse cell. -/
example : verifyInscribedShoebox exDeck ⟨0, 2, 0, 2⟩ 0 0 2 0 0 1 0 0 2 = true := by decide +kernel

/-- **C121.** The depths of the corners the writer would give out, if it were reached: for each coarse layer first the top of all cells, then the bottom,
each layer of the same thickness and the layers on top of each other. -/
theorem C121_zcorn_partial {K : Type} [Field K] [LinearOrder K] [IsStrictOrderedRing K] (o : Opts K) (n m p : Nat) (hn : o.ires = n) (hm : o.jres = m) (hp : o.zres = p)
    (h0 : 0 < p) :
    (zcorn o).length = 8 * (n * m * p) ∧ ∀ k < p, ∀ c < 4 * n * m,
      ∃ top bottom, (zcorn o)[8 * n * m * k + c]? = some top ∧ (zcorn o)[8 * n * m * k + 4 * n * m + c]? = some bottom ∧
        p * top = k * (o.zmax - o.zmin) ∧ p * bottom = (k + 1) * (o.zmax - o.zmin) := by
  have hp0 : (p : K) ≠ 0 := by rw [Nat.cast_ne_zero]; omega
  have hz : zcorn o = (List.range p).flatMap fun (k : Nat) => List.replicate (4 * n * m) ((o.zmax - o.zmin) / p * k) ++
      List.replicate (4 * n * m) ((o.zmax - o.zmin) / p * (k + 1)) := by
    unfold zcorn
    simp only [hn, hm, hp, Int.toNat_natCast, Int.cast_natCast]
  have hlen : ∀ (q : Nat) (f : Nat → List K), (∀ k, (f k).length = 8 * n * m) → ((List.range q).flatMap f).length = 8 * n * m * q := by
    intro q f hf
    induction q with
    | zero => simp
    | succ q ih => rw [List.range_succ, List.flatMap_append, List.length_append, ih]; simp [hf]; ring
  have hget : ∀ (q : Nat) (f : Nat → List K), (∀ k, (f k).length = 8 * n * m) → ∀ k < q, ∀ c < 8 * n * m,
      ((List.range q).flatMap f)[8 * n * m * k + c]? = (f k)[c]? := by
    intro q f hf
    induction q with
    | zero => intro k hk; omega
    | succ q ih =>
      intro k hk c hc
      rw [List.range_succ, List.flatMap_append, List.flatMap_singleton]
      by_cases hkq : k < q
      · rw [List.getElem?_append_left, ih k hkq c hc]
        rw [hlen q f hf]
        calc 8 * n * m * k + c < 8 * n * m * k + 8 * n * m := by omega
          _ = 8 * n * m * (k + 1) := by ring
          _ ≤ 8 * n * m * q := Nat.mul_le_mul_left _ hkq
      · obtain rfl : k = q := by omega
        rw [List.getElem?_append_right (by rw [hlen k f hf]; omega), hlen k f hf]
        congr 1
        omega
  have hf : ∀ k : Nat, (List.replicate (4 * n * m) ((o.zmax - o.zmin) / p * (k : K)) ++
      List.replicate (4 * n * m) ((o.zmax - o.zmin) / p * ((k : K) + 1))).length = 8 * n * m := by
    intro k
    rw [List.length_append, List.length_replicate, List.length_replicate]
    ring
  rw [hz]
  refine ⟨by rw [hlen p _ hf]; ring, fun k hk c hc => ⟨(o.zmax - o.zmin) / p * k, (o.zmax - o.zmin) / p * (k + 1), ?_, ?_, ?_, ?_⟩⟩
  · rw [hget p _ hf k hk c (by nlinarith), List.getElem?_append_left (by rw [List.length_replicate]; exact hc), List.getElem?_replicate, if_pos hc]
  · rw [add_assoc, hget p _ hf k hk _ (by nlinarith), List.getElem?_append_right (by rw [List.length_replicate]; omega), List.length_replicate,
      Nat.add_sub_cancel_left, List.getElem?_replicate, if_pos hc]
  · field_simp
  · field_simp

/-- One coarse cell with two layers. -/
example : zcorn (⟨0, 2, 0, 1, 10, 14, 1, 1, 2⟩ : Opts ℚ) = [0, 0, 0, 0, 2, 2, 2, 2, 2, 2, 2, 2, 4, 4, 4, 4] := by decide +kernel

/-- **C121 (deviation).** The depths are counted from 0 and not from `zmin`: the top of the coarse grid would lie at depth 0 although its pillars begin at `zmin`. -/
theorem C121_violated_depth {K : Type} [Field K] [LinearOrder K] (o : Opts K) (hi : 0 < o.ires) (hj : 0 < o.jres) (hk : 0 < o.zres) : (zcorn o)[0]? = some 0 := by
  obtain ⟨p, hp⟩ : ∃ p, o.zres.toNat = p + 1 := ⟨o.zres.toNat - 1, by omega⟩
  have h4 : 0 < 4 * o.ires.toNat * o.jres.toNat := by
    have : 0 < o.ires.toNat := by omega
    have : 0 < o.jres.toNat := by omega
    positivity
  unfold zcorn
  rw [hp, List.range_succ_eq_map, List.flatMap_cons, List.append_assoc, List.getElem?_append_left (by rw [List.length_replicate]; exact h4), List.getElem?_replicate, if_pos h4]
  simp

end Verif.Regularize
