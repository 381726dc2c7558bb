import Verif.Spec.Upscale
import Mathlib.Tactic.Ring
import Mathlib.Algebra.BigOperators.Fin
import Mathlib.Tactic.FieldSimp
import Mathlib.Tactic.Linarith
import Mathlib.Tactic.FinCases
import Mathlib.Tactic.NormNum
import Mathlib.Algebra.Order.BigOperators.Group.List
import Mathlib.Algebra.BigOperators.Ring.List
import Mathlib.Algebra.Field.Rat
import Mathlib.Algebra.Order.Ring.Unbundled.Rat

/-!
C27 (volume-weighted upscaled scalars) and C28 (average velocity, effective permeability).
-/

namespace Verif.Upscale

open Verif.Spec

variable {K : Type} [Field K] [LinearOrder K]

theorem sums_eq (cells : List (GCell K)) (f g : GCell K → K) :
    sums cells f g = ((cells.map f).sum, (cells.map g).sum) := by
  have h : ∀ (l : List (GCell K)) (a b : K),
      l.foldl (fun acc c => (acc.1 + f c, acc.2 + g c)) (a, b) = (a + (l.map f).sum, b + (l.map g).sum) := by
    intro l
    induction l with
    | nil => intro a b; simp
    | cons c l ih =>
      intro a b
      rw [List.foldl_cons, ih]
      simp only [List.map_cons, List.sum_cons]
      rw [add_assoc, add_assoc]
  simpa [sums] using h cells 0 0

theorem quot_some {a b m : K} : quot a b = some m ↔ b ≠ 0 ∧ m * b = a := by
  unfold quot
  by_cases h : b = 0
  · simp [h]
  · rw [if_neg h]
    constructor
    · intro e
      have := Option.some.inj e
      subst this
      exact ⟨h, by field_simp⟩
    · rintro ⟨_, e⟩
      subst e
      congr 1
      field_simp

/-! ### C27 -/

/-- The result of `upscalePorosity` is the volume-weighted mean of the porosity. -/
theorem C27_porosity (R : Rock K) (cells : List (GCell K)) (m : K) :
    upscalePorosity R cells = some m ↔ IsMean cells (fun c => c.volume) (fun c => R.porosity c.index) m := by
  simp only [upscalePorosity, sums_eq, quot_some, IsMean]

/-- `upscaleNTG` is the volume-weighted mean of the net-to-gross ratio. -/
theorem C27_ntg (R : Rock K) (cells : List (GCell K)) (m : K) :
    upscaleNTG R cells = some m ↔ IsMean cells (fun c => c.volume) (fun c => R.ntg c.index) m := by
  simp only [upscaleNTG, sums_eq, quot_some, IsMean]

/-- `upscaleSWCR` is the mean of the critical water saturation weighted with pore volume, net pore volume when NTG is
requested. -/
theorem C27_swcr (R : Rock K) (cells : List (GCell K)) (n : Bool) (m : K) :
    upscaleSWCR R n cells = some m ↔
      IsMean cells (fun c => c.volume * R.porosity c.index * (if n then R.ntg c.index else 1))
        (fun c => R.swcr c.index) m := by
  cases n <;> simp [upscaleSWCR, sums_eq, quot_some, IsMean]

/-- `upscaleSOWCR` is the mean of the critical oil saturation with the same weights. -/
theorem C27_sowcr (R : Rock K) (cells : List (GCell K)) (n : Bool) (m : K) :
    upscaleSOWCR R n cells = some m ↔
      IsMean cells (fun c => c.volume * R.porosity c.index * (if n then R.ntg c.index else 1))
        (fun c => R.sowcr c.index) m := by
  cases n <;> simp [upscaleSOWCR, sums_eq, quot_some, IsMean]

/-- The upscaled final saturation is the pore-volume-weighted mean of the cell saturations. -/
theorem C27_saturation (R : Rock K) (s : Nat → K) (cells : List (GCell K)) (m : K) :
    lastSaturationUpscaled R s cells = some m ↔
      IsMean cells (fun c => c.volume * R.porosity c.index) (fun c => s c.index) m := by
  simp only [lastSaturationUpscaled, sums_eq, quot_some, IsMean]

/-- The result of `upscaleNetPorosity` is the mean of the porosity weighted with net volume, when that volume is
positive; otherwise it is zero. -/
theorem C27_net_porosity (R : Rock K) (cells : List (GCell K)) :
    (0 < (cells.map fun c => c.volume * R.ntg c.index).sum →
      IsMean cells (fun c => c.volume * R.ntg c.index) (fun c => R.porosity c.index) (upscaleNetPorosity R cells)) ∧
    (¬ 0 < (cells.map fun c => c.volume * R.ntg c.index).sum → upscaleNetPorosity R cells = 0) := by
  constructor
  · intro h
    refine ⟨ne_of_gt h, ?_⟩
    simp only [upscaleNetPorosity, sums_eq, if_pos h]
    rw [div_mul_cancel₀ _ (ne_of_gt h)]
    congr 1
    apply List.map_congr_left
    intro c _
    ring
  · intro h
    simp only [upscaleNetPorosity, sums_eq, if_neg h]

variable [IsStrictOrderedRing K]

theorem sum_map_mul_le {α : Type} (l : List α) (w x : α → K) (hi : K) (hw : ∀ a ∈ l, 0 ≤ w a)
    (hx : ∀ a ∈ l, x a ≤ hi) : (l.map fun a => w a * x a).sum ≤ hi * (l.map w).sum := by
  induction l with
  | nil => simp
  | cons a l ih =>
    have h1 := ih (fun b hb => hw b (List.mem_cons_of_mem _ hb)) (fun b hb => hx b (List.mem_cons_of_mem _ hb))
    have h2 := mul_le_mul_of_nonneg_left (hx a (List.mem_cons_self ..)) (hw a (List.mem_cons_self ..))
    simp only [List.map_cons, List.sum_cons]
    nlinarith [h1, h2]

theorem le_sum_map_mul {α : Type} (l : List α) (w x : α → K) (lo : K) (hw : ∀ a ∈ l, 0 ≤ w a)
    (hx : ∀ a ∈ l, lo ≤ x a) : lo * (l.map w).sum ≤ (l.map fun a => w a * x a).sum := by
  induction l with
  | nil => simp
  | cons a l ih =>
    have h1 := ih (fun b hb => hw b (List.mem_cons_of_mem _ hb)) (fun b hb => hx b (List.mem_cons_of_mem _ hb))
    have h2 := mul_le_mul_of_nonneg_left (hx a (List.mem_cons_self ..)) (hw a (List.mem_cons_self ..))
    simp only [List.map_cons, List.sum_cons]
    nlinarith [h1, h2]

/-- Any mean with non-negative weights lies between bounds of the averaged values. -/
theorem C27_bounds {α : Type} (l : List α) (w x : α → K) (m lo hi : K) (hm : IsMean l w x m) (hw : ∀ a ∈ l, 0 ≤ w a)
    (hlo : ∀ a ∈ l, lo ≤ x a) (hhi : ∀ a ∈ l, x a ≤ hi) : lo ≤ m ∧ m ≤ hi := by
  obtain ⟨h0, e⟩ := hm
  have hpos : 0 < (l.map w).sum := by
    refine lt_of_le_of_ne ?_ (Ne.symm h0)
    exact List.sum_nonneg (by intro y hy; obtain ⟨a, ha, rfl⟩ := List.mem_map.mp hy; exact hw a ha)
  have h1 := le_sum_map_mul l w x lo hw hlo
  have h2 := sum_map_mul_le l w x hi hw hhi
  rw [← e] at h1 h2
  exact ⟨le_of_mul_le_mul_right h1 hpos, le_of_mul_le_mul_right h2 hpos⟩

omit [IsStrictOrderedRing K] in
/-- A constant field is reproduced (no condition on the sign of the weights). -/
theorem C27_constant {α : Type} (l : List α) (w x : α → K) (m k : K) (hm : IsMean l w x m)
    (hk : ∀ a ∈ l, x a = k) : m = k := by
  obtain ⟨h0, e⟩ := hm
  have h : (l.map fun a => w a * x a).sum = k * (l.map w).sum := by
    rw [← List.sum_map_mul_left]
    congr 1
    apply List.map_congr_left
    intro a ha
    rw [hk a ha, mul_comm]
  rw [h] at e
  exact mul_right_cancel₀ h0 e

omit [IsStrictOrderedRing K] in
/-- None of the upscaled scalars depends on the order in which the cells are visited. -/
theorem C27_order (R : Rock K) (s : Nat → K) (n : Bool) (cells cells' : List (GCell K)) (h : cells.Perm cells') :
    upscalePorosity R cells = upscalePorosity R cells' ∧ upscaleNetPorosity R cells = upscaleNetPorosity R cells' ∧
    upscaleNTG R cells = upscaleNTG R cells' ∧ upscaleSWCR R n cells = upscaleSWCR R n cells' ∧
    upscaleSOWCR R n cells = upscaleSOWCR R n cells' ∧
    lastSaturationUpscaled R s cells = lastSaturationUpscaled R s cells' := by
  have hs : ∀ f g : GCell K → K, sums cells f g = sums cells' f g := by
    intro f g
    rw [sums_eq, sums_eq, (h.map f).sum_eq, (h.map g).sum_eq]
  refine ⟨?_, ?_, ?_, ?_, ?_, ?_⟩
  · simp only [upscalePorosity, hs]
  · simp only [upscaleNetPorosity, hs]
  · simp only [upscaleNTG, hs]
  · simp only [upscaleSWCR, hs]
  · simp only [upscaleSOWCR, hs]
  · simp only [lastSaturationUpscaled, hs]

/-- Net porosity times net-to-gross times total volume is the total net pore volume, for non-negative volumes and
net-to-gross ratios, including the case of a grid without any net volume. -/
theorem C27_net_times_ntg (R : Rock K) (cells : List (GCell K)) (ntg : K) (h : upscaleNTG R cells = some ntg)
    (hv : ∀ c ∈ cells, 0 ≤ c.volume ∧ 0 ≤ R.ntg c.index) :
    upscaleNetPorosity R cells * ntg * (cells.map fun c => c.volume).sum =
      (cells.map fun c => c.volume * R.porosity c.index * R.ntg c.index).sum := by
  obtain ⟨h0, e⟩ := (C27_ntg R cells ntg).mp h
  rw [mul_assoc, e]
  by_cases hp : 0 < (cells.map fun c => c.volume * R.ntg c.index).sum
  · simp only [upscaleNetPorosity, sums_eq, if_pos hp]
    rw [div_mul_cancel₀ _ (ne_of_gt hp)]
  · have hz : ∀ c ∈ cells, c.volume * R.ntg c.index = 0 := by
      have hn : ∀ c ∈ cells, 0 ≤ c.volume * R.ntg c.index := fun c hc => mul_nonneg (hv c hc).1 (hv c hc).2
      clear h h0 e hv
      induction cells with
      | nil => simp
      | cons a l ih =>
        simp only [List.map_cons, List.sum_cons] at hp
        have ha := hn a (List.mem_cons_self ..)
        have hl : 0 ≤ (l.map fun c => c.volume * R.ntg c.index).sum :=
          List.sum_nonneg (by
            intro y hy
            obtain ⟨c, hc, rfl⟩ := List.mem_map.mp hy
            exact hn c (List.mem_cons_of_mem _ hc))
        intro c hc
        rcases List.mem_cons.mp hc with rfl | hc
        · linarith [not_lt.mp hp]
        · exact ih (by linarith [not_lt.mp hp]) (fun c hc => hn c (List.mem_cons_of_mem _ hc)) c hc
    simp only [upscaleNetPorosity, sums_eq, if_neg hp, zero_mul]
    symm
    apply List.sum_eq_zero
    intro y hy
    obtain ⟨c, hc, rfl⟩ := List.mem_map.mp hy
    rw [mul_right_comm, hz c hc, zero_mul]

/-! ### C28 -/

theorem filter_snoc {α : Type} (p : α → Bool) (l : List α) (a : α) :
    (l ++ [a]).filter p = l.filter p ++ (if p a then [a] else []) := by
  rw [List.filter_append]
  by_cases h : p a <;> simp [h]

omit [IsStrictOrderedRing K] in
theorem side_fold (canon : Nat → Int) (d : Fin 3) (value : GFace K → K) (l : List (GFace K))
    (hn : ∀ f ∈ l, f.boundary = true → 1 ≤ canon f.bid ∧ canon f.bid ≤ 6) (acc : Sides K) :
    l.foldl (sideStep canon d value) acc =
      ⟨acc.v1 + ((l.filter fun f => f.boundary && decide (canon f.bid = 2 * (d.val : Int) + 1)).map value).sum,
       acc.v2 + ((l.filter fun f => f.boundary && decide (canon f.bid = 2 * (d.val : Int) + 2)).map value).sum,
       acc.a1 + ((l.filter fun f => f.boundary && decide (canon f.bid = 2 * (d.val : Int) + 1)).map GFace.area).sum,
       acc.a2 + ((l.filter fun f => f.boundary && decide (canon f.bid = 2 * (d.val : Int) + 2)).map GFace.area).sum⟩ := by
  induction l generalizing acc with
  | nil => simp
  | cons f l ih =>
    rw [List.foldl_cons, ih (fun g hg => hn g (List.mem_cons_of_mem _ hg))]
    have hf := hn f (List.mem_cons_self ..)
    by_cases hb : f.boundary = true
    · obtain ⟨h1, h6⟩ := hf hb
      by_cases e1 : canon f.bid = 2 * (d.val : Int) + 1
      · have t : (canon f.bid - 1).tdiv 2 = (d.val : Int) := by
          rw [e1]; simp
        have e2 : ¬ canon f.bid = 2 * (d.val : Int) + 2 := by omega
        simp [sideStep, hb, t, e1, List.filter_cons, add_assoc]
      · by_cases e2 : canon f.bid = 2 * (d.val : Int) + 2
        · have t : (canon f.bid - 1).tdiv 2 = (d.val : Int) := by
            rw [e2]
            rw [Int.tdiv_eq_ediv_of_nonneg (by omega)]
            omega
          have e3 : ¬ canon f.bid - 1 = 2 * (d.val : Int) := by omega
          have e4 : sideStep canon d value acc f = { acc with v2 := acc.v2 + value f, a2 := acc.a2 + f.area } := by
            simp only [sideStep, hb, t, if_true, if_neg e3]
          rw [e4]
          simp [List.filter_cons, hb, e1, e2, add_assoc]
        · have t : ¬ (canon f.bid - 1).tdiv 2 = (d.val : Int) := by
            rw [Int.tdiv_eq_ediv_of_nonneg (by omega)]
            omega
          simp [sideStep, hb, t, e1, e2, List.filter_cons]
    · rw [Bool.not_eq_true] at hb
      simp [sideStep, hb, List.filter_cons]

omit [IsStrictOrderedRing K] in
theorem numbered_faces {cells : List (GCell K)} {canon : Nat → Int} (h : SidesNumbered cells canon) :
    ∀ f ∈ allFaces cells, f.boundary = true → 1 ≤ canon f.bid ∧ canon f.bid ≤ 6 := by
  intro f hf
  obtain ⟨c, hc, hf⟩ := List.mem_flatMap.mp hf
  exact h c hc f hf

omit [IsStrictOrderedRing K] in
/-- The average velocity in direction `d` is the mean of the two sides' area averages of outward flux times normal
component, provided every boundary face has a canonical side number. -/
theorem C28_velocity (cells : List (GCell K)) (canon : Nat → Int) (outflux : Nat → K) (d : Fin 3)
    (hn : SidesNumbered cells canon) (q : K) :
    computeAverageVelocity cells canon outflux d = some q ↔
      ∃ q1 q2 : K, q = (1 / 2) * (q1 + q2) ∧
        (((sideFaces cells canon (2 * (d.val : Int) + 1)).map GFace.area).sum ≠ 0 ∧
          q1 * ((sideFaces cells canon (2 * (d.val : Int) + 1)).map GFace.area).sum =
            ((sideFaces cells canon (2 * (d.val : Int) + 1)).map fun f => outflux f.id * f.normal d).sum) ∧
        (((sideFaces cells canon (2 * (d.val : Int) + 2)).map GFace.area).sum ≠ 0 ∧
          q2 * ((sideFaces cells canon (2 * (d.val : Int) + 2)).map GFace.area).sum =
            ((sideFaces cells canon (2 * (d.val : Int) + 2)).map fun f => outflux f.id * f.normal d).sum) := by
  have hs := side_fold canon d (fun f : GFace K => outflux f.id * f.normal d) (allFaces cells) (numbered_faces hn)
    ⟨0, 0, 0, 0⟩
  unfold computeAverageVelocity
  rw [hs]
  simp only [zero_add]
  change (match quot ((sideFaces cells canon (2 * (d.val : Int) + 1)).map _).sum
      ((sideFaces cells canon (2 * (d.val : Int) + 1)).map GFace.area).sum,
      quot ((sideFaces cells canon (2 * (d.val : Int) + 2)).map _).sum
      ((sideFaces cells canon (2 * (d.val : Int) + 2)).map GFace.area).sum with
    | some a, some b => some (1 / 2 * (a + b))
    | _, _ => none) = some q ↔ _
  constructor
  · intro h
    split at h
    · rename_i a b ha hb
      exact ⟨a, b, (Option.some.inj h).symm, quot_some.mp ha, quot_some.mp hb⟩
    · exact absurd h (by simp)
  · rintro ⟨a, b, rfl, ha, hb⟩
    rw [quot_some.mpr ha, quot_some.mpr hb]

omit [IsStrictOrderedRing K] in
/-- The distance between the sides is the difference of their area-averaged positions. -/
theorem C28_delta (cells : List (GCell K)) (canon : Nat → Int) (d : Fin 3) (hn : SidesNumbered cells canon) (l : K) :
    computeDelta cells canon d = some l ↔
      ∃ x1 x2 : K, l = x2 - x1 ∧
        IsMean (sideFaces cells canon (2 * (d.val : Int) + 1)) GFace.area (fun f => f.centroid d) x1 ∧
        IsMean (sideFaces cells canon (2 * (d.val : Int) + 2)) GFace.area (fun f => f.centroid d) x2 := by
  have hs := side_fold canon d (fun f : GFace K => f.area * f.centroid d) (allFaces cells) (numbered_faces hn)
    ⟨0, 0, 0, 0⟩
  unfold computeDelta IsMean
  rw [hs]
  simp only [zero_add]
  change (match quot ((sideFaces cells canon (2 * (d.val : Int) + 2)).map _).sum
      ((sideFaces cells canon (2 * (d.val : Int) + 2)).map GFace.area).sum,
      quot ((sideFaces cells canon (2 * (d.val : Int) + 1)).map _).sum
      ((sideFaces cells canon (2 * (d.val : Int) + 1)).map GFace.area).sum with
    | some b, some a => some (b - a)
    | _, _ => none) = some l ↔ _
  constructor
  · intro h
    split at h
    · rename_i b a hb ha
      exact ⟨a, b, (Option.some.inj h).symm, quot_some.mp ha, quot_some.mp hb⟩
    · exact absurd h (by simp)
  · rintro ⟨a, b, rfl, ha, hb⟩
    rw [quot_some.mpr ha, quot_some.mpr hb]

omit [IsStrictOrderedRing K] in
theorem sideStep_comm (canon : Nat → Int) (d : Fin 3) (value : GFace K → K) (acc : Sides K) (f g : GFace K) :
    sideStep canon d value (sideStep canon d value acc f) g = sideStep canon d value (sideStep canon d value acc g) f := by
  unfold sideStep
  split_ifs <;> simp [add_right_comm]

omit [IsStrictOrderedRing K] in
/-- Velocity and distance do not depend on the order of the cells nor on the order of the faces inside each cell. -/
theorem C28_order (cells cells' : List (GCell K)) (canon : Nat → Int) (outflux : Nat → K) (d : Fin 3)
    (h : (cells.flatMap fun c => c.faces).Perm (cells'.flatMap fun c => c.faces)) :
    computeAverageVelocity cells canon outflux d = computeAverageVelocity cells' canon outflux d ∧
    computeDelta cells canon d = computeDelta cells' canon d := by
  have hf : ∀ (value : GFace K → K) (acc : Sides K),
      (allFaces cells).foldl (sideStep canon d value) acc = (allFaces cells').foldl (sideStep canon d value) acc := by
    intro value acc
    exact h.foldl_eq' (fun f _ g _ acc => sideStep_comm canon d value acc f g) acc
  constructor
  · unfold computeAverageVelocity; rw [hf]
  · unfold computeDelta; rw [hf]

theorem area_sum_pos {l : List (GFace K)} (hne : l ≠ []) (hp : ∀ f ∈ l, 0 < f.area) : 0 < (l.map GFace.area).sum := by
  induction l with
  | nil => exact absurd rfl hne
  | cons f l ih =>
    simp only [List.map_cons, List.sum_cons]
    by_cases hl : l = []
    · subst hl; simpa using hp f (List.mem_cons_self ..)
    · have := ih hl (fun g hg => hp g (List.mem_cons_of_mem _ hg))
      have := hp f (List.mem_cons_self ..)
      linarith

/-- On a box, a uniform velocity field `v` (outward flux = area × v·n on each face) is reproduced exactly. -/
theorem C28_uniform (cells : List (GCell K)) (canon : Nat → Int) (lo hi v : Fin 3 → K) (outflux : Nat → K) (d : Fin 3)
    (hn : SidesNumbered cells canon) (hb : IsBox cells canon lo hi)
    (hv : ∀ c ∈ cells, ∀ f ∈ c.faces, f.boundary = true →
      outflux f.id = f.area * (v 0 * f.normal 0 + v 1 * f.normal 1 + v 2 * f.normal 2)) :
    computeAverageVelocity cells canon outflux d = some (v d) := by
  have key : ∀ f, ∀ s : Int, f ∈ sideFaces cells canon s →
      outflux f.id = f.area * (v 0 * f.normal 0 + v 1 * f.normal 1 + v 2 * f.normal 2) := by
    intro f s hf
    obtain ⟨hf, hp⟩ := List.mem_filter.mp hf
    obtain ⟨c, hc, hfc⟩ := List.mem_flatMap.mp hf
    exact hv c hc f hfc (by simp at hp; exact hp.1)
  rw [C28_velocity cells canon outflux d hn]
  refine ⟨v d, v d, by ring, ⟨?_, ?_⟩, ?_, ?_⟩
  · exact ne_of_gt (area_sum_pos (hb.lowNe d) (fun f hf => (hb.low d f hf).2.1))
  · rw [← List.sum_map_mul_left]
    congr 1
    apply List.map_congr_left
    intro f hf
    rw [key f _ hf, (hb.low d f hf).1]
    fin_cases d <;> simp <;> ring
  · exact ne_of_gt (area_sum_pos (hb.highNe d) (fun f hf => (hb.high d f hf).2.1))
  · rw [← List.sum_map_mul_left]
    congr 1
    apply List.map_congr_left
    intro f hf
    rw [key f _ hf, (hb.high d f hf).1]
    fin_cases d <;> simp <;> ring

/-- On a box, the computed side distance is the extent of the box. -/
theorem C28_extent (cells : List (GCell K)) (canon : Nat → Int) (lo hi : Fin 3 → K) (d : Fin 3)
    (hn : SidesNumbered cells canon) (hb : IsBox cells canon lo hi) :
    computeDelta cells canon d = some (hi d - lo d) := by
  rw [C28_delta cells canon d hn]
  refine ⟨lo d, hi d, rfl, ⟨?_, ?_⟩, ?_, ?_⟩
  · exact ne_of_gt (area_sum_pos (hb.lowNe d) (fun f hf => (hb.low d f hf).2.1))
  · rw [← List.sum_map_mul_left]
    congr 1
    apply List.map_congr_left
    intro f hf
    change lo d * f.area = f.area * f.centroid d
    rw [(hb.low d f hf).2.2, mul_comm]
  · exact ne_of_gt (area_sum_pos (hb.highNe d) (fun f hf => (hb.high d f hf).2.1))
  · rw [← List.sum_map_mul_left]
    congr 1
    apply List.map_congr_left
    intro f hf
    change hi d * f.area = f.area * f.centroid d
    rw [(hb.high d f hf).2.2, mul_comm]

omit [IsStrictOrderedRing K] in
/-- Under fixed boundary conditions every off-diagonal entry is zero. -/
theorem C28_fixed_diagonal (cells : List (GCell K)) (canon : Fin 3 → Nat → Int) (solve : Fin 3 → Nat → K)
    (T : Fin 3 → Fin 3 → K) (h : upscaleEffectivePerm .fixed cells canon solve = some T) (i j : Fin 3) (hij : i ≠ j) :
    T i j = 0 := by
  have hc : ∀ p c, permColumn .fixed cells (canon p) (solve p) p = some c → ∀ i, i ≠ p → c i = 0 := by
    intro p c hc i hi
    unfold permColumn flowVector at hc
    cases h1 : computeAverageVelocity cells (canon p) (solve p) p with
    | none => simp [h1] at hc
    | some q =>
      cases h2 : computeDelta cells (canon p) p with
      | none => simp [h1, h2] at hc
      | some dl =>
        simp only [h1, h2, Option.map_some, Option.some.injEq] at hc
        subst hc
        simp [hi]
  unfold upscaleEffectivePerm at h
  split at h
  · rename_i c0 c1 c2 h0 h1 h2
    have := Option.some.inj h
    subst this
    fin_cases j
    · exact hc 0 c0 h0 i hij
    · exact hc 1 c1 h1 i hij
    · exact hc 2 c2 h2 i hij
  · exact absurd h (by simp)

/-- On a box of homogeneous permeability `κ`, whose solver returns the exact flow for a unit pressure drop in each
direction (uniform velocity `κ` times gradient `1/extent`), linear and periodic conditions return `κ` itself and fixed
conditions its diagonal. -/
theorem C28_homogeneous (bct : BCType) (cells : List (GCell K)) (canon : Fin 3 → Nat → Int) (lo hi : Fin 3 → K)
    (κ : Fin 3 → Fin 3 → K) (solve : Fin 3 → Nat → K)
    (hn : ∀ p, SidesNumbered cells (canon p)) (hb : ∀ p, IsBox cells (canon p) lo hi) (hlt : ∀ d, lo d < hi d)
    (hv : ∀ p, ∀ c ∈ cells, ∀ f ∈ c.faces, f.boundary = true →
      solve p f.id = f.area * (κ 0 p / (hi p - lo p) * f.normal 0 + κ 1 p / (hi p - lo p) * f.normal 1 +
        κ 2 p / (hi p - lo p) * f.normal 2)) :
    ∃ T, upscaleEffectivePerm bct cells canon solve = some T ∧
      ∀ i p, T i p = if bct = .fixed ∧ i ≠ p then 0 else κ i p := by
  have hq : ∀ p d, computeAverageVelocity cells (canon p) (solve p) d = some (κ d p / (hi p - lo p)) := by
    intro p d
    exact C28_uniform cells (canon p) lo hi (fun d => κ d p / (hi p - lo p)) (solve p) d (hn p) (hb p) (hv p)
  have hd : ∀ p, computeDelta cells (canon p) p = some (hi p - lo p) := fun p =>
    C28_extent cells (canon p) lo hi p (hn p) (hb p)
  have hne : ∀ p, hi p - lo p ≠ 0 := fun p => ne_of_gt (sub_pos.mpr (hlt p))
  have hc : ∀ p, ∃ c, permColumn bct cells (canon p) (solve p) p = some c ∧
      ∀ i, c i = if bct = .fixed ∧ i ≠ p then 0 else κ i p := by
    intro p
    cases bct with
    | fixed =>
      refine ⟨fun i => (if i = p then κ p p / (hi p - lo p) else 0) * (hi p - lo p), ?_, ?_⟩
      · simp only [permColumn, flowVector, hq, hd, Option.map_some]
      · intro i
        by_cases hi' : i = p
        · subst hi'
          simp [div_mul_cancel₀ _ (hne i)]
        · simp [hi']
    | linear =>
      refine ⟨fun i => (![κ 0 p / (hi p - lo p), κ 1 p / (hi p - lo p), κ 2 p / (hi p - lo p)] i) * (hi p - lo p), ?_, ?_⟩
      · simp only [permColumn, flowVector, hq, hd]
      · intro i
        fin_cases i <;> simp [div_mul_cancel₀ _ (hne p)]
    | periodic =>
      refine ⟨fun i => (![κ 0 p / (hi p - lo p), κ 1 p / (hi p - lo p), κ 2 p / (hi p - lo p)] i) * (hi p - lo p), ?_, ?_⟩
      · simp only [permColumn, flowVector, hq, hd]
      · intro i
        fin_cases i <;> simp [div_mul_cancel₀ _ (hne p)]
  obtain ⟨c0, e0, p0⟩ := hc 0
  obtain ⟨c1, e1, p1⟩ := hc 1
  obtain ⟨c2, e2, p2⟩ := hc 2
  refine ⟨fun i pdd => ![c0, c1, c2] pdd i, ?_, ?_⟩
  · unfold upscaleEffectivePerm
    rw [e0, e1, e2]
  · intro i p
    fin_cases p
    · exact p0 i
    · exact p1 i
    · exact p2 i

/-! ### Concrete cases -/

/-- Two cells of volumes 1 and 3. -/
def exCells : List (GCell ℚ) := [⟨0, 1, []⟩, ⟨1, 3, []⟩]

/-- Porosities 1/2 and 1/4, net-to-gross 1 and 1/3. -/
def exRock : Rock ℚ :=
  ⟨fun i => if i = 0 then 1 / 2 else 1 / 4, fun i => if i = 0 then 1 else 1 / 3, fun _ => 1 / 10, fun i => i⟩

example : upscalePorosity exRock exCells = some (5 / 16) := by decide +kernel
example : upscaleNTG exRock exCells = some (1 / 2) := by decide +kernel
example : upscaleNetPorosity exRock exCells = 3 / 8 := by decide +kernel
example : upscaleSWCR exRock true exCells = some (1 / 10) := by decide +kernel
example : upscaleSOWCR exRock false exCells = some (3 / 5) := by decide +kernel
example : upscaleSOWCR exRock true exCells = some (1 / 3) := by decide +kernel
example : IsMean exCells (fun c => c.volume) (fun c => exRock.porosity c.index) (5 / 16) :=
  (C27_porosity exRock exCells _).mp (by decide +kernel)
example : (1 / 4 : ℚ) ≤ 5 / 16 ∧ (5 / 16 : ℚ) ≤ 1 / 2 :=
  C27_bounds exCells (fun c => c.volume) (fun c => exRock.porosity c.index) _ _ _
    ((C27_porosity exRock exCells _).mp (by decide +kernel))
    (by decide +kernel) (by decide +kernel) (by decide +kernel)

/-- A face of the box `[0,1] × [0,2] × [0,4]`, numbered by its side. -/
def exFace (side : Nat) : GFace ℚ :=
  let d : Nat := (side - 1) / 2
  ⟨side, true, side, if d = 0 then 8 else if d = 1 then 4 else 2,
    fun i => if i.val = d then (if side % 2 = 1 then -1 else 1) else 0,
    fun i => if i.val = d then (if side % 2 = 1 then 0 else ![1, 2, 4] i) else ![1 / 2, 1, 2] i⟩

/-- The box as a single cell. -/
def exBox : List (GCell ℚ) := [⟨0, 8, [exFace 1, exFace 2, exFace 3, exFace 4, exFace 5, exFace 6]⟩]

/-- The box side numbering is the boundary id. -/
def exCanon : Nat → Int := fun b => b

theorem exBox_numbered : SidesNumbered exBox exCanon := by
  unfold SidesNumbered
  decide +kernel

theorem exBox_isBox : IsBox exBox exCanon (fun _ => 0) ![1, 2, 4] := by
  refine ⟨?_, ?_, ?_, ?_⟩
  · intro d f hf
    have : f = exFace (2 * d.val + 1) := by
      fin_cases d <;> (simp [sideFaces, exBox, exCanon, exFace, List.filter_cons] at hf; subst hf; simp [exFace])
    subst this
    refine ⟨?_, ?_, ?_⟩
    · funext i
      fin_cases d <;> fin_cases i <;> decide +kernel
    · fin_cases d <;> decide +kernel
    · fin_cases d <;> decide +kernel
  · intro d f hf
    have : f = exFace (2 * d.val + 2) := by
      fin_cases d <;> (simp [sideFaces, exBox, exCanon, exFace, List.filter_cons] at hf; subst hf; simp [exFace])
    subst this
    refine ⟨?_, ?_, ?_⟩
    · funext i
      fin_cases d <;> fin_cases i <;> decide +kernel
    · fin_cases d <;> decide +kernel
    · fin_cases d <;> decide +kernel
  · intro d
    fin_cases d <;> simp [sideFaces, exBox, exCanon, exFace, List.filter_cons]
  · intro d
    fin_cases d <;> simp [sideFaces, exBox, exCanon, exFace, List.filter_cons]

/-- A flow whose outflux is 6 through the high x side and 2 through the low x side. -/
example : computeAverageVelocity exBox exCanon (fun i => if i = 2 then 6 else if i = 1 then 2 else 0) 0 =
    some (1 / 4) := by decide +kernel

/-- The homogeneous theorem applies to this box, for a full (non-symmetric) permeability. -/
example : ∃ T, upscaleEffectivePerm .periodic exBox (fun _ => exCanon)
    (fun p i => (exFace i).area * ((3 * (p.val : ℚ) + 1) / (![1, 2, 4] p - 0) * (exFace i).normal 0 +
      (3 * (p.val : ℚ) + 2) / (![1, 2, 4] p - 0) * (exFace i).normal 1 +
      (3 * (p.val : ℚ) + 3) / (![1, 2, 4] p - 0) * (exFace i).normal 2)) = some T ∧
    ∀ i p, T i p = if BCType.periodic = .fixed ∧ i ≠ p then 0 else 3 * (p.val : ℚ) + (i.val + 1) := by
  refine C28_homogeneous .periodic exBox (fun _ => exCanon) (fun _ => 0) ![1, 2, 4]
    (fun i p => 3 * (p.val : ℚ) + (i.val + 1)) _ (fun _ => exBox_numbered) (fun _ => exBox_isBox)
    (by decide +kernel) ?_
  decide +kernel

/-- Sensitivity to the numbering hypothesis: a boundary face whose canonical id was never set (the stored default 0) is
counted on the high side of direction 0, because `(0 - 1)/2` is 0 in C++. -/
theorem C28_unset_id_counts_as_high_x (f : GFace K) (hf : f.boundary = true) (canon : Nat → Int)
    (hc : canon f.bid = 0) (value : GFace K → K) (acc : Sides K) :
    sideStep canon 0 value acc f = { acc with v2 := acc.v2 + value f, a2 := acc.a2 + f.area } := by
  simp [sideStep, hf, hc]

end Verif.Upscale
