import Verif.Lemmas.Statistics
import Mathlib.Analysis.SpecialFunctions.Log.Basic

/-! C100: statistics of a grid (`upscale_avg`). -/

namespace Verif.Stat

section
variable {K : Type} [Field K] [LinearOrder K] [IsStrictOrderedRing K]

theorem cutoff_pos : (0 : K) < cutoff := by unfold cutoff; positivity

theorem count_card (use : Bool) (d : Deck K) (grid : List (Nat × K)) (hG : Good use d grid) :
    grid.countP (fun c => decide (cutoff < cellVol use d grid c.1)) = (Active use d grid).card := by
  have h : ((grid.filter fun c => decide (cutoff < cellVol use d grid c.1)).map Prod.fst).toFinset = Active use d grid := by
    ext i
    unfold Active
    rw [List.mem_toFinset, List.mem_map, Finset.mem_filter, Finset.mem_range]
    constructor
    · rintro ⟨c, hc, rfl⟩
      rw [List.mem_filter] at hc
      exact ⟨hG.inside c hc.1, of_decide_eq_true hc.2⟩
    · rintro ⟨h1, h2⟩
      by_cases hi : i ∈ grid.map Prod.fst
      · obtain ⟨c, hc, rfl⟩ := List.mem_map.mp hi
        exact ⟨c, List.mem_filter.mpr ⟨hc, decide_eq_true h2⟩, rfl⟩
      · rw [cellVol_nokey use d grid i hi] at h2
        exact absurd h2 (not_lt.mpr cutoff_pos.le)
  rw [← h, List.toFinset_card_of_nodup, List.length_map, List.countP_eq_length_filter]
  exact hG.distinct.sublist (List.filter_sublist.map _)

theorem sum_active (use : Bool) (d : Deck K) (grid : List (Nat × K)) (f : Nat → K) :
    ∑ i ∈ Finset.range d.n, (if cutoff < cellVol use d grid i then f i else 0) = ∑ i ∈ Active use d grid, f i := by
  unfold Active
  rw [Finset.sum_filter]
  rfl

/-- The vectors over cells. -/
theorem fill_ok {use : Bool} {d : Deck K} {grid : List (Nat × K)} (hG : Good use d grid) : ∃ act a, actnums use d = .ok act ∧
    fill d act grid = .ok a ∧ a.vol = cellVol use d grid ∧ a.count = (Active use d grid).card ∧
    (∀ p, d.poro = some p → ∀ i, a.pore i = if cutoff < cellVol use d grid i then cellVol use d grid i * val p i else 0) ∧
    (∀ p g, d.poro = some p → d.ntg = some g → ∀ i,
      a.net i = (if cutoff < cellVol use d grid i then cellVol use d grid i * val g i else 0) ∧
      a.netPore i = if cutoff < cellVol use d grid i then cellVol use d grid i * val p i * val g i else 0) := by
  obtain ⟨act, h1, h2⟩ := actnums_ok hG
  obtain ⟨a, e, hv, hp, hn, hc⟩ := fill_spec d act (cellVol use d grid) hG.poro hG.ntg grid
    ⟨fun _ => 0, fun _ => 0, fun _ => 0, fun _ => 0, 0⟩ hG.distinct hG.inside h2
  have key : ∀ i, (i ∈ grid.map Prod.fst ∧ cutoff < cellVol use d grid i) ↔ cutoff < cellVol use d grid i := by
    intro i
    refine ⟨fun h => h.2, fun h => ⟨?_, h⟩⟩
    by_contra hi
    rw [cellVol_nokey use d grid i hi] at h
    exact absurd h (not_lt.mpr cutoff_pos.le)
  refine ⟨act, a, h1, e, ?_, ?_, fun p h i => ?_, fun p g h h' i => ?_⟩
  · funext i
    rw [hv i]
    split
    · rfl
    · rename_i hi; exact (cellVol_nokey use d grid i hi).symm
  · rw [hc, count_card use d grid hG]; simp
  · rw [hp p h i]; simp only [key]
  · rw [(hn p g h h' i).1, (hn p g h h' i).2]; simp only [key, and_self]

theorem means_ok (ln ex : K → K) {use : Bool} {d : Deck K} {grid : List (Nat × K)} (hT : Thick use d grid) (a : Arrays K)
    (ha : a.vol = cellVol use d grid) (hc : a.count = (Active use d grid).card) (k : List K) (hk : k.length = d.n) :
    means ln ex d.n a k = .ok (meansOf ln ex (Active use d grid) (cellVol use d grid) (val k)) := by
  have hvol : total d.n (cellVol use d grid) = ∑ i ∈ Active use d grid, cellVol use d grid i := by
    rw [total_eq, ← sum_active]
    refine Finset.sum_congr rfl fun i hi => ?_
    rcases hT i (Finset.mem_range.mp hi) with h | h
    · rw [h]; simp
    · exact (if_pos h).symm
  unfold means
  rw [ha, perm_spec ln _ k d.n (by omega), hvol, hc]
  change Except.ok _ = _
  congr 1
  unfold meansOf wmean wharm wgeom
  have one : ∑ i ∈ Active use d grid, (1 : K) = ((Active use d grid).card : K) := by simp
  simp only [one, one_mul]
  unfold Active
  simp only [mul_comm]
  rfl

theorem vol_thick {use : Bool} {d : Deck K} {grid : List (Nat × K)} (hT : Thick use d grid) :
    total d.n (cellVol use d grid) = ∑ i ∈ Active use d grid, cellVol use d grid i := by
  rw [total_eq, ← sum_active]
  refine Finset.sum_congr rfl fun i hi => ?_
  rcases hT i (Finset.mem_range.mp hi) with h | h
  · rw [h]; simp
  · exact (if_pos h).symm

/-- The table of a rock type. -/
def rockTable (use : Bool) (d : Deck K) (grid : List (Nat × K)) (r : Nat) : Rock K :=
  let t := rockSpec d (cellVol use d grid) (rockOf d) d.n r
  match d.poro with
  | none => t
  | some p => { t with var := t.var + (∑ i ∈ (Finset.range d.n).filter (fun i => cutoff < cellVol use d grid i ∧ rockOf d i = r),
      cellVol use d grid i * (val p i - t.pore / t.vol) ^ 2) }

theorem activeIn_eq (use : Bool) (d : Deck K) (grid : List (Nat × K)) (r : Nat) :
    (Finset.range d.n).filter (fun i => cutoff < cellVol use d grid i ∧ rockOf d i = r) = ActiveIn use d grid r := by
  unfold ActiveIn Active
  rw [Finset.filter_filter]
  rfl

theorem rockTable_report (use : Bool) (d : Deck K) (grid : List (Nat × K)) (r : Nat) :
    (rockTable use d grid r).report d = rockOut use d grid r ∧ (rockTable use d grid r).active = (ActiveIn use d grid r).card := by
  have one : ∑ i ∈ ActiveIn use d grid r, (1 : K) = ((ActiveIn use d grid r).card : K) := by simp
  unfold rockTable rockOut Rock.report rockSpec
  simp only [activeIn_eq]
  cases hp : d.poro <;> cases hk : d.permx <;>
    simp [wmean, wharm, wvar, mul_comm]

theorem rocks_ok {use : Bool} {d : Deck K} {grid : List (Nat × K)} (hG : Good use d grid) (hs : (d.satnum <|> d.rocktype).isSome) :
    ∃ l, rocks d (cellVol use d grid) = .ok l ∧ (∀ q, q ∈ l ↔ (ActiveIn use d grid q.1).Nonempty ∧ q.2 = rockOut use d grid q.1) ∧
      (l.map Prod.fst).Pairwise (· < ·) := by
  obtain ⟨sat, hsat⟩ := Option.isSome_iff_exists.mp hs
  obtain ⟨hlen, hrange⟩ := hG.sat sat hsat
  have hrock : ∀ i, (sat.getD i 0).toNat = rockOf d i := by intro i; unfold rockOf; rw [hsat]; rfl
  have hvar : variances d (cellVol use d grid) sat (rockSpec d (cellVol use d grid) (rockOf d) d.n) = .ok (rockTable use d grid) := by
    unfold variances rockTable
    cases hp : d.poro with
    | none => rfl
    | some p =>
      dsimp only
      rw [var_spec _ sat p _ d.n (by omega) (by rw [hG.poro p hp])]
      simp only [hrock]
  refine ⟨((List.range (maxSat sat + 1)).filter fun r => decide (0 < (rockTable use d grid r).active)).map fun r =>
    (r, (rockTable use d grid r).report d), ?_, fun q => ?_, ?_⟩
  · unfold rocks
    rw [hsat]
    dsimp only
    rw [if_neg, rock_spec d _ sat d.n (by omega) (fun l h => by rw [hG.permx l h]) (fun l h => by rw [hG.poro l h])]
    · change (variances d (cellVol use d grid) sat (rockSpec d (cellVol use d grid) (fun i => (sat.getD i 0).toNat) d.n)).map _ = _
      simp only [hrock]
      rw [hvar]
      rfl
    · rw [List.any_eq_true]
      rintro ⟨s, h1, h2⟩
      have := hrange s h1
      have := of_decide_eq_true h2
      omega
  · rw [List.mem_map]
    constructor
    · rintro ⟨r, hr, rfl⟩
      rw [List.mem_filter] at hr
      have := of_decide_eq_true hr.2
      rw [(rockTable_report use d grid r).2] at this
      exact ⟨Finset.card_pos.mp this, (rockTable_report use d grid r).1⟩
    · rintro ⟨h1, h2⟩
      refine ⟨q.1, List.mem_filter.mpr ⟨?_, decide_eq_true ?_⟩, ?_⟩
      · obtain ⟨i, hi⟩ := h1
        have h3 := (Finset.mem_filter.mp hi).2
        have h4 := Finset.mem_range.mp (Finset.mem_filter.mp (Finset.mem_filter.mp hi).1).1
        rw [List.mem_range, ← h3, ← hrock, List.getD_eq_getElem?_getD, List.getElem?_eq_getElem (by omega), Option.getD_some]
        exact Nat.lt_succ_of_le (maxSat_ge sat _ (List.getElem_mem _))
      · rw [(rockTable_report use d grid q.1).2]
        exact Finset.card_pos.mpr h1
      · rw [(rockTable_report use d grid q.1).1, ← h2]
  · rw [List.map_map]
    change (List.map id _).Pairwise _
    rw [List.map_id]
    exact List.pairwise_lt_range.sublist List.filter_sublist

/-- **C100** (partial: no cells with a positive volume below 1e-10). `upscale_avg` reports the volume of the cells, their porosity and net-to-gross ratio,
the averages of the permeabilities, and for every rock type with an active cell, in increasing order, the same for its cells. -/
theorem C100_report_partial (ln ex : K → K) (use : Bool) (d : Deck K) (grid : List (Nat × K)) (hG : Good use d grid) (hT : Thick use d grid) :
    ∃ r, upscaleAvg ln ex use d grid = .ok r ∧ r.active = (Active use d grid).card ∧
      r.volume = ∑ i ∈ Active use d grid, cellVol use d grid i ∧
      (∀ p, d.poro = some p → r.poro = some (∑ i ∈ Active use d grid, cellVol use d grid i * val p i,
        wmean (Active use d grid) (cellVol use d grid) (val p))) ∧
      (∀ p g, d.poro = some p → d.ntg = some g → r.ntg = some (∑ i ∈ Active use d grid, cellVol use d grid i * val g i,
        wmean (Active use d grid) (cellVol use d grid) (val g), ∑ i ∈ Active use d grid, cellVol use d grid i * val p i * val g i,
        wmean (Active use d grid) (fun i => cellVol use d grid i * val g i) (val p))) ∧
      (∀ k, d.permx = some k → r.permx = some (meansOf ln ex (Active use d grid) (cellVol use d grid) (val k))) ∧
      (∀ k ky kz, d.permx = some k → d.permy = some ky → d.permz = some kz →
        r.permy = some (meansOf ln ex (Active use d grid) (cellVol use d grid) (val ky)) ∧
        r.permz = some (meansOf ln ex (Active use d grid) (cellVol use d grid) (val kz))) ∧
      ((d.satnum <|> d.rocktype).isSome →
        (∀ q, q ∈ r.rocks ↔ (ActiveIn use d grid q.1).Nonempty ∧ q.2 = rockOut use d grid q.1) ∧
        (r.rocks.map Prod.fst).Pairwise (· < ·)) := by
  obtain ⟨act, a, h1, h2, hv, hc, hp, hn⟩ := fill_ok hG
  have hm : ∀ k : Option (List K), (∀ l, k = some l → l.length = d.n) →
      meansOpt ln ex d.n a k = .ok (k.map fun k => meansOf ln ex (Active use d grid) (cellVol use d grid) (val k)) := by
    intro k hk
    cases k with
    | none => rfl
    | some k =>
      change (means ln ex d.n a k).map some = _
      rw [means_ok ln ex hT a hv hc k (hk k rfl)]
      rfl
  obtain ⟨rs, hrs, hrs2⟩ : ∃ rs, rocks d a.vol = .ok rs ∧ ((d.satnum <|> d.rocktype).isSome →
        (∀ q, q ∈ rs ↔ (ActiveIn use d grid q.1).Nonempty ∧ q.2 = rockOut use d grid q.1) ∧ (rs.map Prod.fst).Pairwise (· < ·)) := by
    rw [hv]
    cases hs : (d.satnum <|> d.rocktype) with
    | none => exact ⟨[], by unfold rocks; rw [hs], fun h => by cases h⟩
    | some sat =>
      obtain ⟨l, e, e2⟩ := rocks_ok hG (by rw [hs]; rfl)
      exact ⟨l, e, fun _ => e2⟩
  refine ⟨⟨a.count, total d.n a.vol,
   d.poro.map fun _ => (total d.n a.pore, total d.n a.pore / total d.n a.vol),
   (d.poro.bind fun _ => d.ntg).map fun _ => (total d.n a.net, total d.n a.net / total d.n a.vol, total d.n a.netPore,
     total d.n a.netPore / total d.n a.net), d.permx.map fun k => meansOf ln ex (Active use d grid) (cellVol use d grid) (val k),
   (d.permx.bind fun _ => d.permz.bind fun _ => d.permy).map fun k => meansOf ln ex (Active use d grid) (cellVol use d grid) (val k),
   (d.permx.bind fun _ => d.permy.bind fun _ => d.permz).map fun k => meansOf ln ex (Active use d grid) (cellVol use d grid) (val k), rs⟩,
   ?_, hc, ?_, fun p h => ?_, fun p g h h' => ?_, fun k h => ?_, fun k ky kz h h' h'' => ?_, hrs2⟩
  · unfold upscaleAvg
    rw [h1]
    change (fill d act grid).bind _ = _
    rw [h2]
    change (meansOpt ln ex d.n a d.permx).bind _ = _
    rw [hm _ hG.permx]
    change (meansOpt ln ex d.n a (d.permx.bind fun _ => d.permz.bind fun _ => d.permy)).bind _ = _
    rw [hm _ (fun l h => by
      obtain ⟨_, -, h⟩ := Option.bind_eq_some_iff.mp h
      obtain ⟨_, -, h⟩ := Option.bind_eq_some_iff.mp h
      exact hG.permy l h)]
    change (meansOpt ln ex d.n a (d.permx.bind fun _ => d.permy.bind fun _ => d.permz)).bind _ = _
    rw [hm _ (fun l h => by
      obtain ⟨_, -, h⟩ := Option.bind_eq_some_iff.mp h
      obtain ⟨_, -, h⟩ := Option.bind_eq_some_iff.mp h
      exact hG.permz l h)]
    change (rocks d a.vol).map _ = _
    rw [hrs]
    rfl
  · rw [hv]; exact vol_thick hT
  · have : total d.n a.pore = ∑ i ∈ Active use d grid, cellVol use d grid i * val p i := by
      rw [total_eq, ← sum_active]
      exact Finset.sum_congr rfl fun i _ => hp p h i
    dsimp only
    rw [h, this, hv, vol_thick hT]
    rfl
  · have e1 : total d.n a.net = ∑ i ∈ Active use d grid, cellVol use d grid i * val g i := by
      rw [total_eq, ← sum_active]
      exact Finset.sum_congr rfl fun i _ => (hn p g h h' i).1
    have e2 : total d.n a.netPore = ∑ i ∈ Active use d grid, cellVol use d grid i * val p i * val g i := by
      rw [total_eq, ← sum_active]
      exact Finset.sum_congr rfl fun i _ => (hn p g h h' i).2
    dsimp only
    rw [h, h', e1, e2, hv, vol_thick hT]
    change some _ = some _
    unfold wmean
    simp only [mul_right_comm]
  · dsimp only; rw [h]; rfl
  · dsimp only; rw [h, h', h'']; exact ⟨rfl, rfl⟩

/-- Four cells, one of them missing in the grid, one switched off by ACTNUM, two rock types. -/
def someDeck : Deck ℚ where
  n := 4
  actnum := some [1, 1, 0, 1]
  poro := some [1 / 4, 1 / 5, 1 / 3, 1 / 10]
  ntg := some [1, 1 / 2, 1, 1 / 4]
  permx := some [100, 200, 300, 400]
  permy := none
  permz := none
  satnum := some [2, 1, 1, 2]
  rocktype := none

def someGrid : List (Nat × ℚ) := [(3, 5), (0, 2), (2, 7)]

theorem some_good : Good true someDeck someGrid ∧ Thick true someDeck someGrid := by
  refine ⟨⟨by decide, by decide, fun _ => ⟨_, rfl, rfl, by decide⟩, ?_, ?_, ?_, ?_, ?_, ?_⟩, ?_⟩
  · rintro l h; obtain rfl := Option.some.inj h; rfl
  · rintro l h; obtain rfl := Option.some.inj h; rfl
  · rintro l h; obtain rfl := Option.some.inj h; rfl
  · rintro l h; cases h
  · rintro l h; cases h
  · rintro l h; obtain rfl := Option.some.inj h; exact ⟨rfl, by decide⟩
  · unfold Thick; decide +kernel

/-- The hypotheses are met, and the result is what it should be: volume 7, rock type 2 only. -/
example : ((upscaleAvg id id true someDeck someGrid).toOption.map fun r => (r.volume, r.active, r.rocks.map Prod.fst)) = some (7, 2, [2]) := by
  decide +kernel

theorem rock_sum {use : Bool} {d : Deck K} {grid : List (Nat × K)} (l : List (Nat × RockReport K))
    (h1 : ∀ q, q ∈ l ↔ (ActiveIn use d grid q.1).Nonempty ∧ q.2 = rockOut use d grid q.1) (h2 : (l.map Prod.fst).Pairwise (· < ·))
    (F : RockReport K → K) (g : Nat → K) (h : ∀ r, (ActiveIn use d grid r).Nonempty → F (rockOut use d grid r) = ∑ i ∈ ActiveIn use d grid r, g i) :
    (l.map fun q => F q.2).sum = ∑ i ∈ Active use d grid, g i := by
  have e1 : (l.map fun q => F q.2) = (l.map Prod.fst).map fun r => ∑ i ∈ ActiveIn use d grid r, g i := by
    rw [List.map_map]
    refine List.map_congr_left fun q hq => ?_
    obtain ⟨a, b⟩ := (h1 q).mp hq
    rw [b, h _ a]
    rfl
  have hn : (l.map Prod.fst).Nodup := h2.imp fun h => ne_of_lt h
  rw [e1, ← List.sum_toFinset _ hn]
  have : ∀ i ∈ Active use d grid, rockOf d i ∈ (l.map Prod.fst).toFinset := by
    intro i hi
    rw [List.mem_toFinset, List.mem_map]
    exact ⟨(rockOf d i, rockOut use d grid (rockOf d i)), (h1 _).mpr ⟨⟨i, Finset.mem_filter.mpr ⟨hi, rfl⟩⟩, rfl⟩, rfl⟩
  rw [← Finset.sum_fiberwise_of_maps_to this]
  rfl

theorem vol_pos {use : Bool} {d : Deck K} {grid : List (Nat × K)} {r i : Nat} (hi : i ∈ ActiveIn use d grid r) : 0 < cellVol use d grid i :=
  lt_trans cutoff_pos (Finset.mem_filter.mp (Finset.mem_filter.mp hi).1).2

/-- Total variance: mean square is variance plus square of the mean. -/
theorem steiner (B : Finset Nat) (w x : Nat → K) (hw : ∑ i ∈ B, w i ≠ 0) :
    (∑ i ∈ B, w i) * (wvar B w x + wmean B w x ^ 2) = ∑ i ∈ B, w i * x i ^ 2 := by
  have hm : (∑ i ∈ B, w i) * wmean B w x = ∑ i ∈ B, w i * x i := by unfold wmean; rw [mul_div_cancel₀ _ hw]
  have e : ∑ i ∈ B, w i * (x i - wmean B w x) ^ 2 =
      ∑ i ∈ B, w i * x i ^ 2 - 2 * wmean B w x * (∑ i ∈ B, w i * x i) + wmean B w x ^ 2 * ∑ i ∈ B, w i := by
    rw [Finset.mul_sum, Finset.mul_sum, ← Finset.sum_sub_distrib, ← Finset.sum_add_distrib]
    exact Finset.sum_congr rfl fun i _ => by ring
  have e2 : (∑ i ∈ B, w i) * wvar B w x = ∑ i ∈ B, w i * (x i - wmean B w x) ^ 2 := by unfold wvar; rw [mul_div_cancel₀ _ hw]
  rw [mul_add, e2, e, ← hm]
  ring

/-- **C100** (rock types; partial as above). The rock types make up the whole: volumes, numbers of active cells and pore volumes add up to the totals, the
permeability averages of the rock types combine to the averages of the grid, and the variances within rock types and the porosities
of the rock types account for the mean square of the porosity. -/
theorem C100_rocktypes_partial (ln ex : K → K) (use : Bool) (d : Deck K) (grid : List (Nat × K)) (hG : Good use d grid)
    (hT : Thick use d grid) (hs : (d.satnum <|> d.rocktype).isSome) (p k : List K) (hp : d.poro = some p) (hk : d.permx = some k)
    (hpos : ∀ i ∈ Active use d grid, 0 < val k i) (hne : (Active use d grid).Nonempty) :
    ∃ r P φ m, upscaleAvg ln ex use d grid = .ok r ∧ r.poro = some (P, φ) ∧ r.permx = some m ∧
      (r.rocks.map fun q => q.2.vol).sum = r.volume ∧ (r.rocks.map fun q => (q.2.active : K)).sum = r.active ∧
      (r.rocks.map fun q => q.2.poro.elim 0 fun t => t.1).sum = P ∧
      (r.rocks.map fun q => q.2.poro.elim 0 fun t => q.2.vol * t.2.1).sum = r.volume * φ ∧
      (r.rocks.map fun q => q.2.poro.elim 0 fun t => q.2.vol * (t.2.2 + t.2.1 ^ 2)).sum =
        ∑ i ∈ Active use d grid, cellVol use d grid i * val p i ^ 2 ∧
      (r.rocks.map fun q => q.2.perm.elim 0 fun t => q.2.vol * t.1).sum = r.volume * m.arith ∧
      (r.rocks.map fun q => q.2.perm.elim 0 fun t => q.2.vol / t.2.1).sum = r.volume / m.harm := by
  obtain ⟨r, hr, h1, h2, h3, -, h5, -, h7⟩ := C100_report_partial ln ex use d grid hG hT
  obtain ⟨m1, m2⟩ := h7 hs
  have hsum : ∀ r, (ActiveIn use d grid r).Nonempty → 0 < ∑ i ∈ ActiveIn use d grid r, cellVol use d grid i :=
    fun r h => Finset.sum_pos (fun i hi => vol_pos hi) h
  have hsumA : 0 < ∑ i ∈ Active use d grid, cellVol use d grid i :=
    Finset.sum_pos (fun i hi => lt_trans cutoff_pos (Finset.mem_filter.mp hi).2) hne
  refine ⟨r, _, _, _, hr, h3 p hp, h5 k hk, ?_, ?_, ?_, ?_, ?_, ?_, ?_⟩
  · rw [h2]
    exact rock_sum r.rocks m1 m2 (fun o => o.vol) _ fun r _ => rfl
  · rw [h1]
    have := rock_sum r.rocks m1 m2 (fun o => (o.active : K)) (fun _ => 1) (fun r _ => by simp [rockOut])
    rw [this]
    simp
  · refine rock_sum r.rocks m1 m2 (fun o => o.poro.elim 0 fun t => t.1) _ fun r _ => ?_
    unfold rockOut; rw [hp]; rfl
  · rw [h2]
    unfold wmean
    rw [mul_div_cancel₀ _ hsumA.ne']
    refine rock_sum r.rocks m1 m2 (fun o => o.poro.elim 0 fun t => o.vol * t.2.1) _ fun r hr => ?_
    unfold rockOut; rw [hp]
    change (∑ i ∈ ActiveIn use d grid r, cellVol use d grid i) * wmean _ _ _ = _
    unfold wmean
    rw [mul_div_cancel₀ _ (hsum r hr).ne']
  · refine rock_sum r.rocks m1 m2 (fun o => o.poro.elim 0 fun t => o.vol * (t.2.2 + t.2.1 ^ 2)) _ fun r hr => ?_
    unfold rockOut; rw [hp]
    exact steiner _ _ _ (hsum r hr).ne'
  · rw [h2]
    unfold meansOf wmean
    rw [mul_div_cancel₀ _ hsumA.ne']
    refine rock_sum r.rocks m1 m2 (fun o => o.perm.elim 0 fun t => o.vol * t.1) _ fun r hr => ?_
    unfold rockOut; rw [hk]
    change (∑ i ∈ ActiveIn use d grid r, cellVol use d grid i) * wmean _ _ _ = _
    unfold wmean
    rw [mul_div_cancel₀ _ (hsum r hr).ne']
  · rw [h2]
    unfold meansOf wharm
    rw [div_div_cancel₀ hsumA.ne']
    refine rock_sum r.rocks m1 m2 (fun o => o.perm.elim 0 fun t => o.vol / t.2.1) _ fun r hr => ?_
    unfold rockOut; rw [hk]
    change (∑ i ∈ ActiveIn use d grid r, cellVol use d grid i) / wharm _ _ _ = _
    unfold wharm
    rw [div_div_cancel₀ (hsum r hr).ne']

example : ∃ p k, someDeck.poro = some p ∧ someDeck.permx = some k ∧ (∀ i ∈ Active true someDeck someGrid, 0 < val k i) ∧
    (Active true someDeck someGrid).Nonempty ∧ (someDeck.satnum <|> someDeck.rocktype).isSome :=
  ⟨_, _, rfl, rfl, by decide +kernel, ⟨0, by decide +kernel⟩, rfl⟩

theorem wmean_bounds (A : Finset Nat) (w x : Nat → K) (hne : A.Nonempty) (hw : ∀ i ∈ A, 0 < w i) (lo hi : K)
    (h : ∀ i ∈ A, lo ≤ x i ∧ x i ≤ hi) : lo ≤ wmean A w x ∧ wmean A w x ≤ hi := by
  have hW := Finset.sum_pos hw hne
  unfold wmean
  rw [le_div_iff₀ hW, div_le_iff₀ hW, Finset.mul_sum, Finset.mul_sum]
  constructor
  · exact Finset.sum_le_sum fun i hi => by rw [mul_comm]; exact mul_le_mul_of_nonneg_left (h i hi).1 (hw i hi).le
  · exact Finset.sum_le_sum fun i hi' => by rw [mul_comm hi]; exact mul_le_mul_of_nonneg_left (h i hi').2 (hw i hi').le

theorem wharm_bounds (A : Finset Nat) (w x : Nat → K) (hne : A.Nonempty) (hw : ∀ i ∈ A, 0 < w i) (lo hi : K) (hlo : 0 < lo)
    (h : ∀ i ∈ A, lo ≤ x i ∧ x i ≤ hi) : lo ≤ wharm A w x ∧ wharm A w x ≤ hi := by
  have hx : ∀ i ∈ A, 0 < x i := fun i hi => lt_of_lt_of_le hlo (h i hi).1
  have hS : 0 < ∑ i ∈ A, w i / x i := Finset.sum_pos (fun i hi => div_pos (hw i hi) (hx i hi)) hne
  unfold wharm
  rw [le_div_iff₀ hS, div_le_iff₀ hS, Finset.mul_sum, Finset.mul_sum]
  constructor
  · refine Finset.sum_le_sum fun i hi => ?_
    rw [mul_div_assoc', div_le_iff₀ (hx i hi), mul_comm]
    exact mul_le_mul_of_nonneg_left (h i hi).1 (hw i hi).le
  · refine Finset.sum_le_sum fun i hi' => ?_
    rw [mul_div_assoc', le_div_iff₀ (hx i hi'), mul_comm hi]
    exact mul_le_mul_of_nonneg_left (h i hi').2 (hw i hi').le

/-- **C100** (range). Porosities within limits have an average within the limits, weighted with the net volumes too. -/
theorem C100_porosity_partial (ln ex : K → K) (use : Bool) (d : Deck K) (grid : List (Nat × K)) (hG : Good use d grid) (hT : Thick use d grid)
    (hne : (Active use d grid).Nonempty) (p : List K) (hp : d.poro = some p) (lo hi : K)
    (h : ∀ i ∈ Active use d grid, lo ≤ val p i ∧ val p i ≤ hi) :
    ∃ r P φ, upscaleAvg ln ex use d grid = .ok r ∧ r.poro = some (P, φ) ∧ lo ≤ φ ∧ φ ≤ hi ∧
      ∀ g, d.ntg = some g → (∀ i ∈ Active use d grid, 0 < val g i ∧ val g i ≤ 1) →
        ∃ N η Q ψ, r.ntg = some (N, η, Q, ψ) ∧ 0 ≤ η ∧ η ≤ 1 ∧ lo ≤ ψ ∧ ψ ≤ hi := by
  obtain ⟨r, hr, -, -, h3, h4, -⟩ := C100_report_partial ln ex use d grid hG hT
  have hw : ∀ i ∈ Active use d grid, 0 < cellVol use d grid i := fun i hi => lt_trans cutoff_pos (Finset.mem_filter.mp hi).2
  obtain ⟨b1, b2⟩ := wmean_bounds _ _ (val p) hne hw lo hi h
  refine ⟨r, _, _, hr, h3 p hp, b1, b2, fun g hg hg1 => ?_⟩
  obtain ⟨c1, c2⟩ := wmean_bounds _ _ (val g) hne hw 0 1 fun i hi => ⟨(hg1 i hi).1.le, (hg1 i hi).2⟩
  obtain ⟨e1, e2⟩ := wmean_bounds _ (fun i => cellVol use d grid i * val g i) (val p) hne (fun i hi => mul_pos (hw i hi) (hg1 i hi).1) lo hi h
  exact ⟨_, _, _, _, h4 p g hp hg, c1, c2, e1, e2⟩

example : ∀ i ∈ Active true someDeck someGrid, (1 / 10 : ℚ) ≤ val [1 / 4, 1 / 5, 1 / 3, 1 / 10] i ∧ val [1 / 4, 1 / 5, 1 / 3, 1 / 10] i ≤ (1 / 4 : ℚ) := by
  decide +kernel

end

/-! ### Averages of permeability -/

theorem wgeom_order (A : Finset Nat) (w x : Nat → ℝ) (hne : A.Nonempty) (hw : ∀ i ∈ A, 0 < w i) (hx : ∀ i ∈ A, 0 < x i) :
    wharm A w x ≤ wgeom Real.log Real.exp A w x ∧ wgeom Real.log Real.exp A w x ≤ wmean A w x := by
  have hW := Finset.sum_pos hw hne
  have hS : 0 < ∑ i ∈ A, w i / x i := Finset.sum_pos (fun i hi => div_pos (hw i hi) (hx i hi)) hne
  have hX : 0 < ∑ i ∈ A, w i * x i := Finset.sum_pos (fun i hi => mul_pos (hw i hi) (hx i hi)) hne
  constructor
  · have hh : 0 < wharm A w x := div_pos hW hS
    rw [← Real.exp_log hh]
    unfold wgeom
    rw [Real.exp_le_exp, le_div_iff₀ hW]
    have key : ∀ i ∈ A, w i * (Real.log (wharm A w x) + 1 - wharm A w x / x i) ≤ w i * Real.log (x i) := by
      intro i hi
      refine mul_le_mul_of_nonneg_left ?_ (hw i hi).le
      have := Real.log_le_sub_one_of_pos (div_pos hh (hx i hi))
      rw [Real.log_div hh.ne' (hx i hi).ne'] at this
      linarith
    refine le_trans (le_of_eq ?_) (Finset.sum_le_sum key)
    have e : ∑ i ∈ A, w i * (Real.log (wharm A w x) + 1 - wharm A w x / x i) =
        (Real.log (wharm A w x) + 1) * ∑ i ∈ A, w i - wharm A w x * ∑ i ∈ A, w i / x i := by
      rw [Finset.mul_sum, Finset.mul_sum, ← Finset.sum_sub_distrib]
      exact Finset.sum_congr rfl fun i _ => by ring
    have e2 : wharm A w x * ∑ i ∈ A, w i / x i = ∑ i ∈ A, w i := by unfold wharm; rw [div_mul_cancel₀ _ hS.ne']
    rw [e, e2]
    ring
  · have hh : 0 < wmean A w x := div_pos hX hW
    rw [← Real.exp_log hh]
    unfold wgeom
    rw [Real.exp_le_exp, div_le_iff₀ hW]
    have key : ∀ i ∈ A, w i * Real.log (x i) ≤ w i * (Real.log (wmean A w x) + x i / wmean A w x - 1) := by
      intro i hi
      refine mul_le_mul_of_nonneg_left ?_ (hw i hi).le
      have := Real.log_le_sub_one_of_pos (div_pos (hx i hi) hh)
      rw [Real.log_div (hx i hi).ne' hh.ne'] at this
      linarith
    refine le_trans (Finset.sum_le_sum key) (le_of_eq ?_)
    have e : ∑ i ∈ A, w i * (Real.log (wmean A w x) + x i / wmean A w x - 1) =
        (Real.log (wmean A w x) - 1) * (∑ i ∈ A, w i) + (∑ i ∈ A, w i * x i) / wmean A w x := by
      rw [Finset.mul_sum, Finset.sum_div, ← Finset.sum_add_distrib]
      exact Finset.sum_congr rfl fun i _ => by ring
    have e2 : (∑ i ∈ A, w i * x i) / wmean A w x = ∑ i ∈ A, w i := by unfold wmean; rw [div_div_cancel₀ hX.ne']
    rw [e, e2]
    ring

/-- Harmonic, geometric and arithmetic averages are in this order and between the limits. -/
def Ordered (lo hi : ℝ) (m : Means ℝ) : Prop :=
  (lo ≤ m.harm ∧ m.harm ≤ m.geom ∧ m.geom ≤ m.arith ∧ m.arith ≤ hi) ∧
  lo ≤ m.harmN ∧ m.harmN ≤ m.geomN ∧ m.geomN ≤ m.arithN ∧ m.arithN ≤ hi

/-- **C100** (order of the averages). -/
theorem C100_order_partial (use : Bool) (d : Deck ℝ) (grid : List (Nat × ℝ)) (hG : Good use d grid) (hT : Thick use d grid)
    (hne : (Active use d grid).Nonempty) (lo hi : ℝ) (hlo : 0 < lo) :
    ∃ r, upscaleAvg Real.log Real.exp use d grid = .ok r ∧
      (∀ k, d.permx = some k → (∀ i ∈ Active use d grid, lo ≤ val k i ∧ val k i ≤ hi) → ∃ m, r.permx = some m ∧ Ordered lo hi m) ∧
      (∀ k ky kz, d.permx = some k → d.permy = some ky → d.permz = some kz →
        (∀ i ∈ Active use d grid, (lo ≤ val ky i ∧ val ky i ≤ hi) ∧ lo ≤ val kz i ∧ val kz i ≤ hi) →
        ∃ my mz, r.permy = some my ∧ r.permz = some mz ∧ Ordered lo hi my ∧ Ordered lo hi mz) := by
  obtain ⟨r, hr, -, -, -, -, h5, h6, -⟩ := C100_report_partial Real.log Real.exp use d grid hG hT
  have hw : ∀ i ∈ Active use d grid, 0 < cellVol use d grid i := fun i hi => lt_trans cutoff_pos (Finset.mem_filter.mp hi).2
  have key : ∀ k : List ℝ, (∀ i ∈ Active use d grid, lo ≤ val k i ∧ val k i ≤ hi) →
      Ordered lo hi (meansOf Real.log Real.exp (Active use d grid) (cellVol use d grid) (val k)) := by
    intro k hk
    have hx : ∀ i ∈ Active use d grid, 0 < val k i := fun i hi => lt_of_lt_of_le hlo (hk i hi).1
    exact ⟨⟨(wharm_bounds _ _ _ hne hw lo hi hlo hk).1, (wgeom_order _ _ _ hne hw hx).1, (wgeom_order _ _ _ hne hw hx).2,
      (wmean_bounds _ _ _ hne hw lo hi hk).2⟩, (wharm_bounds _ _ _ hne (fun _ _ => one_pos) lo hi hlo hk).1,
      (wgeom_order _ _ _ hne (fun _ _ => one_pos) hx).1, (wgeom_order _ _ _ hne (fun _ _ => one_pos) hx).2,
      (wmean_bounds _ _ _ hne (fun _ _ => one_pos) lo hi hk).2⟩
  exact ⟨r, hr, fun k h hk => ⟨_, h5 k h, key k hk⟩, fun k ky kz h h' h'' hk =>
    ⟨_, _, (h6 k ky kz h h' h'').1, (h6 k ky kz h h' h'').2, key ky fun i hi => (hk i hi).1, key kz fun i hi => (hk i hi).2⟩⟩

/-- The hypotheses are met by one cell of volume 2 with permeability 100. -/
example : Good (K := ℝ) false ⟨1, none, none, none, some [100], none, none, none, none⟩ [(0, 2)] ∧
    Thick (K := ℝ) false ⟨1, none, none, none, some [100], none, none, none, none⟩ [(0, 2)] ∧
    (Active (K := ℝ) false ⟨1, none, none, none, some [100], none, none, none, none⟩ [(0, 2)]).Nonempty := by
  have hV : cellVol (K := ℝ) false ⟨1, none, none, none, some [100], none, none, none, none⟩ [(0, 2)] 0 = 2 := by
    unfold cellVol; simp
  refine ⟨⟨by simp, by simp, by simp, by simp, by simp, ?_, by simp, by simp, by simp⟩, fun i hi => ?_, 0, ?_⟩
  · rintro l h; obtain rfl := Option.some.inj h; rfl
  · have : i = 0 := by simpa using hi
    subst this
    right; rw [hV]; norm_num
  · exact Finset.mem_filter.mpr ⟨by simp, by rw [hV]; norm_num⟩

/-- **C100** (violated). A sample of cells below 0.1 cubic millimetres, given in metres: the cells are counted in the volume but not in the
pore volume, so a sample with porosity 1/4 everywhere is reported to have porosity zero. -/
theorem C100_violated_small : ∃ r, upscaleAvg (K := ℚ) id id false ⟨2, none, some [1 / 4, 1 / 4], none, none, none, none, none, none⟩
    [(0, 1 / 10 ^ 11), (1, 1 / 10 ^ 11)] = .ok r ∧ r.volume = 2 / 10 ^ 11 ∧ r.poro = some (0, 0) := by
  have h : ((upscaleAvg (K := ℚ) id id false ⟨2, none, some [1 / 4, 1 / 4], none, none, none, none, none, none⟩
    [(0, 1 / 10 ^ 11), (1, 1 / 10 ^ 11)]).toOption.map fun r => (r.volume, r.poro)) = some (2 / 10 ^ 11, some (0, 0)) := by decide +kernel
  cases e : upscaleAvg (K := ℚ) id id false ⟨2, none, some [1 / 4, 1 / 4], none, none, none, none, none, none⟩
    [(0, 1 / 10 ^ 11), (1, 1 / 10 ^ 11)] with
  | error _ => rw [e] at h; cases h
  | ok r =>
    rw [e] at h
    obtain ⟨h1, h2⟩ := Prod.mk.inj (Option.some.inj h)
    exact ⟨r, rfl, h1, h2⟩

/-- **C100** (violated). With `-use_actnum 1` the program prints the first two values of ACTNUM; a grid of one cell has only one. -/
theorem C100_violated_single : upscaleAvg (K := ℚ) id id true ⟨1, some [1], some [1 / 4], none, none, none, none, none, none⟩ [(0, 1)] =
    .error .ub := rfl

end Verif.Stat
