import Verif.Props.RelPerm
import Mathlib.Tactic.FinCases
import Mathlib.Algebra.BigOperators.Fin

/-!
C33 (anisotropic input, single phase), C66-C67 (gravity), C69: relative permeabilities from phase permeabilities.
-/

namespace Verif.RelPerm

open Verif.Upscale Verif.Dense Verif.Control

variable {K : Type} [Field K] [LinearOrder K]

/-! ### C33, anisotropic input -/

theorem maxFoldDiag (S : Sys K) (kr : Fin 3 → Nat → K → K) (perm : Fin 3 → Nat → K) (minPerm p : K) (l : List Nat)
    (m0 m : K) (h : l.foldl (maxStepDiag S kr perm minPerm p) (some m0) = some m) :
    m0 ≤ m ∧ ∀ c ∈ l, 0 < S.satnum c → minPerm ≤ m ∧ ∀ k, phasePermDiag S kr perm p c = some k → ∀ d, k d ≤ m := by
  induction l generalizing m0 with
  | nil =>
    simp only [List.foldl_nil, Option.some.injEq] at h
    subst h
    exact ⟨le_refl _, by simp⟩
  | cons c l ih =>
    rw [List.foldl_cons] at h
    have hn : ∀ l : List Nat, l.foldl (maxStepDiag S kr perm minPerm p) none = none := by
      intro l
      induction l with
      | nil => rfl
      | cons c l ih => rw [List.foldl_cons]; exact ih
    by_cases hr : 0 < S.satnum c
    · cases hk : phasePermDiag S kr perm p c with
      | none =>
        have : maxStepDiag S kr perm minPerm p (some m0) c = none := by
          unfold maxStepDiag; simp only [gt_iff_lt, if_pos hr, hk, Option.map_none]
        rw [this, hn] at h
        exact absurd h (by simp)
      | some k =>
        have : maxStepDiag S kr perm minPerm p (some m0) c = some (max (max m0 minPerm) (max (max (k 0) (k 1)) (k 2))) := by
          unfold maxStepDiag; simp only [gt_iff_lt, if_pos hr, hk, Option.map_some]
        rw [this] at h
        obtain ⟨h1, h2⟩ := ih _ h
        have b1 := (max_le_iff.mp h1).1
        have b2 := max_le_iff.mp (max_le_iff.mp h1).2
        refine ⟨(max_le_iff.mp b1).1, ?_⟩
        intro d hd hrd
        rcases List.mem_cons.mp hd with rfl | hd
        · refine ⟨(max_le_iff.mp b1).2, fun k' hk' e => ?_⟩
          rw [hk] at hk'
          rw [← Option.some.inj hk']
          fin_cases e
          · exact (max_le_iff.mp b2.1).1
          · exact (max_le_iff.mp b2.1).2
          · exact b2.2
        · exact h2 d hd hrd
    · have : maxStepDiag S kr perm minPerm p (some m0) c = some m0 := by
        unfold maxStepDiag; simp only [gt_iff_lt, if_neg hr]
      rw [this] at h
      obtain ⟨h1, h2⟩ := ih _ h
      refine ⟨h1, ?_⟩
      intro d hd hrd
      rcases List.mem_cons.mp hd with rfl | hd
      · exact absurd hrd hr
      · exact h2 d hd hrd

section ordered
variable [IsStrictOrderedRing K]

/-- **C33.** Anisotropic input without rock-free cells (whenever the code is defined there are none): each diagonal
element given to the solver is the larger of a common floor and the direction's relperm times that direction's
permeability, the floor is at least the least permeability, and no two elements in any cells differ by more than the
largest contrast. -/
theorem C33_anisotropic_partial (S : Sys K) (kr : Fin 3 → Nat → K → K) (perm : Fin 3 → Nat → K) (contrast minPerm p : K)
    (ks : List (Fin 3 → K)) (h : cellPermsDiag S kr perm contrast minPerm p = some ks) (hc : 1 ≤ contrast)
    (hm : 0 ≤ minPerm) :
    ks.length = S.globalCell.length ∧ (∀ c ∈ S.globalCell, 0 < S.satnum c) ∧
    (∃ floor, minPerm ≤ floor ∧ ∀ (i c : Nat) (k : Fin 3 → K), S.globalCell[i]? = some c → ks[i]? = some k →
      ∃ s, Spec.CellSat S p c s ∧ ∀ d, k d = max floor (kr d (S.satnum c - 1).toNat s * perm d c)) ∧
    ∀ k ∈ ks, ∀ k' ∈ ks, ∀ d d', k d ≤ contrast * k' d' := by
  unfold cellPermsDiag at h
  split at h
  rotate_left
  · exact absurd h (by simp)
  rename_i m hfold
  obtain ⟨q1, q2⟩ := maxFoldDiag S kr perm minPerm p _ _ _ hfold
  obtain ⟨hl, hg⟩ := mapM_opt _ _ _ h
  have hcpos : 0 < contrast := lt_of_lt_of_le zero_lt_one hc
  have hfl : minPerm ≤ floorPerm m contrast minPerm := le_max_right _ _
  have hfm : m ≤ contrast * floorPerm m contrast minPerm := by
    have : m / contrast ≤ floorPerm m contrast minPerm := le_max_left _ _
    rw [div_le_iff₀ hcpos] at this
    rw [mul_comm]; exact this
  have hcell : ∀ (i c : Nat) (k : Fin 3 → K), S.globalCell[i]? = some c → ks[i]? = some k →
      0 < S.satnum c ∧ ∃ raw, phasePermDiag S kr perm p c = some raw ∧
        (∀ d, k d = max (floorPerm m contrast minPerm) (raw d)) ∧ ∀ d, raw d ≤ m := by
    intro i c k hi hk
    obtain ⟨k', hk', e⟩ := hg i c hi
    rw [hk] at hk'
    have ek := Option.some.inj hk'
    subst ek
    by_cases hr : 0 < S.satnum c
    · simp only [gt_iff_lt, if_pos hr, Option.map_eq_some_iff] at e
      obtain ⟨raw, e1, e2⟩ := e
      exact ⟨hr, raw, e1, fun d => by rw [← e2], (q2 c (List.mem_of_getElem? hi) hr).2 raw e1⟩
    · simp only [gt_iff_lt, if_neg hr] at e
      exact absurd e (by simp)
  refine ⟨hl, ?_, ⟨floorPerm m contrast minPerm, hfl, ?_⟩, ?_⟩
  · intro c hcm
    obtain ⟨i, hi⟩ := List.mem_iff_getElem?.mp hcm
    have hil := (List.getElem?_eq_some_iff.mp hi).1
    exact (hcell i c _ hi (List.getElem?_eq_getElem (hl ▸ hil))).1
  · intro i c k hi hk
    obtain ⟨hr, raw, e1, e2, _⟩ := hcell i c k hi hk
    unfold phasePermDiag at e1
    rw [Option.map_eq_some_iff] at e1
    obtain ⟨s, hs, e⟩ := e1
    exact ⟨s, cellSw_spec S p c s hs hr, fun d => by rw [e2, ← e]; rfl⟩
  · intro k hk k' hk' d d'
    obtain ⟨i, hi⟩ := List.mem_iff_getElem?.mp hk
    obtain ⟨j, hj⟩ := List.mem_iff_getElem?.mp hk'
    have hil := (List.getElem?_eq_some_iff.mp hi).1
    have hjl := (List.getElem?_eq_some_iff.mp hj).1
    obtain ⟨_, raw, _, e2, e3⟩ := hcell i _ k (List.getElem?_eq_getElem (hl ▸ hil)) hi
    obtain ⟨_, raw', _, e2', _⟩ := hcell j _ k' (List.getElem?_eq_getElem (hl ▸ hjl)) hj
    have h1' : floorPerm m contrast minPerm ≤ k' d' := by rw [e2']; exact le_max_left _ _
    rw [e2]
    refine max_le ?_ ?_
    · exact le_trans h1' (le_mul_of_one_le_left (le_trans (le_trans hm hfl) h1') hc)
    · exact le_trans (e3 d) (le_trans hfm (mul_le_mul_of_nonneg_left h1' hcpos.le))

omit [IsStrictOrderedRing K] in
theorem maxSingle_fold (S : Sys K) (l : List Nat) (m : K) :
    m ≤ l.foldl (maxSingle S) m ∧ ∀ c ∈ l, 0 < S.satnum c → S.permx c ≤ l.foldl (maxSingle S) m := by
  induction l generalizing m with
  | nil => simp
  | cons c l ih =>
    rw [List.foldl_cons]
    obtain ⟨h1, h2⟩ := ih (maxSingle S m c)
    by_cases hr : 0 < S.satnum c
    · have e : maxSingle S m c = max m (S.permx c) := by unfold maxSingle; rw [if_pos hr]
      rw [e] at h1 h2 ⊢
      refine ⟨le_trans (le_max_left _ _) h1, ?_⟩
      intro d hd hrd
      rcases List.mem_cons.mp hd with rfl | hd
      · exact le_trans (le_max_right _ _) h1
      · exact h2 d hd hrd
    · have e : maxSingle S m c = m := by unfold maxSingle; rw [if_neg hr]
      rw [e] at h1 h2 ⊢
      refine ⟨h1, ?_⟩
      intro d hd hrd
      rcases List.mem_cons.mp hd with rfl | hd
      · exact absurd hrd hr
      · exact h2 d hd hrd

/-- **C33.** Single phase permeability, isotropic input: every value is at least the least permeability, is the cell's
permeability where that is above the floor, and the contrast is limited. Cells without rock have at most the least
permeability (C31). -/
theorem C33_single (S : Sys K) (permy permz : Nat → K) (contrast minPerm : K) (hiso : S.aniso = false) (hc : 1 ≤ contrast)
    (hm : 0 ≤ minPerm) (hno : ∀ c ∈ S.globalCell, ¬ 0 < S.satnum c → S.permx c ≤ minPerm) :
    (∃ floor, minPerm ≤ floor ∧ ∀ (i c : Nat), S.globalCell[i]? = some c →
      ∃ k, (singlePerms S permy permz contrast minPerm)[i]? = some k ∧ ∀ d, k d = max (S.permx c) floor) ∧
    ∀ k ∈ singlePerms S permy permz contrast minPerm, ∀ k' ∈ singlePerms S permy permz contrast minPerm, ∀ d d',
      k d ≤ contrast * k' d' := by
  obtain ⟨q1, q2⟩ := maxSingle_fold S S.globalCell 0
  have hcpos : 0 < contrast := lt_of_lt_of_le zero_lt_one hc
  have hfl : minPerm ≤ singleFloor S contrast minPerm := le_max_right _ _
  have hfm : S.globalCell.foldl (maxSingle S) 0 ≤ contrast * singleFloor S contrast minPerm := by
    have : S.globalCell.foldl (maxSingle S) 0 / contrast ≤ singleFloor S contrast minPerm := le_max_left _ _
    rw [div_le_iff₀ hcpos] at this
    rw [mul_comm]; exact this
  refine ⟨⟨singleFloor S contrast minPerm, hfl, ?_⟩, ?_⟩
  · intro i c hi
    unfold singlePerms
    rw [List.getElem?_map, hi]
    exact ⟨_, rfl, fun d => by simp [hiso]⟩
  · intro k hk k' hk' d d'
    unfold singlePerms at hk hk'
    obtain ⟨c, hcm, e⟩ := List.mem_map.mp hk
    obtain ⟨c', hcm', e'⟩ := List.mem_map.mp hk'
    have ek : k d = max (S.permx c) (singleFloor S contrast minPerm) := by rw [← e]; simp [hiso]
    have ek' : singleFloor S contrast minPerm ≤ k' d' := by
      rw [← e']; simp [hiso]
    have hfk : singleFloor S contrast minPerm ≤ contrast * k' d' :=
      le_trans ek' (le_mul_of_one_le_left (le_trans (le_trans hm hfl) ek') hc)
    rw [ek]
    refine max_le ?_ hfk
    by_cases hr : 0 < S.satnum c
    · exact le_trans (q2 c hcm hr) (le_trans hfm (mul_le_mul_of_nonneg_left ek' hcpos.le))
    · exact le_trans (hno c hcm hr) (le_trans hfl hfk)

end ordered

/-- A falling test curve on [0,1]: 1 - x, constant outside. -/
def lineCurve : Curve ℚ := ⟨[(0, 1), (1, 0)], fun x => if x ≤ 0 then 1 else if 1 ≤ x then 0 else 1 - x⟩

/-- Two rocks cells (and room for cells without rock) of unit volume. -/
def exSys (g : List Nat) (sat : Nat → Int) (dP : List ℚ) (aniso : Bool) : Sys ℚ :=
  ⟨g, sat, fun _ => 1, fun c => if c = 0 then 1 else 4, fun _ => 1, dP, aniso, fun _ => lineCurve, fun _ => lineCurve, id⟩

/-- The isotropic limits at work: raw values 0 and 2, contrast 10, least permeability 1/100. -/
example : cellPerms (exSys [0, 1, 2] (fun c => if c = 2 then 0 else 1) [] false) (fun _ s => s) 10 (1/100) (1/8) =
    some [7/8, 2, 1/5] := by decide +kernel

/-- The anisotropic ones. -/
example : (cellPermsDiag (exSys [0, 1] (fun _ => 1) [] true) (fun d _ s => if d = 2 then s else 0) (fun _ c => (c : ℚ) + 1) 10 (1/100)
    (1/2)).map (fun l => l.map fun k => [k 0, k 1, k 2]) = some [[1/10, 1/10, 1/2], [1/10, 1/10, 1]] := by decide +kernel

/-- **C33 (deviation).** Anisotropic input with a cell without rock: the code reads from an empty vector. -/
theorem C33_violated_norock :
    cellPermsDiag (exSys [0, 1] (fun c => if c = 1 then 0 else 1) [] true) (fun _ _ s => s) (fun _ _ => 1) 10 (1/100)
      (1/2) = none := by decide +kernel

/-- **C33 (deviation).** Single phase permeability of anisotropic input: the limit is taken from x-permeabilities only, so
the contrast between elements (here 400) exceeds the largest allowed one (10). -/
theorem C33_violated_single_anisotropic :
    (singlePerms (exSys [0, 1] (fun _ => 1) [] true) (fun _ => 1600) (fun _ => 0) 10 (1/100)).map
      (fun k => [k 0, k 1, k 2]) = [[1, 1600, 2/5], [4, 1600, 2/5]] := by decide +kernel

/-! ### C66, examples and deviation -/

/-- Without gravity. -/
example : (minMaxPc (exSys [0, 1] (fun _ => 1) [] false) 0 (1/100)).map (fun R => (R.pcmin, R.pcmax, R.swir, R.swor)) =
    some (0, 1, 0, 1) := by decide +kernel

/-- Balanced heads. -/
example : Balanced (exSys [0, 1] (fun _ => 1) [-3, 3] false) 10 ∧
    (minMaxPc (exSys [0, 1] (fun _ => 1) [-3, 3] false) 10 (1/100)).map (fun R => (R.pcmin, R.pcmax)) = some (-3, 4) := by
  refine ⟨Or.inr ⟨by norm_num, 3, by simp [exSys], by simp [exSys], ?_⟩, by decide +kernel⟩
  intro d hd
  simp only [exSys, List.mem_cons, List.not_mem_nil, or_false] at hd
  rcases hd with rfl | rfl <;> norm_num

theorem lineCurve_falling : Spec.Falling lineCurve := by
  refine ⟨?_, ?_, ?_⟩
  · intro i j p q hij hp hq
    match i, j with
    | 0, 0 => rw [hp] at hq; rw [Option.some.inj hq]
    | 0, 1 =>
      simp [lineCurve] at hp hq
      rw [← hp, ← hq]; norm_num
    | 1, 1 => rw [hp] at hq; rw [Option.some.inj hq]
    | 1, 0 => omega
    | 0, j + 2 => simp [lineCurve] at hq
    | 1, j + 2 => simp [lineCurve] at hq
    | i + 2, _ => simp [lineCurve] at hp
  · intro p hp x hx
    simp only [lineCurve, List.head?_cons, Option.some.injEq] at hp
    subst hp
    simp only [lineCurve]
    rw [if_pos hx]
  · intro p hp x hx
    have : p = (1, 0) := by simpa [lineCurve] using hp.symm
    subst this
    simp only [lineCurve]
    rw [if_neg (by simp only at hx; linarith), if_pos hx]

/-- **C66 (deviation).** Heads measured from depth 0: a model of thickness 20 at depth 1000 to 1020 has only positive
heads. The code lowers the whole range although the cells see the pressure minus their head: at the largest pressure the
system is at its largest saturation instead of the irreducible one. -/
theorem C66_violated :
    (minMaxPc (exSys [0, 1] (fun _ => 1) (cellHeads 1 1 20 [1005, 1015]) false) 1 (1/100)).bind
      (fun R => (upscaledSw (exSys [0, 1] (fun _ => 1) (cellHeads 1 1 20 [1005, 1015]) false) R.pcmax).map
        fun w => (R.swir, w)) = some (0, 1) := by decide +kernel

/-! ### C67 -/

omit [LinearOrder K] in
/-- **C67.** With gravity and no inactive cell, every cell sees the system pressure minus the weight difference of the
phases over the distance of the cell's centre from half the model's thickness. -/
theorem C67_head_partial (S : Sys K) (dRho gravity thick p : K) (depths : List K) (hne : depths ≠ [])
    (hdp : S.dP = cellHeads dRho gravity thick depths) (hall : S.globalCell = List.range depths.length)
    (i : Nat) (d : K) (hi : depths[i]? = some d) :
    ∃ c, S.globalCell[i]? = some c ∧ S.cellPc p c = some (p - dRho * gravity * (d - thick / 2)) := by
  have hlen := (List.getElem?_eq_some_iff.mp hi).1
  refine ⟨i, by rw [hall, List.getElem?_range hlen], ?_⟩
  apply cellPc_of_head
  right
  rw [hdp]
  unfold cellHeads
  refine ⟨by simpa using hne, ?_⟩
  rw [List.getElem?_map, hi]
  rfl

/-- Two cells at depths 5 and 15. -/
example : (exSys [0, 1] (fun _ => 1) (cellHeads 2 10 20 [5, 15]) false).cellPc 7 1 = some (7 - 2 * 10 * (15 - 20 / 2)) := by
  decide +kernel

/-- **C67 (deviation).** With an inactive first cell of the deck the first cell of the grid (depth 5) gets the head of the
second (depth 15), and the second reads past the end. -/
theorem C67_violated_inactive :
    (exSys [1, 2] (fun _ => 1) (cellHeads 2 10 20 [5, 15]) false).cellPc 7 1 = some (7 - 2 * 10 * (15 - 20 / 2)) ∧
    (exSys [1, 2] (fun _ => 1) (cellHeads 2 10 20 [5, 15]) false).cellPc 7 2 = none := by
  constructor <;> decide +kernel

/-- The depth of corner `(a, b, e)` (each 0 or 1) of a cell, in the Eclipse order of ZCORN. -/
def cornerZ (nx ny : Nat) (zcorn : List K) (c : Nat × Nat × Nat) (a b e : Nat) : K :=
  zcorn.getD ((2 * c.1 + a) + 2 * nx * ((2 * c.2.1 + b) + 2 * ny * (2 * c.2.2 + e))) 0

/-- Sum of the four corners of the top (`e = 0`) or bottom (`e = 1`) of a cell. -/
def faceSum (nx ny : Nat) (zcorn : List K) (e : Nat) (c : Nat × Nat × Nat) : K :=
  cornerZ nx ny zcorn c 0 0 e + cornerZ nx ny zcorn c 1 0 e + cornerZ nx ny zcorn c 0 1 e + cornerZ nx ny zcorn c 1 1 e

theorem corner_lt {nx ny nz i j k a b e : Nat} (hi : i < nx) (hj : j < ny) (hk : k < nz) (ha : a < 2) (hb : b < 2)
    (he : e < 2) : (2 * i + a) + 2 * nx * ((2 * j + b) + 2 * ny * (2 * k + e)) < 2 * nx * (2 * ny * (2 * nz)) := by
  have h1 : 2 * i + a + 1 ≤ 2 * nx := by omega
  have h2 : 2 * j + b + 1 ≤ 2 * ny := by omega
  have h3 : 2 * k + e + 1 ≤ 2 * nz := by omega
  calc (2 * i + a) + 2 * nx * ((2 * j + b) + 2 * ny * (2 * k + e))
      < 2 * nx * ((2 * j + b) + 2 * ny * (2 * k + e) + 1) := by rw [Nat.mul_add _ _ 1]; omega
    _ ≤ 2 * nx * (2 * ny * (2 * k + e + 1)) := by
        apply Nat.mul_le_mul_left
        rw [Nat.mul_add _ _ 1]
        omega
    _ ≤ _ := by
        apply Nat.mul_le_mul_left
        apply Nat.mul_le_mul_left
        exact h3

omit [LinearOrder K] in
theorem addCorner_some (nx ny nz : Nat) (zcorn : List K) (hz : zcorn.length = 2 * nx * (2 * ny * (2 * nz)))
    (i j k : Nat) (hi : i < nx) (hj : j < ny) (hk : k < nz) (h : List (Avg K)) (hh : h.length = 2 * nz)
    (a b e q : Nat) (ha : a < 2) (hb : b < 2) (he : e < 2) (hq : q / 4 = e) (A : Avg K) (hA : h[2 * k + e]? = some A) :
    addCorner nx ny zcorn i j k (some h) (sub2ind (2 * nx) (2 * ny) a b e, q) =
      some (h.set (2 * k + e) (A.add (cornerZ nx ny zcorn (i, j, k) a b e))) := by
  have hidx : zcornStart nx ny i j k + sub2ind (2 * nx) (2 * ny) a b e =
      (2 * i + a) + 2 * nx * ((2 * j + b) + 2 * ny * (2 * k + e)) := by
    unfold zcornStart sub2ind
    ring
  have hlt := corner_lt (nx := nx) (ny := ny) (nz := nz) hi hj hk ha hb he
  have hz' : zcorn[zcornStart nx ny i j k + sub2ind (2 * nx) (2 * ny) a b e]? =
      some (cornerZ nx ny zcorn (i, j, k) a b e) := by
    rw [hidx]
    unfold cornerZ
    rw [List.getD_eq_getElem?_getD, List.getElem?_eq_getElem (hz ▸ hlt)]
    rfl
  unfold addCorner
  simp only [hz', hq, hA]

omit [LinearOrder K] in
theorem activate_some (nx ny nz : Nat) (zcorn : List K) (hz : zcorn.length = 2 * nx * (2 * ny * (2 * nz)))
    (c : Nat × Nat × Nat) (hi : c.1 < nx) (hj : c.2.1 < ny) (hk : c.2.2 < nz) (h : List (Avg K)) (hh : h.length = 2 * nz) :
    ∃ h', activateCell nx ny zcorn (some h) c = some h' ∧ h'.length = 2 * nz ∧
      ∀ (k e : Nat) (A : Avg K), e < 2 → h[2 * k + e]? = some A →
        h'[2 * k + e]? = some (if k = c.2.2 then ⟨A.x + faceSum nx ny zcorn e c, A.n + 4⟩ else A) := by
  obtain ⟨i, j, k⟩ := c
  simp only at hi hj hk
  obtain ⟨T, hT⟩ : ∃ T, h[2 * k + 0]? = some T := ⟨_, List.getElem?_eq_getElem (by omega)⟩
  obtain ⟨B, hB⟩ : ∃ B, h[2 * k + 1]? = some B := ⟨_, List.getElem?_eq_getElem (by omega)⟩
  have hoff : (zcornOffset nx ny).zipIdx =
      [(sub2ind (2 * nx) (2 * ny) 0 0 0, 0), (sub2ind (2 * nx) (2 * ny) 1 0 0, 1), (sub2ind (2 * nx) (2 * ny) 0 1 0, 2),
       (sub2ind (2 * nx) (2 * ny) 1 1 0, 3), (sub2ind (2 * nx) (2 * ny) 0 0 1, 4), (sub2ind (2 * nx) (2 * ny) 1 0 1, 5),
       (sub2ind (2 * nx) (2 * ny) 0 1 1, 6), (sub2ind (2 * nx) (2 * ny) 1 1 1, 7)] := rfl
  have step := addCorner_some nx ny nz zcorn hz i j k hi hj hk
  unfold activateCell
  rw [hoff]
  simp only [List.foldl_cons, List.foldl_nil]
  rw [step h hh 0 0 0 0 (by omega) (by omega) (by omega) rfl T hT]
  rw [step _ (by simp [hh]) 1 0 0 1 (by omega) (by omega) (by omega) rfl _ (List.getElem?_set_self (by omega))]
  rw [List.set_set]
  rw [step _ (by simp [hh]) 0 1 0 2 (by omega) (by omega) (by omega) rfl _ (List.getElem?_set_self (by omega))]
  rw [List.set_set]
  rw [step _ (by simp [hh]) 1 1 0 3 (by omega) (by omega) (by omega) rfl _ (List.getElem?_set_self (by omega))]
  rw [List.set_set]
  rw [step _ (by simp [hh]) 0 0 1 4 (by omega) (by omega) (by omega) rfl B
    (by rw [List.getElem?_set_ne (by omega)]; exact hB)]
  rw [step _ (by simp [hh]) 1 0 1 5 (by omega) (by omega) (by omega) rfl _ (List.getElem?_set_self (by simp; omega))]
  rw [List.set_set]
  rw [step _ (by simp [hh]) 0 1 1 6 (by omega) (by omega) (by omega) rfl _ (List.getElem?_set_self (by simp; omega))]
  rw [List.set_set]
  rw [step _ (by simp [hh]) 1 1 1 7 (by omega) (by omega) (by omega) rfl _ (List.getElem?_set_self (by simp; omega))]
  rw [List.set_set]
  refine ⟨_, rfl, by simp [hh], ?_⟩
  intro m e A he hA
  by_cases hm : m = k
  · subst hm
    rw [if_pos rfl]
    have : e = 0 ∨ e = 1 := by omega
    rcases this with rfl | rfl
    · rw [List.getElem?_set_ne (by omega), List.getElem?_set_self (by omega)]
      rw [hT] at hA
      rw [← Option.some.inj hA]
      simp only [Avg.add, faceSum, Option.some.injEq, Avg.mk.injEq]
      constructor <;> ring
    · rw [List.getElem?_set_self (by simp; omega)]
      rw [hB] at hA
      rw [← Option.some.inj hA]
      simp only [Avg.add, faceSum, Option.some.injEq, Avg.mk.injEq]
      constructor <;> ring
  · rw [if_neg hm, List.getElem?_set_ne (by omega), List.getElem?_set_ne (by omega)]
    exact hA

omit [LinearOrder K] in
theorem activate_fold (nx ny nz : Nat) (zcorn : List K) (hz : zcorn.length = 2 * nx * (2 * ny * (2 * nz)))
    (cells : List (Nat × Nat × Nat)) (hc : ∀ c ∈ cells, c.1 < nx ∧ c.2.1 < ny ∧ c.2.2 < nz) (h : List (Avg K))
    (hh : h.length = 2 * nz) :
    ∃ h', cells.foldl (activateCell nx ny zcorn) (some h) = some h' ∧ h'.length = 2 * nz ∧
      ∀ (k e : Nat) (A : Avg K), e < 2 → h[2 * k + e]? = some A →
        h'[2 * k + e]? = some ⟨A.x + ((cells.filter fun c => c.2.2 = k).map (faceSum nx ny zcorn e)).sum,
          A.n + 4 * ((cells.filter fun c => c.2.2 = k).length : K)⟩ := by
  induction cells generalizing h with
  | nil => exact ⟨h, rfl, hh, fun k e A _ hA => by simpa using hA⟩
  | cons c cells ih =>
    obtain ⟨c1, c2, c3⟩ := hc c (List.mem_cons_self ..)
    obtain ⟨h1, e1, l1, g1⟩ := activate_some nx ny nz zcorn hz c c1 c2 c3 h hh
    obtain ⟨h2, e2, l2, g2⟩ := ih (fun d hd => hc d (List.mem_cons_of_mem _ hd)) h1 l1
    refine ⟨h2, by rw [List.foldl_cons, e1]; exact e2, l2, ?_⟩
    intro k e A he hA
    have := g2 k e _ he (g1 k e A he hA)
    rw [this]
    by_cases hk : c.2.2 = k
    · rw [List.filter_cons_of_pos (by simpa using hk), if_pos hk.symm]
      simp only [List.map_cons, List.sum_cons, List.length_cons, Option.some.injEq, Avg.mk.injEq]
      push_cast
      constructor <;> ring
    · rw [List.filter_cons_of_neg (by simpa using hk), if_neg (fun hh => hk hh.symm)]

/-- **C67.** The thickness of the model: the mean depth of the bottom corners of the active cells of the last layer minus
the mean depth of the top corners of the active cells of the first layer; undefined (0/0) when one of these layers has no
active cell. -/
theorem C67_thickness [IsStrictOrderedRing K] (nx ny nz : Nat) (hnz : 0 < nz) (zcorn : List K)
    (hz : zcorn.length = 2 * nx * (2 * ny * (2 * nz)))
    (cells : List (Nat × Nat × Nat)) (hc : ∀ c ∈ cells, c.1 < nx ∧ c.2.1 < ny ∧ c.2.2 < nz) (t : K) :
    thickness nx ny nz zcorn cells = some t ↔
      ∃ top bot : K, t = bot - top ∧ (∃ c ∈ cells, c.2.2 = 0) ∧ (∃ c ∈ cells, c.2.2 = nz - 1) ∧
        top * (4 * ((cells.filter fun c => c.2.2 = 0).length : K)) =
          ((cells.filter fun c => c.2.2 = 0).map (faceSum nx ny zcorn 0)).sum ∧
        bot * (4 * ((cells.filter fun c => c.2.2 = nz - 1).length : K)) =
          ((cells.filter fun c => c.2.2 = nz - 1).map (faceSum nx ny zcorn 1)).sum := by
  obtain ⟨h, e, l, g⟩ := activate_fold nx ny nz zcorn hz cells hc (List.replicate (2 * nz) Avg.zero) (by simp)
  have g0 := g 0 0 Avg.zero (by omega) (by rw [List.getElem?_replicate, if_pos (by omega)])
  have g1 := g (nz - 1) 1 Avg.zero (by omega) (by rw [List.getElem?_replicate, if_pos (by omega)])
  have e0 : h.head? = _ := (List.head?_eq_getElem? (l := h)).trans g0
  have e1 : h.getLast? = _ := (List.getLast?_eq_getElem? (l := h)).trans ((show h[h.length - 1]? = h[2 * (nz - 1) + 1]? by
    rw [l]; congr 1; omega).trans g1)
  have hex : ∀ k, (∃ c ∈ cells, c.2.2 = k) ↔ ((cells.filter fun c => c.2.2 = k).length : K) ≠ 0 := by
    intro k
    rw [Nat.cast_ne_zero, ne_eq, List.length_eq_zero_iff, List.filter_eq_nil_iff]
    push Not
    simp
  unfold thickness
  rw [e]
  simp only [e0, e1, Avg.value, Avg.zero, zero_add]
  rw [hex, hex]
  generalize ((cells.filter fun c => c.2.2 = 0).length : K) = n0
  generalize ((cells.filter fun c => c.2.2 = nz - 1).length : K) = n1
  generalize ((cells.filter fun c => c.2.2 = 0).map (faceSum nx ny zcorn 0)).sum = s0
  generalize ((cells.filter fun c => c.2.2 = nz - 1).map (faceSum nx ny zcorn 1)).sum = s1
  have h4 : (4 : K) ≠ 0 := by norm_num
  unfold quot
  by_cases h0 : n0 = 0
  · simp [h0]
  by_cases h1 : n1 = 0
  · simp [h0, h1]
  rw [if_neg (mul_ne_zero h4 h0), if_neg (mul_ne_zero h4 h1)]
  simp only [Option.some.injEq]
  constructor
  · rintro rfl
    exact ⟨_, _, rfl, h0, h1, by field_simp, by field_simp⟩
  · rintro ⟨top, bot, rfl, _, _, a, b⟩
    rw [← a, ← b]
    field_simp

/-- One cell between depths 3 and 8, whose bottom is tilted. -/
example : thickness (K := ℚ) 1 1 1 [3, 3, 3, 3, 7, 7, 9, 9] [(0, 0, 0)] = some 5 := by decide +kernel

/-! ### C69 -/

/-- The tensor with the given nine elements in Voigt order `xx yy zz yz xz xy zy zx yx`. -/
def voigtMatrix (p : Fin 9 → K) : Matrix (Fin 3) (Fin 3) K :=
  !![p 0, p 5, p 4; p 8, p 1, p 3; p 7, p 6, p 2]

/-- The zero tensor of the code. -/
def zeroTensor : FullMatrix K := ⟨.c, 3, 3, [0, 0, 0, 0, 0, 0, 0, 0, 0]⟩

omit [LinearOrder K] in
theorem fill9 (p : Fin 9 → K) : fillVoigt (zeroTensor (K := K)) (List.ofFn p) =
    some ⟨.c, 3, 3, [p 0, p 5, p 4, p 8, p 1, p 3, p 7, p 6, p 2]⟩ := by
  rw [show List.ofFn p = [p 0, p 1, p 2, p 3, p 4, p 5, p 6, p 7, p 8] by simp [List.ofFn_succ, Fin.succ]]
  rfl

omit [LinearOrder K] in
theorem fill3 (a b c : K) : fillVoigt (zeroTensor (K := K)) [a, b, c] = some ⟨.c, 3, 3, [a, 0, 0, 0, b, 0, 0, 0, c]⟩ := rfl

omit [LinearOrder K] in
theorem represents9 (a b c d e f g h i : K) :
    Represents (⟨.c, 3, 3, [a, b, c, d, e, f, g, h, i]⟩ : FullMatrix K) !![a, b, c; d, e, f; g, h, i] := by
  refine ⟨rfl, rfl, rfl, ?_⟩
  intro x y
  fin_cases x <;> fin_cases y <;> rfl

omit [LinearOrder K] in
theorem voigt_read {T : FullMatrix K} {M : Matrix (Fin 3) (Fin 3) K} (hT : Represents T M) (ho : T.ord = .c) :
    T = ⟨.c, 3, 3, [M 0 0, M 0 1, M 0 2, M 1 0, M 1 1, M 1 2, M 2 0, M 2 1, M 2 2]⟩ := by
  obtain ⟨h1, h2, h3, h4⟩ := hT
  obtain ⟨a, b, c, d, e, f, g, i, j, rfl⟩ := tensor_destruct (T := T) ⟨ho, h1, h2, h3⟩
  have e00 : some a = some (M 0 0) := h4 0 0
  have e01 : some b = some (M 0 1) := h4 0 1
  have e02 : some c = some (M 0 2) := h4 0 2
  have e10 : some d = some (M 1 0) := h4 1 0
  have e11 : some e = some (M 1 1) := h4 1 1
  have e12 : some f = some (M 1 2) := h4 1 2
  have e20 : some g = some (M 2 0) := h4 2 0
  have e21 : some i = some (M 2 1) := h4 2 1
  have e22 : some j = some (M 2 2) := h4 2 2
  simp only [Option.some.injEq] at e00 e01 e02 e10 e11 e12 e20 e21 e22
  simp only [e00, e01, e02, e10, e11, e12, e20, e21, e22]

omit [LinearOrder K] in
/-- **C69.** Nine tensor elements (linear or periodic boundary conditions): for each point the values returned are the nine
elements, in Voigt order, of the tensor `R` with `R · K = P`, where `P` is the phase permeability tensor and `K` the
single phase tensor. -/
theorem C69_full (inv : FullMatrix K) (Kinv Kt : Matrix (Fin 3) (Fin 3) K) (hinv : Represents inv Kinv)
    (hK : Kinv * Kt = 1) (p : Fin 9 → K) :
    ∃ r : Fin 9 → K, relPermRow zeroTensor inv 9 (List.ofFn p) = some (List.ofFn r) ∧
      voigtMatrix r * Kt = voigtMatrix p := by
  obtain ⟨C, hC, ho, hR⟩ := prod_spec (C := zeroTensor (K := K))
    (represents9 (p 0) (p 5) (p 4) (p 8) (p 1) (p 3) (p 7) (p 6) (p 2)) hinv rfl rfl rfl
  have hd := voigt_read hR ho
  set M := !![p 0, p 5, p 4; p 8, p 1, p 3; p 7, p 6, p 2] * Kinv with hM
  refine ⟨![M 0 0, M 1 1, M 2 2, M 1 2, M 0 2, M 0 1, M 2 1, M 2 0, M 1 0], ?_, ?_⟩
  · unfold relPermRow
    rw [fill9]
    simp only [hC, hd]
    rw [show List.ofFn ![M 0 0, M 1 1, M 2 2, M 1 2, M 0 2, M 0 1, M 2 1, M 2 0, M 1 0] =
      [M 0 0, M 1 1, M 2 2, M 1 2, M 0 2, M 0 1, M 2 1, M 2 0, M 1 0] by simp [List.ofFn_succ, Fin.succ]]
    rfl
  · have e : voigtMatrix ![M 0 0, M 1 1, M 2 2, M 1 2, M 0 2, M 0 1, M 2 1, M 2 0, M 1 0] = M := by
      ext x y
      fin_cases x <;> fin_cases y <;> rfl
    rw [e, hM, Matrix.mul_assoc, hK, Matrix.mul_one]
    rfl

omit [LinearOrder K] in
/-- **C69.** Three tensor elements (fixed boundary conditions): the values are the diagonal of the tensor `R` with
`R · K = diag P`. -/
theorem C69_diagonal (inv : FullMatrix K) (Kinv Kt : Matrix (Fin 3) (Fin 3) K) (hinv : Represents inv Kinv)
    (hK : Kinv * Kt = 1) (a b c : K) :
    ∃ R : Matrix (Fin 3) (Fin 3) K, relPermRow zeroTensor inv 3 [a, b, c] = some [R 0 0, R 1 1, R 2 2] ∧
      R * Kt = !![a, 0, 0; 0, b, 0; 0, 0, c] := by
  obtain ⟨C, hC, ho, hR⟩ := prod_spec (C := zeroTensor (K := K)) (represents9 a 0 0 0 b 0 0 0 c) hinv rfl rfl rfl
  have hd := voigt_read hR ho
  refine ⟨!![a, 0, 0; 0, b, 0; 0, 0, c] * Kinv, ?_, by rw [Matrix.mul_assoc, hK, Matrix.mul_one]⟩
  generalize (!![a, 0, 0; 0, b, 0; 0, 0, c] : Matrix (Fin 3) (Fin 3) K) * Kinv = M at hd hR
  unfold relPermRow
  rw [fill3]
  simp only [hC, hd]
  rfl

omit [LinearOrder K] in
/-- **C69.** When the phase permeability is the single phase permeability, the relative permeability is the identity. -/
theorem C69_identity (inv : FullMatrix K) (Kinv : Matrix (Fin 3) (Fin 3) K) (p : Fin 9 → K)
    (hinv : Represents inv Kinv) (hK : Kinv * voigtMatrix p = 1) (hK' : voigtMatrix p * Kinv = 1) :
    ∃ r : Fin 9 → K, relPermRow zeroTensor inv 9 (List.ofFn p) = some (List.ofFn r) ∧ voigtMatrix r = 1 := by
  obtain ⟨r, h1, h2⟩ := C69_full inv Kinv (voigtMatrix p) hinv hK p
  refine ⟨r, h1, ?_⟩
  calc voigtMatrix r = voigtMatrix r * (voigtMatrix p * Kinv) := by rw [hK', Matrix.mul_one]
    _ = voigtMatrix p * Kinv := by rw [← Matrix.mul_assoc, h2]
    _ = 1 := hK'

/-- A full tensor over an anisotropic one. -/
example : relPermRow (K := ℚ) zeroTensor ⟨.c, 3, 3, [1/2, 0, 0, 0, 1/4, 0, 0, 0, 1/8]⟩ 9 [1, 2, 4, 1, 0, 1, 1, 0, 1] =
    some [1/2, 1/2, 1/2, 1/8, 0, 1/4, 1/4, 0, 1/2] := by decide +kernel

/-- **C69.** The end point check on the values of one element: it fails exactly when neither end value is below the
threshold; otherwise the smaller end value becomes 0 and all others stay. -/
theorem C69_endpoints (thresh : K) (vals : List K) (first last : K) (h1 : vals.head? = some first)
    (h2 : vals.getLast? = some last) :
    (eclipseCheck thresh vals = none ↔ thresh ≤ first ∧ thresh ≤ last) ∧
    ∀ r, eclipseCheck thresh vals = some r → r.length = vals.length ∧
      ∃ m, (m = 0 ∧ first < last ∨ m = vals.length - 1 ∧ last ≤ first) ∧
        (∃ v, vals[m]? = some v ∧ v < thresh) ∧ r[m]? = some 0 ∧ ∀ q, q ≠ m → r[q]? = vals[q]? := by
  have hlen : 0 < vals.length := by
    cases vals with
    | nil => simp at h1
    | cons a l => simp
  unfold eclipseCheck
  simp only [h1, h2]
  by_cases hlt : first < last
  · simp only [if_pos hlt]
    by_cases ht : first < thresh
    · rw [if_pos ht]
      refine ⟨by simp [ht], ?_⟩
      intro r hr
      rw [← Option.some.inj hr]
      refine ⟨by simp, 0, Or.inl ⟨rfl, hlt⟩, ⟨first, by rw [← List.head?_eq_getElem?]; exact h1, ht⟩,
        List.getElem?_set_self hlen, fun q hq => List.getElem?_set_ne (Ne.symm hq)⟩
    · rw [if_neg ht]
      exact ⟨⟨fun _ => ⟨not_lt.mp ht, le_trans (not_lt.mp ht) hlt.le⟩, fun _ => rfl⟩, fun r hr => absurd hr (by simp)⟩
  · simp only [if_neg hlt]
    by_cases ht : last < thresh
    · rw [if_pos ht]
      refine ⟨by simp [ht], ?_⟩
      intro r hr
      rw [← Option.some.inj hr]
      refine ⟨by simp, vals.length - 1, Or.inr ⟨rfl, not_lt.mp hlt⟩,
        ⟨last, by rw [← List.getLast?_eq_getElem?]; exact h2, ht⟩,
        List.getElem?_set_self (by omega), fun q hq => List.getElem?_set_ne (Ne.symm hq)⟩
    · rw [if_neg ht]
      exact ⟨⟨fun _ => ⟨le_trans (not_lt.mp ht) (not_lt.mp hlt), not_lt.mp ht⟩, fun _ => rfl⟩,
        fun r hr => absurd hr (by simp)⟩

example : eclipseCheck (K := ℚ) (1/100) [1/1000, 1/2, 1] = some [0, 1/2, 1] := by decide +kernel

/-- **C69 (deviation).** The check is made on off-diagonal elements too: a value of -3/10 at an end is replaced by 0. -/
theorem C69_violated_offdiagonal : eclipseCheck (K := ℚ) (1/100) [-3/10, -1/10, 0] = some [0, -1/10, 0] := by
  decide +kernel

/-! ### C66, when the range is computed -/

section
variable {K : Type} [Field K] [LinearOrder K]

theorem minF_least (c : Curve K) (m : K) (h : ∃ q ∈ c.pts, q.2 = m) (hm : ∀ q ∈ c.pts, m ≤ q.2) : c.minF = some m := by
  cases e : c.minF with
  | none =>
    unfold Curve.minF at e
    split at e
    · rename_i e'; rw [e'] at h; obtain ⟨q, hq, _⟩ := h; cases hq
    · cases e
  | some a =>
    obtain ⟨h1, q, hq, rfl⟩ := minF_spec c a e
    obtain ⟨p, hp, rfl⟩ := h
    exact congrArg some (le_antisymm (h1 p hp) (hm q hq))

theorem maxF_greatest (c : Curve K) (m : K) (h : ∃ q ∈ c.pts, q.2 = m) (hm : ∀ q ∈ c.pts, q.2 ≤ m) : c.maxF = some m := by
  cases e : c.maxF with
  | none =>
    unfold Curve.maxF at e
    split at e
    · rename_i e'; rw [e'] at h; obtain ⟨q, hq, _⟩ := h; cases hq
    · cases e
  | some a =>
    obtain ⟨h1, q, hq, rfl⟩ := maxF_spec c a e
    obtain ⟨p, hp, rfl⟩ := h
    exact congrArg some (le_antisymm (hm q hq) (h1 p hp))

theorem mmStep_some (S : Sys K) (m : MM K) (c : Nat)
    (h : 0 < S.satnum c → (∃ lo hi, Spec.CellRange S c lo hi) ∧ (∃ a, (Spec.curve S c).minF = some a) ∧ ∃ b, (Spec.curve S c).maxF = some b) :
    ∃ m', mmStep S (some m) c = some m' := by
  unfold mmStep
  by_cases hr : 0 < S.satnum c
  · obtain ⟨⟨lo, hi, first, last, e1, e2, e3, _⟩, ⟨a, ha⟩, b, hb⟩ := h hr
    have k1 : (S.curve c).minX = some first.1 := by
      show Option.map _ (Spec.curve S c).pts.head? = _
      rw [e1]; rfl
    have k2 : (S.curve c).maxX = some last.1 := by
      show Option.map _ (Spec.curve S c).pts.getLast? = _
      rw [e2]; rfl
    have k3 : (S.curve c).minF = some a := ha
    have k4 : (S.curve c).maxF = some b := hb
    have k5 : S.jfac c ≠ 0 := e3
    simp only [gt_iff_lt, if_pos hr, k1, k2, k3, k4, quot, if_neg k5]
    exact ⟨_, rfl⟩
  · simp only [gt_iff_lt, if_neg hr]
    exact ⟨_, rfl⟩

theorem mmFold_some (S : Sys K) (l : List Nat) (m : MM K)
    (h : ∀ c ∈ l, 0 < S.satnum c → (∃ lo hi, Spec.CellRange S c lo hi) ∧ (∃ a, (Spec.curve S c).minF = some a) ∧ ∃ b, (Spec.curve S c).maxF = some b) :
    ∃ m', l.foldl (mmStep S) (some m) = some m' := by
  induction l generalizing m with
  | nil => exact ⟨m, rfl⟩
  | cons c l ih =>
    obtain ⟨m', e⟩ := mmStep_some S m c (h c (List.mem_cons_self ..))
    rw [List.foldl_cons, e]
    exact ih m' fun d hd => h d (List.mem_cons_of_mem _ hd)

theorem optMin_some (l : List K) (x : K) : ∃ m, l.foldl optMin (some x) = some m := by
  induction l generalizing x with
  | nil => exact ⟨x, rfl⟩
  | cons y l ih => exact ih _

theorem optMax_some (l : List K) (x : K) : ∃ m, l.foldl optMax (some x) = some m := by
  induction l generalizing x with
  | nil => exact ⟨x, rfl⟩
  | cons y l ih => exact ih _

/-- **C66.** Without gravity the range is computed for every model with rock in which the smallest and largest mean saturations lie in [0,1] up to
the tolerance; what lies outside by less than the tolerance is rounded to 0 and 1. -/
theorem C66_computed [IsStrictOrderedRing K] (S : Sys K) (tol w0 w1 : K) (f0 f1 : Nat → K)
    (hc : ∃ c ∈ S.globalCell, 0 < S.satnum c)
    (hr : ∀ c ∈ S.globalCell, 0 < S.satnum c → ∃ lo hi, Spec.CellRange S c lo hi ∧ lo ≤ hi)
    (h0 : ∀ c ∈ S.globalCell, 0 < S.satnum c → (∃ q ∈ (Spec.curve S c).pts, q.2 = f0 c) ∧ ∀ q ∈ (Spec.curve S c).pts, f0 c ≤ q.2)
    (h1 : ∀ c ∈ S.globalCell, 0 < S.satnum c → (∃ q ∈ (Spec.curve S c).pts, q.2 = f1 c) ∧ ∀ q ∈ (Spec.curve S c).pts, q.2 ≤ f1 c)
    (hv : (S.globalCell.map (Spec.pv S)).sum ≠ 0)
    (hw0 : w0 * (S.globalCell.map (Spec.pv S)).sum = (S.globalCell.map fun c => f0 c * Spec.pv S c).sum)
    (hw1 : w1 * (S.globalCell.map (Spec.pv S)).sum = (S.globalCell.map fun c => f1 c * Spec.pv S c).sum)
    (b0 : -tol < w0) (b1 : w0 ≤ 1) (b2 : 0 ≤ w1) (b3 : w1 < 1 + tol) :
    ∃ R, minMaxPc S 0 tol = some R ∧ R.swir = max 0 w0 ∧ R.swor = min 1 w1 := by
  have hmin : ∀ c ∈ S.globalCell, 0 < S.satnum c → (Spec.curve S c).minF = some (f0 c) := fun c hc hr =>
    minF_least _ _ (h0 c hc hr).1 (h0 c hc hr).2
  have hmax : ∀ c ∈ S.globalCell, 0 < S.satnum c → (Spec.curve S c).maxF = some (f1 c) := fun c hc hr =>
    maxF_greatest _ _ (h1 c hc hr).1 (h1 c hc hr).2
  obtain ⟨m, hm⟩ := mmFold_some S S.globalCell ⟨none, none, 0, 0⟩ fun c hc hrc =>
    ⟨let ⟨lo, hi, h, _⟩ := hr c hc hrc; ⟨lo, hi, h⟩, ⟨_, hmin c hc hrc⟩, ⟨_, hmax c hc hrc⟩⟩
  obtain ⟨flo, fhi, g0, g1, k1, k2, k3, k4, k5⟩ := mmFold S _ _ _ hm
  have sums : ∀ (f g : Nat → K), (∀ c ∈ S.globalCell, 0 < S.satnum c → f c = g c) →
      (S.globalCell.map fun c => f c * Spec.pv S c).sum = (S.globalCell.map fun c => g c * Spec.pv S c).sum := by
    intro f g h
    congr 1
    apply List.map_congr_left
    intro c hc
    by_cases hr : 0 < S.satnum c
    · rw [h c hc hr]
    · rw [pv_pos_rock S c hr]; simp
  simp only [zero_add] at k4 k5
  rw [sums g0 f0 fun c hc hr => Option.some.inj ((k1 c hc hr).2.1.symm.trans (hmin c hc hr)), ← hw0] at k4
  rw [sums g1 f1 fun c hc hr => Option.some.inj ((k1 c hc hr).2.2.symm.trans (hmax c hc hr)), ← hw1] at k5
  obtain ⟨c, hcm, hcr⟩ := hc
  have hmem := mem_rock hcm hcr
  obtain ⟨lo, hlo⟩ : ∃ lo, m.pcmin = some lo := by
    rw [← k2]
    cases e : (S.globalCell.filter fun c => 0 < S.satnum c).map flo with
    | nil => rw [List.map_eq_nil_iff] at e; rw [e] at hmem; cases hmem
    | cons x l => exact optMin_some l x
  obtain ⟨hi, hhi⟩ : ∃ hi, m.pcmax = some hi := by
    rw [← k3]
    cases e : (S.globalCell.filter fun c => 0 < S.satnum c).map fhi with
    | nil => rw [List.map_eq_nil_iff] at e; rw [e] at hmem; cases hmem
    | cons x l => exact optMax_some l x
  have hle : lo ≤ hi := by
    obtain ⟨m1, _, _⟩ := optMin_fold _ _ _ (k2.trans hlo)
    obtain ⟨m2, _, _⟩ := optMax_fold _ _ _ (k3.trans hhi)
    obtain ⟨l, h, ⟨p, q, a1, a2, a3, a4, a5⟩, hlh⟩ := hr c hcm hcr
    obtain ⟨⟨p', q', c1, c2, c3, c4, c5⟩, _⟩ := k1 c hcm hcr
    rw [a1] at c1; rw [a2] at c2
    obtain rfl := Option.some.inj c1
    obtain rfl := Option.some.inj c2
    have e1 : flo c = l := mul_left_cancel₀ a3 (c4.trans a4.symm)
    have e2 : fhi c = h := mul_left_cancel₀ a3 (c5.trans a5.symm)
    have := m1 _ (List.mem_map_of_mem hmem)
    have := m2 _ (List.mem_map_of_mem hmem)
    rw [e1] at *
    rw [e2] at *
    exact le_trans ‹lo ≤ l› (le_trans hlh ‹h ≤ hi›)
  have htot : S.totalPorev = (S.globalCell.map (Spec.pv S)).sum := totalPorev_eq S
  obtain ⟨a, b, x, y⟩ := m
  simp only at hlo hhi k4 k5
  subst hlo hhi k4 k5
  have q0 : quot (w0 * (S.globalCell.map (Spec.pv S)).sum) S.totalPorev = some w0 := by
    rw [htot, quot, if_neg hv, mul_div_cancel_right₀ _ hv]
  have q1 : quot (w1 * (S.globalCell.map (Spec.pv S)).sum) S.totalPorev = some w1 := by
    rw [htot, quot, if_neg hv, mul_div_cancel_right₀ _ hv]
  have s0 : snapLo tol w0 = max 0 w0 := by
    unfold snapLo
    by_cases h : w0 < 0
    · rw [if_pos ⟨h, by linarith⟩, max_eq_left h.le]
    · rw [if_neg fun k => h k.1, max_eq_right (not_lt.mp h)]
  have s1 : snapHi tol w1 = min 1 w1 := by
    unfold snapHi
    by_cases h : 1 < w1
    · rw [if_pos ⟨h, by linarith⟩, min_eq_left h.le]
    · rw [if_neg fun k => h k.1, min_eq_right (not_lt.mp h)]
  refine ⟨⟨lo, hi, max 0 w0, min 1 w1⟩, ?_, rfl, rfl⟩
  unfold minMaxPc
  rw [hm]
  simp only [ne_eq, not_true_eq_false, if_false, q0, q1, s0, s1, gt_iff_lt, if_neg (not_lt.mpr hle)]
  rw [if_neg]
  rintro (h | h | h | h)
  · exact absurd h (not_lt.mpr (le_max_left _ _))
  · exact absurd h (not_lt.mpr (max_le zero_le_one b1))
  · exact absurd h (not_lt.mpr (le_min zero_le_one b2))
  · exact absurd h (not_lt.mpr (min_le_left _ _))

end

/-- The hypotheses of `C66_computed` for a curve from 51/50 down to -1/100: both ends are rounded. -/
example : (minMaxPc ⟨[0], fun _ => 1, fun _ => 1, fun _ => 1, fun _ => 1, [], false, fun _ => ⟨[(0, 51/50), (1, -1/100)], fun x => 51/50 - x * (103/100)⟩,
    fun _ => ⟨[(0, 51/50), (1, -1/100)], fun x => 51/50 - x * (103/100)⟩, id⟩ 0 (1/10 : ℚ)).map (fun R => (R.swir, R.swor)) = some (0, 1) := by decide +kernel

/-! ### C33, C66, C68: instances -/

/-- Two cells of rock type 1 without gravity. -/
abbrev exTwo : Sys ℚ := exSys [0, 1] (fun _ => 1) [] false

theorem exTwo_anti : ∀ x y : ℚ, x ≤ y → lineCurve.eval y ≤ lineCurve.eval x := by
  intro x y h
  simp only [lineCurve]
  split_ifs <;> linarith

theorem exTwo_unit : ∀ x : ℚ, 0 ≤ lineCurve.eval x ∧ lineCurve.eval x ≤ 1 := by
  intro x
  simp only [lineCurve]
  split_ifs <;> constructor <;> linarith

/-- `C68_mean`, `C68_defined`: the mean of 1 - 1/8 and 1 - 4/8. -/
example : upscaledSw exTwo (1 / 8) = some (11 / 16) := by decide +kernel

example := C68_mean exTwo (1 / 8) (11 / 16) (by decide +kernel)

example := C68_defined exTwo (1 / 8) (fun _ _ _ => ⟨0, Or.inl ⟨rfl, rfl⟩⟩) (by decide +kernel)

example := C68_bounds exTwo (1 / 8) (11 / 16) 0 1 (by decide +kernel) (by decide +kernel) fun _ _ _ x => exTwo_unit x

example := C68_antitone exTwo (1 / 8) (1 / 2) (11 / 16) (1 / 4) (by norm_num) (by decide +kernel) (by decide +kernel)
  (by decide +kernel) (by decide +kernel) fun _ _ _ x y h => exTwo_anti x y h

example := C66_covers_partial exTwo 0 (1 / 100) ⟨0, 1, 0, 1⟩ (by decide +kernel) (Or.inl ⟨rfl, rfl⟩) 1 (by decide) (by decide) 0
  (Or.inl ⟨rfl, rfl⟩)

example := C66_tight exTwo (1 / 100) ⟨0, 1, 0, 1⟩ (by decide +kernel)

example := C66_endpoints_partial exTwo 0 (1 / 100) ⟨0, 1, 0, 1⟩ (by decide +kernel) (Or.inl ⟨rfl, rfl⟩)
  (fun _ _ _ => ⟨0, Or.inl ⟨rfl, rfl⟩⟩) (by decide +kernel) fun _ _ _ => lineCurve_falling

example := C33_isotropic (exSys [0, 1, 2] (fun c => if c = 2 then 0 else 1) [] false) (fun _ s => s) 10 (1/100) (1/8) [7/8, 2, 1/5]
  (by decide +kernel) (by norm_num) (by norm_num)

end Verif.RelPerm
