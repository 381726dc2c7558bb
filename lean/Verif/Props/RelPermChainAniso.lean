import Verif.Props.RelPermChain

/-!
C143 for anisotropic input, the violation of the unit bound there, and concrete cases.
-/

namespace Verif.RelPermChain

open Verif.Dense Verif.Control Verif.RelPerm Verif.SinglePhase

variable {K : Type} [Field K] [LinearOrder K] [IsStrictOrderedRing K]

/-! ### Permeabilities of the cells -/

/-- Phase permeability of a cell in one direction. -/
def rawD (J : Job K) (kr : Fin 3 → Nat → K → K) (s : Nat → K) (c : Nat) (d : Fin 3) : K :=
  kr d (J.S.satnum c - 1).toNat (s c) * (![J.S.permx, J.permy, J.permz] : Fin 3 → Nat → K) d c

def topD (J : Job K) (kr : Fin 3 → Nat → K → K) (s : Nat → K) (m : K) (l : List Nat) : K :=
  l.foldl (fun m c => max (max m J.minPerm) (max (max (rawD J kr s c 0) (rawD J kr s c 1)) (rawD J kr s c 2))) m

def cellD (J : Job K) (kr : Fin 3 → Nat → K → K) (s : Nat → K) (c : Nat) (d : Fin 3) : K :=
  max (max (topD J kr s 0 J.S.globalCell / J.contrast) J.minPerm) (rawD J kr s c d)

variable {J : Job K}

omit [IsStrictOrderedRing K] in
theorem rawD_eq (kr : Fin 3 → Nat → K → K) (p : K) (s : Nat → K) (c : Nat) (hr : 0 < J.S.satnum c)
    (hs : RelPerm.Spec.CellSat J.S p c (s c)) :
    phasePermDiag J.S kr ![J.S.permx, J.permy, J.permz] p c = some (rawD J kr s c) := by
  unfold phasePermDiag
  rw [cellSw_of_sat J.S p c _ hs hr]
  rfl

omit [IsStrictOrderedRing K] in
theorem maxFoldD_eq (kr : Fin 3 → Nat → K → K) (p : K) (s : Nat → K) (l : List Nat) (hr : ∀ c ∈ l, 0 < J.S.satnum c)
    (hs : ∀ c ∈ l, RelPerm.Spec.CellSat J.S p c (s c)) (m : K) :
    l.foldl (maxStepDiag J.S kr ![J.S.permx, J.permy, J.permz] J.minPerm p) (some m) = some (topD J kr s m l) := by
  induction l generalizing m with
  | nil => rfl
  | cons c l ih =>
    have ih' := ih (fun d hd => hr d (List.mem_cons_of_mem _ hd)) (fun d hd => hs d (List.mem_cons_of_mem _ hd))
    rw [List.foldl_cons]
    unfold topD
    rw [List.foldl_cons]
    have h1 := hr c (List.mem_cons_self ..)
    have e' : maxStepDiag J.S kr ![J.S.permx, J.permy, J.permz] J.minPerm p (some m) c =
        some (max (max m J.minPerm) (max (max (rawD J kr s c 0) (rawD J kr s c 1)) (rawD J kr s c 2))) := by
      unfold maxStepDiag
      rw [rawD_eq kr p s c h1 (hs c (List.mem_cons_self ..))]
      simp [h1]
    rw [e']
    exact ih' _

omit [IsStrictOrderedRing K] in
theorem phaseD_eq (ha : J.S.aniso = true) (hr : ∀ c ∈ J.S.globalCell, 0 < J.S.satnum c) (kr : Fin 3 → Nat → K → K) (p : K)
    (s : Nat → K) (hs : ∀ c ∈ J.S.globalCell, RelPerm.Spec.CellSat J.S p c (s c)) (b : Boundary.BCs K) :
    phase J kr p b = upscaleSinglePhase (setPerms J.I (J.S.globalCell.map (cellD J kr s))) b := by
  unfold phase phaseDiags
  rw [if_pos ha]
  unfold cellPermsDiag
  rw [maxFoldD_eq kr p s _ hr hs]
  dsimp only
  rw [Pattern.mapM_total _ _ (cellD J kr s) (fun c hc => by
    rw [if_pos (hr c hc), rawD_eq kr p s c (hr c hc) (hs c hc)]
    rfl)]
  rfl

omit [IsStrictOrderedRing K] in
theorem topD_mono (kr : Fin 3 → Nat → K → K) (s s' : Nat → K) (l : List Nat)
    (h : ∀ c ∈ l, ∀ d, rawD J kr s c d ≤ rawD J kr s' c d) (m m' : K) (hm : m ≤ m') :
    topD J kr s m l ≤ topD J kr s' m' l := by
  induction l generalizing m m' with
  | nil => exact hm
  | cons c l ih =>
    unfold topD
    rw [List.foldl_cons, List.foldl_cons]
    refine ih (fun d hd => h d (List.mem_cons_of_mem _ hd)) _ _ ?_
    have := h c (List.mem_cons_self ..)
    exact max_le_max (max_le_max hm (le_refl _)) (max_le_max (max_le_max (this 0) (this 1)) (this 2))

omit [IsStrictOrderedRing K] in
theorem topD_le (kr : Fin 3 → Nat → K → K) (s : Nat → K) (l : List Nat) (M : K) (hM : J.minPerm ≤ M)
    (h : ∀ c ∈ l, ∀ d, rawD J kr s c d ≤ M) (m : K) (hm : m ≤ M) : topD J kr s m l ≤ M := by
  induction l generalizing m with
  | nil => exact hm
  | cons c l ih =>
    unfold topD
    rw [List.foldl_cons]
    refine ih (fun d hd => h d (List.mem_cons_of_mem _ hd)) _ ?_
    have := h c (List.mem_cons_self ..)
    exact max_le (max_le hm hM) (max_le (max_le (this 0) (this 1)) (this 2))

omit [IsStrictOrderedRing K] [Field K] in
theorem fold_single_le [Field K] (S : Sys K) (l : List Nat) (m : K) :
    m ≤ l.foldl (maxSingle S) m ∧ ∀ c ∈ l, 0 < S.satnum c → S.permx c ≤ l.foldl (maxSingle S) m := by
  induction l generalizing m with
  | nil => exact ⟨le_refl _, by simp⟩
  | cons c l ih =>
    rw [List.foldl_cons]
    obtain ⟨h1, h2⟩ := ih (maxSingle S m c)
    have h3 : m ≤ maxSingle S m c := by
      unfold maxSingle
      split
      · exact le_max_left _ _
      · exact le_refl _
    refine ⟨h3.trans h1, fun d hd hr => ?_⟩
    rcases List.mem_cons.mp hd with rfl | hd
    · refine le_trans ?_ h1
      unfold maxSingle
      rw [if_pos hr]
      exact le_max_right _ _
    · exact h2 d hd hr

omit [IsStrictOrderedRing K] in
theorem cellD_pos (kr : Fin 3 → Nat → K → K) (s : Nat → K) (hmin : 0 < J.minPerm) (c : Nat) (d : Fin 3) :
    0 < cellD J kr s c d := hmin.trans_le ((le_max_right _ _).trans (le_max_left _ _))

/-- The diagonal of a cell for the single phase calculation. -/
def singleD (J : Job K) (c : Nat) (d : Fin 3) : K :=
  max (singleFloor J.S J.contrast J.minPerm) ((![J.S.permx, J.permy, J.permz] : Fin 3 → Nat → K) d c)

omit [IsStrictOrderedRing K] in
theorem singleD_eq (ha : J.S.aniso = true) (b : Boundary.BCs K) :
    single J b = upscaleSinglePhase (setPerms J.I (J.S.globalCell.map (singleD J))) b := by
  unfold single singlePerms
  congr 2
  refine List.map_congr_left fun c _ => ?_
  funext d
  rw [if_pos ha]
  unfold singleD
  fin_cases d <;> rfl

omit [IsStrictOrderedRing K] in
theorem singleD_pos (hmin : 0 < J.minPerm) (c : Nat) (d : Fin 3) : 0 < singleD J c d :=
  hmin.trans_le ((le_max_right _ _).trans (le_max_left _ _))

/-! ### The properties -/

section props
variable {lo hi : Fin 3 → K} {side : Boundary.Face K → Nat}

/-- C143, anisotropic input: between zero and one, provided that no permeability of a cell in another direction exceeds the largest
x-permeability. -/
theorem C143_unit_anisotropic_partial (h : Ready J lo hi side) (hv : Valid J) (hbc : J.I.bct = .fixed) (ha : J.S.aniso = true)
    (hrock : ∀ c ∈ J.S.globalCell, 0 < J.S.satnum c) (hy : ∀ c ∈ J.S.globalCell, 0 ≤ J.permy c ∧ 0 ≤ J.permz c)
    (hx : ∀ c ∈ J.S.globalCell, ∃ c' ∈ J.S.globalCell, J.permy c ≤ J.S.permx c' ∧ J.permz c ≤ J.S.permx c')
    (kr : Fin 3 → Nat → K → K) (hk : ∀ d, UnitRange (kr d)) (p : K) :
    ∃ T P w, ∃ r : Fin 3 → K, (∀ b, single J b = some T) ∧ (∀ b, phase J kr p b = some P) ∧ RelPerm.Spec.MeanSat J.S p w ∧
      (∀ b b', point J kr p b b' = some (w, [r 0, r 1, r 2])) ∧ ∀ d, r d * T d d = P d d ∧ 0 < r d ∧ r d ≤ 1 := by
  obtain ⟨hd, hs⟩ := heads_of hv
  have hs' : ∀ c ∈ J.S.globalCell, RelPerm.Spec.CellSat J.S p c (sats J.S hd p c) := fun c hc => hs p c hc (hrock c hc)
  have hperm : ∀ c ∈ J.S.globalCell, ∀ d : Fin 3, 0 ≤ (![J.S.permx, J.permy, J.permz] : Fin 3 → Nat → K) d c := by
    intro c hc d
    fin_cases d
    · exact hv.perm c hc
    · exact (hy c hc).1
    · exact (hy c hc).2
  have hraw : ∀ c ∈ J.S.globalCell, ∀ d, rawD J kr (sats J.S hd p) c d ≤
      (![J.S.permx, J.permy, J.permz] : Fin 3 → Nat → K) d c := fun c hc d =>
    mul_le_of_le_one_left (hperm c hc d) (hk d _ _).2
  have hmax : ∀ c ∈ J.S.globalCell, ∀ d : Fin 3, (![J.S.permx, J.permy, J.permz] : Fin 3 → Nat → K) d c ≤
      J.S.globalCell.foldl (maxSingle J.S) 0 := by
    intro c hc d
    have hf := (fold_single_le J.S J.S.globalCell 0).2
    obtain ⟨c', hc', e1, e2⟩ := hx c hc
    fin_cases d
    · exact hf c hc (hrock c hc)
    · exact e1.trans (hf c' hc' (hrock c' hc'))
    · exact e2.trans (hf c' hc' (hrock c' hc'))
  have ht := topD_le (J := J) kr (sats J.S hd p) J.S.globalCell (max (J.S.globalCell.foldl (maxSingle J.S) 0) J.minPerm)
    (le_max_right _ _) (fun c hc d => ((hraw c hc d).trans (hmax c hc d)).trans (le_max_left _ _)) 0
    (hv.minPerm.le.trans (le_max_right _ _))
  have hcp : 0 < J.contrast := zero_lt_one.trans_le hv.contrast
  have hfl : topD J kr (sats J.S hd p) 0 J.S.globalCell / J.contrast ≤ singleFloor J.S J.contrast J.minPerm := by
    unfold singleFloor
    rw [div_le_iff₀ hcp]
    refine ht.trans (max_le ?_ ?_)
    · rw [← div_le_iff₀ hcp]; exact le_max_left _ _
    · calc J.minPerm ≤ max (J.S.globalCell.foldl (maxSingle J.S) 0 / J.contrast) J.minPerm := le_max_right _ _
        _ ≤ _ := le_mul_of_one_le_right (hv.minPerm.le.trans (le_max_right _ _)) hv.contrast
  refine ratio_unit h hv.cells hbc hv.heads hv.volume kr p _ _ (fun c _ d => cellD_pos kr _ hv.minPerm c d) ?_
    (singleD_eq ha) (phaseD_eq ha hrock kr p _ hs')
  intro c hc d
  unfold cellD singleD
  exact max_le (max_le (hfl.trans (le_max_left _ _)) ((le_max_right _ _).trans (le_max_left _ _)))
    ((hraw c hc d).trans (le_max_right _ _))

/-- C143, anisotropic input: the curves are monotone, whatever the permeabilities in the three directions. -/
theorem C143_monotone_anisotropic (h : Ready J lo hi side) (hv : Valid J) (hbc : J.I.bct = .fixed) (ha : J.S.aniso = true)
    (hrock : ∀ c ∈ J.S.globalCell, 0 < J.S.satnum c) (hy : ∀ c ∈ J.S.globalCell, 0 ≤ J.permy c ∧ 0 ≤ J.permz c)
    (hr : FallingRocks J) (kr : Fin 3 → Nat → K → K) (p q : K) (b b' e e' : Boundary.BCs K) (w w' : K) (row row' : List K)
    (hp : point J kr p b b' = some (w, row)) (hq : point J kr q e e' = some (w', row')) (hw : w < w') :
    ((∀ d r s t, s ≤ t → kr d r s ≤ kr d r t) → List.Forall₂ (· ≤ ·) row row') ∧
    ((∀ d r s t, s ≤ t → kr d r t ≤ kr d r s) → List.Forall₂ (· ≤ ·) row' row) := by
  obtain ⟨hd, hs⟩ := heads_of hv
  have hqp : q ≤ p := by
    by_contra hh
    exact absurd (C68_antitone J.S p q w w' (not_le.mp hh).le (point_sat hp) (point_sat hq) hr.pv hr.scale hr.falls)
      (not_le.mpr hw)
  have hsat : ∀ c ∈ J.S.globalCell, sats J.S hd p c ≤ sats J.S hd q c := fun c hc =>
    hr.falls c hc (hrock c hc) _ _ (mul_le_mul_of_nonneg_left (sub_le_sub_right hqp _) (hr.scale c hc (hrock c hc)))
  have hperm : ∀ c ∈ J.S.globalCell, ∀ d : Fin 3, 0 ≤ (![J.S.permx, J.permy, J.permz] : Fin 3 → Nat → K) d c := by
    intro c hc d
    fin_cases d
    · exact hv.perm c hc
    · exact (hy c hc).1
    · exact (hy c hc).2
  have key : ∀ p q, (∀ c ∈ J.S.globalCell, ∀ d, rawD J kr (sats J.S hd p) c d ≤ rawD J kr (sats J.S hd q) c d) →
      ∀ {b b' e e' : Boundary.BCs K} {w w' : K} {row row' : List K}, point J kr p b b' = some (w, row) →
      point J kr q e e' = some (w', row') → List.Forall₂ (· ≤ ·) row row' := fun p q hraw _ _ _ _ _ _ _ _ hp hq =>
    ratio_mono h hv.cells hbc kr p q _ _ _ (fun c _ d => cellD_pos kr _ hv.minPerm c d)
      (fun c _ d => singleD_pos hv.minPerm c d)
      (fun c hc d => max_le_max (max_le_max (div_le_div_of_nonneg_right
        (topD_mono kr _ _ _ hraw 0 0 (le_refl _)) (zero_le_one.trans hv.contrast)) (le_refl _)) (hraw c hc d))
      (singleD_eq ha) (phaseD_eq ha hrock kr p _ fun c hc => hs p c hc (hrock c hc))
      (phaseD_eq ha hrock kr q _ fun c hc => hs q c hc (hrock c hc)) hp hq
  exact ⟨fun hk => key p q (fun c hc d => mul_le_mul_of_nonneg_right (hk d _ _ _ (hsat c hc)) (hperm c hc d)) hp hq,
    fun hk => key q p (fun c hc d => mul_le_mul_of_nonneg_right (hk d _ _ _ (hsat c hc)) (hperm c hc d)) hq hp⟩

end props

/-! ### Concrete cases -/

open Classical in
/-- Inversion of regular matrices. -/
noncomputable def exInvert (A : FullMatrix ℚ) : FullMatrix ℚ :=
  if h : ∃ T : Fin 3 → Fin 3 → ℚ, Represents A (Matrix.of T) then tensor fun i j => (Matrix.of h.choose)⁻¹ i j else A

theorem exInvert_ok (A : FullMatrix ℚ) (M : Matrix (Fin 3) (Fin 3) ℚ) (h : Represents A M) : Represents (exInvert A) M⁻¹ := by
  have hex : ∃ T : Fin 3 → Fin 3 → ℚ, Represents A (Matrix.of T) := ⟨M, h⟩
  unfold exInvert
  rw [dif_pos hex]
  have e : (Matrix.of hex.choose : Matrix (Fin 3) (Fin 3) ℚ) = M := by
    ext i j
    exact Option.some.inj ((hex.choose_spec.entry i j).symm.trans (h.entry i j))
  have := tensor_rep fun i j => ((Matrix.of hex.choose)⁻¹ : Matrix (Fin 3) (Fin 3) ℚ) i j
  rw [e] at this ⊢
  exact this

/-- Two cells, one rock with a falling saturation curve; the options of the tool's default contrast and least permeability. -/
noncomputable def exJob (bct : Upscale.BCType) (aniso : Bool) (permx permy : Nat → ℚ) : Job ℚ where
  S := { globalCell := [0, 1], satnum := fun _ => 1, poro := fun _ => 1 / 4, permx := permx, volume := fun _ => 343, dP := [],
         aniso := aniso, invJ := fun _ => ⟨[(0, 1), (1, 0)], fun x => max 0 (min 1 (1 - x))⟩,
         swpc := fun _ => ⟨[(0, 1), (1, 0)], fun x => max 0 (min 1 (1 - x))⟩, sqrt := fun x => max 0 x }
  I := exInput bct 0 exPerm
  permy := permy
  permz := permy
  contrast := 10 ^ 7
  minPerm := 1 / 10 ^ 12
  invert := exInvert

theorem ex_ready (bct : Upscale.BCType) (aniso : Bool) (permx permy : Nat → ℚ) :
    Ready (exJob bct aniso permx permy) exLo exHi exSide where
  tiling := ex_tiling _
  box := ex_box _
  suited := ex_suited _ _ _
  basis := (ex_regular bct 0 exPerm exPerm_symm exPerm_posdef).basis
  sort := (ex_regular bct 0 exPerm exPerm_symm exPerm_posdef).sort
  solver := (ex_regular bct 0 exPerm exPerm_symm exPerm_posdef).solver
  gravity := rfl
  invert A M h _ := exInvert_ok A M h

theorem ex_valid (bct : Upscale.BCType) (aniso : Bool) (permx permy : Nat → ℚ) (h : ∀ c, 0 ≤ permx c) :
    Valid (exJob bct aniso permx permy) where
  cells := rfl
  heads _ _ _ := ⟨0, Or.inl ⟨rfl, rfl⟩⟩
  volume := by
    change [(343 : ℚ) * (1 / 4), 343 * (1 / 4)].sum ≠ 0
    norm_num
  perm c _ := h c
  minPerm := by change (0 : ℚ) < 1 / 10 ^ 12; norm_num
  contrast := by change (1 : ℚ) ≤ 10 ^ 7; norm_num

theorem ex_falling (bct : Upscale.BCType) (aniso : Bool) (permx permy : Nat → ℚ) : FallingRocks (exJob bct aniso permx permy) where
  scale c _ _ := by
    cases aniso
    · change (0 : ℚ) ≤ max 0 _; exact le_max_left _ _
    · change (0 : ℚ) ≤ 1; norm_num
  pv c _ := by change (0 : ℚ) ≤ 343 * (1 / 4); norm_num
  falls c _ _ x y h := by
    have : max 0 (min 1 (1 - y)) ≤ max (0 : ℚ) (min 1 (1 - x)) :=
      max_le_max (le_refl _) (min_le_min (le_refl _) (by linarith))
    cases aniso <;> exact this

/-- The relative permeability s² of water. -/
def exKr (_ : Fin 3) (_ : Nat) (s : ℚ) : ℚ := (max 0 (min 1 s)) ^ 2

theorem exKr_unit (d : Fin 3) : UnitRange (exKr d) := fun _ s => by
  have h0 : (0 : ℚ) ≤ max 0 (min 1 s) := le_max_left _ _
  have h1 : max 0 (min 1 s) ≤ (1 : ℚ) := max_le (by norm_num) (min_le_left _ _)
  exact ⟨sq_nonneg _, by unfold exKr; nlinarith⟩

theorem exKr_mono (d : Fin 3) (r : Nat) (s t : ℚ) (h : s ≤ t) : exKr d r s ≤ exKr d r t := by
  have h0 : (0 : ℚ) ≤ max 0 (min 1 s) := le_max_left _ _
  have h1 : max 0 (min 1 s) ≤ max (0 : ℚ) (min 1 t) := max_le_max (le_refl _) (min_le_min (le_refl _) h)
  exact pow_le_pow_left₀ h0 h1 2

/-- Two different cells: the relative permeabilities at any pressure. -/
example (p : ℚ) : ∃ w, ∃ r : Fin 3 → ℚ, (∀ b b', point (exJob .fixed false (fun c => c + 1) fun _ => 0) exKr p b b' =
    some (w, [r 0, r 1, r 2])) ∧ ∀ d, 0 < r d ∧ r d ≤ 1 := by
  obtain ⟨_, _, w, r, _, _, _, h, h'⟩ := C143_unit (ex_ready .fixed false (fun c => c + 1) fun _ => 0)
    (ex_valid _ _ _ _ fun c => by positivity) rfl rfl exKr (exKr_unit 0) p
  exact ⟨w, r, h, fun d => (h' d).2⟩

/-- The same with periodic conditions. -/
example (p : ℚ) : ∃ w, ∃ r : Fin 9 → ℚ, (∀ b b', point (exJob .periodic false (fun c => c + 1) fun _ => 0) exKr p b b' =
    some (w, List.ofFn r)) := by
  obtain ⟨_, _, w, r, _, _, _, h, _⟩ := C143_periodic (ex_ready .periodic false (fun c => c + 1) fun _ => 0)
    (ex_valid _ _ _ _ fun c => by positivity) rfl rfl exKr (exKr_unit 0) p
  exact ⟨w, r, h⟩

/-- Two points of the curve with different saturations. -/
example (p q : ℚ) (b : Boundary.BCs ℚ) (w w' : ℚ) (row row' : List ℚ)
    (hp : point (exJob .fixed false (fun c => c + 1) fun _ => 0) exKr p b b = some (w, row))
    (hq : point (exJob .fixed false (fun c => c + 1) fun _ => 0) exKr q b b = some (w', row')) (hw : w < w') :
    List.Forall₂ (· ≤ ·) row row' :=
  (C143_monotone (ex_ready .fixed false (fun c => c + 1) fun _ => 0) (ex_valid _ _ _ _ fun c => by positivity) rfl rfl
    (ex_falling _ _ _ _) exKr p q b b b b w w' row row' hp hq hw).1 fun r s t h => exKr_mono 0 r s t h

/-- At pressure zero the rock is full of water: relative permeability one. -/
example : ∃ w, ∀ b b', point (exJob .fixed false (fun c => c + 1) fun _ => 0) exKr 0 b b' = some (w, [1, 1, 1]) := by
  obtain ⟨w, _, h⟩ := C143_full (ex_ready .fixed false (fun c => c + 1) fun _ => 0) (ex_valid _ _ _ _ fun c => by positivity)
    (by decide) rfl (fun c _ h => absurd Int.one_pos h) exKr 0 (fun c _ _ s hs => by
      obtain ⟨hd, e1, e2⟩ := hs
      have : hd = 0 := by
        rcases e1 with ⟨_, e⟩ | ⟨e, _⟩
        · exact e
        · exact absurd rfl e
      rw [e2, this, sub_zero, mul_zero]
      change (max (0 : ℚ) (min 1 (max 0 (min 1 (1 - 0))))) ^ 2 = 1
      norm_num)
  exact ⟨w, h⟩

/-- C143 is violated for anisotropic input: a homogeneous sample with x-permeability 1/10000 and y- and z-permeability 10000, rock
that conducts the phase fully. The least phase permeability is taken from the largest of all directions, the least single phase
permeability from the x-direction only: the upscaled relative permeability is 10 in the x-direction. -/
theorem C143_violated_anisotropic : ∃ w, ∀ b b', point (exJob .fixed true (fun _ => 1 / 10 ^ 4) fun _ => 10 ^ 4)
    (fun _ _ _ => 1) 0 b b' = some (w, [10, 1, 1]) := by
  have hv := ex_valid .fixed true (fun _ => 1 / 10 ^ 4) (fun _ => 10 ^ 4) (fun _ => by positivity)
  have hR := ex_ready .fixed true (fun _ => 1 / 10 ^ 4) (fun _ => 10 ^ 4)
  generalize hJ : exJob .fixed true (fun _ => 1 / 10 ^ 4) (fun _ => 10 ^ 4) = J at hv hR
  obtain ⟨w, hw⟩ := C68_defined J.S 0 hv.heads hv.volume
  obtain ⟨hd, hs⟩ := heads_of hv
  have hr : ∀ c ∈ J.S.globalCell, 0 < J.S.satnum c := by
    intro c _
    rw [← hJ]
    exact Int.one_pos
  have ha : J.S.aniso = true := by rw [← hJ]; rfl
  have hl := hv.cells
  have eS : ∀ n i, singleD J n i = (![1 / 10 ^ 4, 10 ^ 4, 10 ^ 4] : Fin 3 → ℚ) i := by
    intro n i
    rw [← hJ]
    have : ∀ i, singleD (exJob .fixed true (fun _ => 1 / 10 ^ 4) fun _ => 10 ^ 4) 0 i =
        (![1 / 10 ^ 4, 10 ^ 4, 10 ^ 4] : Fin 3 → ℚ) i := by decide +kernel
    refine Eq.trans ?_ (this i)
    fin_cases i <;> rfl
  have eP : ∀ s n i, cellD J (fun _ _ _ => 1) s n i = (![1 / 10 ^ 3, 10 ^ 4, 10 ^ 4] : Fin 3 → ℚ) i := by
    intro s n i
    rw [← hJ]
    have : ∀ i, cellD (exJob .fixed true (fun _ => 1 / 10 ^ 4) fun _ => 10 ^ 4) (fun _ _ _ => 1) (fun _ => 0) 0 i =
        (![1 / 10 ^ 3, 10 ^ 4, 10 ^ 4] : Fin 3 → ℚ) i := by decide +kernel
    refine Eq.trans ?_ (this i)
    fin_cases i <;> rfl
  have hS : ∀ b, single J b = some fun i j => if i = j then (![1 / 10 ^ 4, 10 ^ 4, 10 ^ 4] : Fin 3 → ℚ) i else 0 := by
    intro b
    rw [singleD_eq ha]
    refine C89_single_phase (ready_sound hR _ _ hl fun c _ d => singleD_pos hv.minPerm c d) hR.tiling hR.box hR.suited _
      (fun c i j => ?_) (fun _ i j h => if_neg h) b
    rw [(setPerms_perm J.I _ _ hl c).2]
    dsimp only
    rw [eS]
  have hP : ∀ b, phase J (fun _ _ _ => 1) 0 b = some fun i j => if i = j then (![1 / 10 ^ 3, 10 ^ 4, 10 ^ 4] : Fin 3 → ℚ) i else 0 := by
    intro b
    rw [phaseD_eq ha hr _ _ (sats J.S hd 0) fun c hc => hs 0 c hc (hr c hc)]
    refine C89_single_phase (ready_sound hR _ _ hl fun c _ d => cellD_pos _ _ hv.minPerm c d) hR.tiling hR.box hR.suited _
      (fun c i j => ?_) (fun _ i j h => if_neg h) b
    rw [(setPerms_perm J.I _ _ hl c).2]
    dsimp only
    rw [eP]
  refine ⟨w, fun b b' => ?_⟩
  unfold point
  rw [hS, hP, hw]
  simp only [Option.bind_some]
  rw [relPerm_fixed hR (by rw [← hJ]; rfl) _ _ (fun i j h => if_neg h) (fun d => by
    rw [if_pos rfl]
    fin_cases d <;> norm_num [Matrix.cons_val])]
  norm_num [Matrix.cons_val]
  change (10000 : ℚ) / 10000 = 1
  norm_num

end Verif.RelPermChain
