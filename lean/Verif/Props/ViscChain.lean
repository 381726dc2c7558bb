import Verif.Spec.ViscChain
import Verif.Props.ViscLimit
import Verif.Props.RelPermChainAniso

/-!
C144: relative permeabilities upscaled in the viscous limit lie between zero and one and the upscaled curves are monotone.
-/

namespace Verif.ViscChain

open Verif.Dense Verif.Control Verif.RelPerm Verif.SinglePhase Verif.Visc

variable {K : Type} [Field K] [LinearOrder K] [IsStrictOrderedRing K]

section lemmas
variable {J : Job K} {lo hi : Fin 3 → K} {side : Boundary.Face K → Nat}

/-- The job as one of the capillary limit; cell data does not matter. -/
def base (J : Job K) : RelPermChain.Job K where
  S := ⟨[], fun _ => 0, fun _ => 0, fun _ => 0, fun _ => 0, [], false, fun _ => ⟨[], fun _ => 0⟩, fun _ => ⟨[], fun _ => 0⟩, id⟩
  I := J.I
  permy := fun _ => 0
  permz := fun _ => 0
  contrast := 1
  minPerm := 1
  invert := J.invert

omit [LinearOrder K] [IsStrictOrderedRing K] in
theorem elements_eq (b : Upscale.BCType) : elements b = RelPermChain.elements b := by cases b <;> rfl

theorem base_ready (h : Ready J lo hi side) : RelPermChain.Ready (base J) lo hi side :=
  ⟨h.tiling, h.box, h.suited, h.basis, h.sort, h.solver, h.gravity, h.invert⟩

omit [IsStrictOrderedRing K] in
theorem relPerm_eq (J : Job K) (T P : Fin 3 → Fin 3 → K) : relPerm J T P = RelPermChain.relPerm (base J) T P := by
  unfold relPerm RelPermChain.relPerm
  rw [elements_eq]
  rfl

/-- Lists of diagonals as functions of the number of the cell. -/
theorem indexed (l : List (Fin 3 → K)) : l = (List.range l.length).map fun i => l.getD i fun _ => 0 := by
  apply List.ext_getElem
  · simp
  · intro i h1 h2
    simp [List.getD_eq_getElem?_getD, List.getElem?_eq_getElem h1]

theorem getD_of {l m : List (Fin 3 → K)} {R : (Fin 3 → K) → (Fin 3 → K) → Prop} (h : List.Forall₂ R l m) (i : Nat) (hi : i < l.length) :
    R (l.getD i fun _ => 0) (m.getD i fun _ => 0) := by
  have hm : i < m.length := by rw [← h.length_eq]; exact hi
  rw [List.getD_eq_getElem?_getD, List.getD_eq_getElem?_getD, List.getElem?_eq_getElem hi, List.getElem?_eq_getElem hm]
  exact h.get hi hm

theorem flow2_fixed (h : Ready J lo hi side) (f g : List (Fin 3 → K)) (hl : f.length = J.I.G.nc)
    (hfg : List.Forall₂ (fun x y => ∀ d, 0 < x d ∧ x d ≤ y d) f g) (hbc : J.I.bct = .fixed) :
    ∃ P T, (∀ b, upscaleSinglePhase (RelPermChain.setPerms J.I f) b = some P) ∧
      (∀ b, upscaleSinglePhase (RelPermChain.setPerms J.I g) b = some T) ∧
      (∀ i j, i ≠ j → P i j = 0) ∧ (∀ i j, i ≠ j → T i j = 0) ∧ ∀ d, 0 < P d d ∧ P d d ≤ T d d := by
  have e := RelPermChain.flow_fixed (base_ready h) (List.range f.length) (fun i => f.getD i fun _ => 0) (fun i => g.getD i fun _ => 0)
    (by rw [List.length_range]; exact hl) (fun c hc d => (getD_of hfg c (List.mem_range.mp hc) d).1)
    (fun c hc d => (getD_of hfg c (List.mem_range.mp hc) d).2) hbc
  rw [← indexed f, hfg.length_eq, ← indexed g] at e
  exact e

theorem flow2_periodic (h : Ready J lo hi side) (f g : List (Fin 3 → K)) (hl : f.length = J.I.G.nc)
    (hfg : List.Forall₂ (fun x y => ∀ d, 0 < x d ∧ x d ≤ y d) f g) (hbc : J.I.bct = .periodic) :
    ∃ P T, (∀ b, upscaleSinglePhase (RelPermChain.setPerms J.I f) b = some P) ∧
      (∀ b, upscaleSinglePhase (RelPermChain.setPerms J.I g) b = some T) ∧
      Mimetic.Symm P ∧ Mimetic.Symm T ∧ Mimetic.PosDef P ∧ Mimetic.PosDef T ∧
      ∀ x, Mimetic.quadForm P x ≤ Mimetic.quadForm T x := by
  have e := RelPermChain.flow_periodic (base_ready h) (List.range f.length) (fun i => f.getD i fun _ => 0) (fun i => g.getD i fun _ => 0)
    (by rw [List.length_range]; exact hl) (fun c hc d => (getD_of hfg c (List.mem_range.mp hc) d).1)
    (fun c hc d => (getD_of hfg c (List.mem_range.mp hc) d).2) hbc
  rw [← indexed f, hfg.length_eq, ← indexed g] at e
  exact e

/-! ### Permeabilities of the cells -/

omit [Field K] [IsStrictOrderedRing K] in
theorem maxFold_le (l : List (K × (Fin 3 → K))) (m M : K) (hm : m ≤ M) (h : ∀ x ∈ l, x.1 ≤ M ∧ ∀ d, x.2 d ≤ M) :
    l.foldl (fun m x => max (max m x.1) (max (max (x.2 0) (x.2 1)) (x.2 2))) m ≤ M := by
  induction l generalizing m with
  | nil => exact hm
  | cons x l ih =>
    obtain ⟨h1, h2⟩ := h x (List.mem_cons_self ..)
    exact ih _ (max_le (max_le hm h1) (max_le (max_le (h2 0) (h2 1)) (h2 2))) fun y hy => h y (List.mem_cons_of_mem _ hy)

omit [Field K] [IsStrictOrderedRing K] in
theorem maxFold_mono {α : Type} (l : List α) (f g : α → K × (Fin 3 → K)) (m m' : K) (hm : m ≤ m')
    (h : ∀ x ∈ l, (f x).1 ≤ (g x).1 ∧ ∀ d, (f x).2 d ≤ (g x).2 d) :
    (l.map f).foldl (fun m x => max (max m x.1) (max (max (x.2 0) (x.2 1)) (x.2 2))) m ≤
      (l.map g).foldl (fun m x => max (max m x.1) (max (max (x.2 0) (x.2 1)) (x.2 2))) m' := by
  induction l generalizing m m' with
  | nil => exact hm
  | cons x l ih =>
    obtain ⟨h1, h2⟩ := h x (List.mem_cons_self ..)
    exact ih _ _ (max_le_max (max_le_max hm h1) (max_le_max (max_le_max (h2 0) (h2 1)) (h2 2)))
      fun y hy => h y (List.mem_cons_of_mem _ hy)

theorem grid_mono (O : Opts K) (aniso : Bool) (kr kr' : Nat → Fin 3 → Curve K) (s s' : Nat → K) (cells : List (Cell K)) (hc : 1 ≤ O.contrast)
    (hmin : 0 < O.minPerm) (hp : ∀ c ∈ cells, ∀ d, 0 ≤ c.perm d)
    (h : ∀ c ∈ cells, 0 < c.satnum → ∀ d, (kr (rockOf c) d).eval (s (rockOf c)) ≤ (kr' (rockOf c) d).eval (s' (rockOf c))) :
    List.Forall₂ (fun x y => ∀ d, 0 < x d ∧ x d ≤ y d) (gridPerms O aniso kr s cells) (gridPerms O aniso kr' s' cells) := by
  have hcell : ∀ c ∈ cells, (cellPhase O aniso kr s c).1 ≤ (cellPhase O aniso kr' s' c).1 ∧
      ∀ d, (cellPhase O aniso kr s c).2 d ≤ (cellPhase O aniso kr' s' c).2 d := by
    intro c hcm
    unfold cellPhase
    split_ifs with h0 ha
    · exact ⟨le_refl _, fun d => mul_le_mul_of_nonneg_right (h c hcm h0 d) (hp c hcm d)⟩
    · exact ⟨mul_le_mul_of_nonneg_right (h c hcm h0 0) (hp c hcm 0), fun d => le_refl _⟩
    · exact ⟨le_refl _, fun d => le_refl _⟩
  have hfl : phaseFloor O (cells.map (cellPhase O aniso kr s)) ≤ phaseFloor O (cells.map (cellPhase O aniso kr' s')) :=
    max_le_max (div_le_div_of_nonneg_right (maxFold_mono cells _ _ 0 0 (le_refl _) hcell) (zero_le_one.trans hc)) (le_refl _)
  have hpos : 0 < phaseFloor O (cells.map (cellPhase O aniso kr s)) := hmin.trans_le (le_max_right _ _)
  unfold gridPerms
  dsimp only
  rw [List.map_map, List.map_map, List.forall₂_map_left_iff, List.forall₂_map_right_iff, List.forall₂_same]
  intro c hcm d
  obtain ⟨h1, h2⟩ := hcell c hcm
  simp only [Function.comp]
  split_ifs with ha
  · exact ⟨hpos.trans_le (le_max_left _ _), max_le_max hfl (h2 d)⟩
  · exact ⟨hpos.trans_le (le_max_left _ _), max_le_max hfl (max_le_max hfl h1)⟩

omit [IsStrictOrderedRing K] in
theorem maxSingle_ge (cells : List (Cell K)) (m : K) :
    m ≤ cells.foldl (fun m c => if c.satnum > 0 then max m (c.perm 0) else m) m ∧
    ∀ c ∈ cells, 0 < c.satnum → c.perm 0 ≤ cells.foldl (fun m c => if c.satnum > 0 then max m (c.perm 0) else m) m := by
  induction cells generalizing m with
  | nil => exact ⟨le_refl _, fun c hc => absurd hc (by simp)⟩
  | cons c l ih =>
    rw [List.foldl_cons]
    obtain ⟨h1, h2⟩ := ih (if c.satnum > 0 then max m (c.perm 0) else m)
    have h3 : m ≤ if c.satnum > 0 then max m (c.perm 0) else m := by
      split
      · exact le_max_left _ _
      · exact le_refl _
    refine ⟨h3.trans h1, fun d hd hr => ?_⟩
    rcases List.mem_cons.mp hd with rfl | hd
    · refine le_trans ?_ h1
      rw [if_pos hr]
      exact le_max_right _ _
    · exact h2 d hd hr

theorem grid_le_single (O : Opts K) (aniso : Bool) (kr : Nat → Fin 3 → Curve K) (hk : UnitRange kr) (s : Nat → K) (cells : List (Cell K))
    (hc : 1 ≤ O.contrast) (hmin : 0 < O.minPerm) (hp : ∀ c ∈ cells, ∀ d, 0 ≤ c.perm d)
    (hx : aniso = true → ∀ c ∈ cells, 0 < c.satnum → ∀ d, ∃ c' ∈ cells, 0 < c'.satnum ∧ c.perm d ≤ c'.perm 0) :
    List.Forall₂ (fun x y => ∀ d, 0 < x d ∧ x d ≤ y d) (gridPerms O aniso kr s cells) (Visc.singlePerms O aniso cells) := by
  set M := cells.foldl (fun m c => if c.satnum > 0 then max m (c.perm 0) else m) 0 with hM
  obtain ⟨hM0, hM1⟩ := maxSingle_ge cells (0 : K)
  rw [← hM] at hM0 hM1
  have hcp : 0 < O.contrast := zero_lt_one.trans_le hc
  have hcell : ∀ c ∈ cells, (cellPhase O aniso kr s c).1 ≤ max M O.minPerm ∧ ∀ d, (cellPhase O aniso kr s c).2 d ≤ max M O.minPerm := by
    intro c hcm
    unfold cellPhase
    have hle : ∀ d, (kr (rockOf c) d).eval (s (rockOf c)) * c.perm d ≤ c.perm d := fun d => mul_le_of_le_one_left (hp c hcm d) (hk _ _ _).2
    split_ifs with h0 ha
    · refine ⟨le_max_right _ _, fun d => ?_⟩
      obtain ⟨c', m', r', q'⟩ := hx ha c hcm h0 d
      exact ((hle d).trans (q'.trans (hM1 c' m' r'))).trans (le_max_left _ _)
    · exact ⟨((hle 0).trans (hM1 c hcm h0)).trans (le_max_left _ _), fun d => le_max_right _ _⟩
    · exact ⟨le_max_right _ _, fun d => le_max_right _ _⟩
  have hmax : maxPhase (cells.map (cellPhase O aniso kr s)) ≤ max M O.minPerm := by
    refine maxFold_le _ 0 _ (hM0.trans (le_max_left _ _)) ?_
    intro x hx
    obtain ⟨c, hcm, rfl⟩ := List.mem_map.mp hx
    exact hcell c hcm
  have hfl : phaseFloor O (cells.map (cellPhase O aniso kr s)) ≤ Visc.singleFloor O cells := by
    unfold phaseFloor Visc.singleFloor
    rw [← hM]
    refine max_le ?_ (le_max_right _ _)
    refine (div_le_div_of_nonneg_right hmax hcp.le).trans ?_
    rw [← max_div_div_right hcp.le]
    exact max_le_max (le_refl _) (div_le_self hmin.le hc)
  have hmf : O.minPerm ≤ Visc.singleFloor O cells := le_max_right _ _
  have hpos : 0 < phaseFloor O (cells.map (cellPhase O aniso kr s)) := hmin.trans_le (le_max_right _ _)
  unfold gridPerms Visc.singlePerms
  dsimp only
  rw [List.map_map, List.forall₂_map_left_iff, List.forall₂_map_right_iff, List.forall₂_same]
  intro c hcm d
  simp only [Function.comp]
  have hle : ∀ d, (kr (rockOf c) d).eval (s (rockOf c)) * c.perm d ≤ c.perm d := fun d => mul_le_of_le_one_left (hp c hcm d) (hk _ _ _).2
  by_cases ha : aniso = true
  · simp only [if_pos ha]
    refine ⟨hpos.trans_le (le_max_left _ _), max_le (hfl.trans (le_max_left _ _)) ?_⟩
    unfold cellPhase
    split_ifs
    · exact (hle d).trans (le_max_right _ _)
    · exact hmf.trans (le_max_left _ _)
  · simp only [if_neg ha]
    refine ⟨hpos.trans_le (le_max_left _ _), max_le (hfl.trans (le_max_right _ _)) (max_le (hfl.trans (le_max_right _ _)) ?_)⟩
    unfold cellPhase
    split_ifs
    · exact (hle 0).trans (le_max_left _ _)
    · exact hmf.trans (le_max_right _ _)

omit [IsStrictOrderedRing K] in
theorem single_pos (O : Opts K) (aniso : Bool) (cells : List (Cell K)) (hmin : 0 < O.minPerm) :
    List.Forall₂ (fun x y => ∀ d, 0 < x d ∧ x d ≤ y d) (Visc.singlePerms O aniso cells) (Visc.singlePerms O aniso cells) := by
  rw [List.forall₂_same]
  intro x hx d
  refine ⟨?_, le_refl _⟩
  unfold Visc.singlePerms at hx
  obtain ⟨c, _, rfl⟩ := List.mem_map.mp hx
  have : 0 < Visc.singleFloor O cells := hmin.trans_le (le_max_right _ _)
  split_ifs
  · exact this.trans_le (le_max_left _ _)
  · exact this.trans_le (le_max_right _ _)

theorem vols_of (hv : Valid J) : rockVols J.C.length J.cells = some J.vols := by
  obtain ⟨vols, e1, e2, _, e4⟩ := C114_volumes J.C.length J.cells fun c hc => (hv.typed c hc).1
  rw [e1]
  congr 1
  refine List.ext_getElem? fun r => ?_
  by_cases hr : r < J.C.length
  · rw [e4 r hr, hv.vols.2 r hr]
  · rw [List.getElem?_eq_none (by omega), List.getElem?_eq_none (by rw [hv.vols.1]; omega)]

theorem sat_of (hv : Valid J) (v : K) : ∃ w, swAt J.aniso J.C J.vols (poreVolume J.cells) v = some w ∧ MeanSat J v w := by
  refine ⟨_, C114_mean J.aniso J.C J.cells J.vols (vols_of hv) hv.volume.ne' v, ?_⟩
  unfold MeanSat
  rw [div_mul_cancel₀ _ hv.volume.ne']

omit [IsStrictOrderedRing K] in
theorem grid_length (O : Opts K) (aniso : Bool) (kr : Nat → Fin 3 → Curve K) (s : Nat → K) (cells : List (Cell K)) :
    (gridPerms O aniso kr s cells).length = cells.length := by
  unfold gridPerms
  simp

theorem satOf_mono (aniso : Bool) (c : Fin 3 → Curve K) (h : ∀ d x y, x ≤ y → (c d).eval x ≤ (c d).eval y) (v v' : K) (hv : v ≤ v') :
    satOf aniso c v ≤ satOf aniso c v' := by
  unfold satOf
  have h0 := h 0 v v' hv
  have h1 := h 1 v v' hv
  have h2 := h 2 v v' hv
  split_ifs
  · exact div_le_div_of_nonneg_right (by linarith) (by norm_num)
  · exact h0

theorem rockSats_mono (hr : Rising J) (v v' : K) (h : v ≤ v') (r : Nat) : rockSats J v r ≤ rockSats J v' r := by
  unfold rockSats
  cases e : J.C[r]? with
  | none => exact le_refl _
  | some c => exact satOf_mono J.aniso c (hr c (List.mem_of_getElem? e)) v v' h

theorem point_sat {kr : Nat → Fin 3 → Curve K} {v w : K} {b b' : Boundary.BCs K} {row : List K} (h : point J kr v b b' = some (w, row)) :
    swAt J.aniso J.C J.vols (poreVolume J.cells) v = some w := by
  unfold point at h
  simp only [Option.bind_eq_some_iff, Option.map_eq_some_iff, Prod.mk.injEq] at h
  obtain ⟨_, _, _, _, w', h1, _, _, h2, _⟩ := h
  rw [h1, h2]

end lemmas

section props
variable {J : Job K} {lo hi : Fin 3 → K} {side : Boundary.Face K → Nat}

/-- C144: with fixed boundary conditions every relative permeability upscaled in the viscous limit is the quotient of upscaled phase and single phase
permeability, positive and at most one, reported for the pore volume weighted mean of the cells' saturations. For anisotropic input no permeability may
exceed the largest one in the x direction (see `C144_violated_anisotropic`). -/
theorem C144_unit_partial (h : Ready J lo hi side) (hv : Valid J) (hbc : J.I.bct = .fixed) (hx : J.aniso = true → XLargest J)
    (kr : Nat → Fin 3 → Curve K) (hk : UnitRange kr) (v : K) :
    ∃ T P w, ∃ r : Fin 3 → K, (∀ b, single J b = some T) ∧ (∀ b, phase J kr v b = some P) ∧ MeanSat J v w ∧
      (∀ b b', point J kr v b b' = some (w, [r 0, r 1, r 2])) ∧ ∀ d, r d * T d d = P d d ∧ 0 < r d ∧ r d ≤ 1 := by
  obtain ⟨w, hw, hm⟩ := sat_of hv v
  obtain ⟨P, T, p1, t1, p2, t2, le⟩ := flow2_fixed h _ _ (by rw [grid_length]; exact hv.cells)
    (grid_le_single J.O J.aniso kr hk (rockSats J v) J.cells hv.contrast hv.minPerm hv.perm hx) hbc
  have hT : ∀ d, 0 < T d d := fun d => (le d).1.trans_le (le d).2
  refine ⟨T, P, w, fun d => P d d / T d d, t1, p1, hm, fun b b' => ?_, fun d =>
    ⟨div_mul_cancel₀ _ (hT d).ne', div_pos (le d).1 (hT d), (div_le_one (hT d)).mpr (le d).2⟩⟩
  unfold point
  rw [show single J b = some T from t1 b, show phase J kr v b' = some P from p1 b', hw]
  simp only [Option.bind_some]
  rw [relPerm_eq, RelPermChain.relPerm_fixed (base_ready h) hbc T P t2 hT]
  rfl

/-- C144: the same with periodic boundary conditions: single phase and phase permeability are symmetric positive definite, the phase permeability is the
smaller one, and all eigenvalues of the relative permeability tensor are positive and at most one. -/
theorem C144_periodic_partial (h : Ready J lo hi side) (hv : Valid J) (hbc : J.I.bct = .periodic) (hx : J.aniso = true → XLargest J)
    (kr : Nat → Fin 3 → Curve K) (hk : UnitRange kr) (v : K) :
    ∃ T P w, ∃ r : Fin 9 → K, (∀ b, single J b = some T) ∧ (∀ b, phase J kr v b = some P) ∧ MeanSat J v w ∧
      (∀ b b', point J kr v b b' = some (w, List.ofFn r)) ∧ RelPermChain.ofVoigt r * Matrix.of T = Matrix.of P ∧
      Mimetic.Symm T ∧ Mimetic.Symm P ∧ (∀ x, (∃ i, x i ≠ 0) → 0 < Mimetic.quadForm P x ∧
        Mimetic.quadForm P x ≤ Mimetic.quadForm T x) ∧
      ∀ (z : K) (u : Fin 3 → K), u ≠ 0 → (RelPermChain.ofVoigt r).mulVec u = z • u → 0 < z ∧ z ≤ 1 := by
  obtain ⟨w, hw, hm⟩ := sat_of hv v
  obtain ⟨P, T, p1, t1, p2, t2, p3, t3, le⟩ := flow2_periodic h _ _ (by rw [grid_length]; exact hv.cells)
    (grid_le_single J.O J.aniso kr hk (rockSats J v) J.cells hv.contrast hv.minPerm hv.perm hx) hbc
  obtain ⟨r, r1, r2⟩ := RelPermChain.relPerm_full (base_ready h) hbc T P t3
  refine ⟨T, P, w, r, t1, p1, hm, fun b b' => ?_, r2, t2, p2, fun x hx => ⟨p3 x hx, le x⟩,
    fun z u hu hz => RelPermChain.eig_unit T P t3 p3 le _ r2 z u hu hz⟩
  unfold point
  rw [show single J b = some T from t1 b, show phase J kr v b' = some P from p1 b', hw]
  simp only [Option.bind_some]
  rw [relPerm_eq, r1]
  rfl

/-- C144: the curves upscaled with fixed boundary conditions are monotone, for isotropic and anisotropic input. The saturation does not fall when the ratio
of the flows rises. Of any two points the one with larger saturation has relative permeabilities that are not smaller, if relative permeability does not
fall with saturation in any rock type, and not larger, if it does not rise in any. -/
theorem C144_monotone (h : Ready J lo hi side) (hv : Valid J) (hbc : J.I.bct = .fixed) (hr : Rising J) (kr : Nat → Fin 3 → Curve K)
    (v v' : K) (b b' e e' : Boundary.BCs K) (w w' : K) (row row' : List K)
    (hp : point J kr v b b' = some (w, row)) (hq : point J kr v' e e' = some (w', row')) :
    (v ≤ v' → w ≤ w') ∧ (w < w' →
    ((∀ r d s t, s ≤ t → (kr r d).eval s ≤ (kr r d).eval t) → List.Forall₂ (· ≤ ·) row row') ∧
    ((∀ r d s t, s ≤ t → (kr r d).eval t ≤ (kr r d).eval s) → List.Forall₂ (· ≤ ·) row' row)) := by
  have hsat : ∀ {v v' w w' : K}, v ≤ v' → swAt J.aniso J.C J.vols (poreVolume J.cells) v = some w →
      swAt J.aniso J.C J.vols (poreVolume J.cells) v' = some w' → w ≤ w' := fun hle h1 h2 =>
    C114_monotone J.aniso J.C J.cells J.vols (vols_of hv) hv.volume hv.typed hr _ _ _ _ hle h1 h2
  refine ⟨fun hle => hsat hle (point_sat hp) (point_sat hq), fun hw => ?_⟩
  have hle : v ≤ v' := by
    by_contra hh
    exact absurd (hsat (not_le.mp hh).le (point_sat hq) (point_sat hp)) (not_le.mpr hw)
  have key : ∀ v v', (∀ c ∈ J.cells, 0 < c.satnum → ∀ d, (kr (rockOf c) d).eval (rockSats J v (rockOf c)) ≤
        (kr (rockOf c) d).eval (rockSats J v' (rockOf c))) →
      ∀ {b b' e e' : Boundary.BCs K} {w w' : K} {row row' : List K}, point J kr v b b' = some (w, row) →
      point J kr v' e e' = some (w', row') → List.Forall₂ (· ≤ ·) row row' := by
    intro v v' hcell b b' e e' w w' row row' hp hq
    obtain ⟨P, Q, p1, q1, _, _, le⟩ := flow2_fixed h _ _ (by rw [grid_length]; exact hv.cells)
      (grid_mono J.O J.aniso kr kr (rockSats J v) (rockSats J v') J.cells hv.contrast hv.minPerm hv.perm hcell) hbc
    obtain ⟨T, _, t1, _, t2, _, tp⟩ := flow2_fixed h _ _ (by unfold Visc.singlePerms; rw [List.length_map]; exact hv.cells)
      (single_pos J.O J.aniso J.cells hv.minPerm) hbc
    have hT : ∀ d, 0 < T d d := fun d => (tp d).1
    unfold point at hp hq
    rw [show single J b = some T from t1 b, show phase J kr v b' = some P from p1 b'] at hp
    rw [show single J e = some T from t1 e, show phase J kr v' e' = some Q from q1 e'] at hq
    simp only [Option.bind_some, Option.bind_eq_some_iff, Option.map_eq_some_iff, Prod.mk.injEq,
      relPerm_eq, RelPermChain.relPerm_fixed (base_ready h) hbc T _ t2 hT, Option.some.injEq] at hp hq
    obtain ⟨_, _, _, er, _, er'⟩ := hp
    obtain ⟨_, _, _, fr, _, fr'⟩ := hq
    rw [← er', ← er, ← fr', ← fr]
    have := fun d => div_le_div_of_nonneg_right (le d).2 (hT d).le
    exact .cons (this 0) (.cons (this 1) (.cons (this 2) .nil))
  exact ⟨fun hk => key v v' (fun c _ _ d => hk _ _ _ _ (rockSats_mono hr v v' hle _)) hp hq,
    fun hk => key v' v (fun c _ _ d => hk _ _ _ _ (rockSats_mono hr v v' hle _)) hq hp⟩

/-- C144: with periodic conditions the upscaled phase permeability is monotone as a quadratic form, in the ratio of the flows. -/
theorem C144_monotone_periodic (h : Ready J lo hi side) (hv : Valid J) (hbc : J.I.bct = .periodic) (hr : Rising J) (kr : Nat → Fin 3 → Curve K)
    (v v' : K) (hle : v ≤ v') :
    ∃ P Q, (∀ b, phase J kr v b = some P) ∧ (∀ b, phase J kr v' b = some Q) ∧
      ((∀ r d s t, s ≤ t → (kr r d).eval s ≤ (kr r d).eval t) → ∀ x, Mimetic.quadForm P x ≤ Mimetic.quadForm Q x) ∧
      ((∀ r d s t, s ≤ t → (kr r d).eval t ≤ (kr r d).eval s) → ∀ x, Mimetic.quadForm Q x ≤ Mimetic.quadForm P x) := by
  have key : ∀ v v', (∀ c ∈ J.cells, 0 < c.satnum → ∀ d, (kr (rockOf c) d).eval (rockSats J v (rockOf c)) ≤
        (kr (rockOf c) d).eval (rockSats J v' (rockOf c))) →
      ∃ P Q, (∀ b, phase J kr v b = some P) ∧ (∀ b, phase J kr v' b = some Q) ∧ ∀ x, Mimetic.quadForm P x ≤ Mimetic.quadForm Q x := by
    intro v v' hcell
    obtain ⟨P, Q, p1, q1, _, _, _, _, le⟩ := flow2_periodic h _ _ (by rw [grid_length]; exact hv.cells)
      (grid_mono J.O J.aniso kr kr (rockSats J v) (rockSats J v') J.cells hv.contrast hv.minPerm hv.perm hcell) hbc
    exact ⟨P, Q, p1, q1, le⟩
  have b0 : Boundary.BCs K := ⟨⟨[], []⟩, [], []⟩
  obtain ⟨P, _, hP, _⟩ := key v v fun _ _ _ _ => le_refl _
  obtain ⟨Q, _, hQ, _⟩ := key v' v' fun _ _ _ _ => le_refl _
  refine ⟨P, Q, hP, hQ, fun hk => ?_, fun hk => ?_⟩
  · obtain ⟨P', Q', h1, h2, h3⟩ := key v v' fun c _ _ d => hk _ _ _ _ (rockSats_mono hr v v' hle _)
    have e1 : P = P' := Option.some.inj ((hP b0).symm.trans (h1 b0))
    have e2 : Q = Q' := Option.some.inj ((hQ b0).symm.trans (h2 b0))
    rw [e1, e2]; exact h3
  · obtain ⟨Q', P', h1, h2, h3⟩ := key v' v fun c _ _ d => hk _ _ _ _ (rockSats_mono hr v v' hle _)
    have e1 : P = P' := Option.some.inj ((hP b0).symm.trans (h2 b0))
    have e2 : Q = Q' := Option.some.inj ((hQ b0).symm.trans (h1 b0))
    rw [e1, e2]; exact h3

/-- C144: the curves that are computed for rocks in which water flows not worse and oil not better with more water, one of them strictly so, do not fall, as
`C144_monotone` requires. -/
theorem C144_rising (O : Opts K) (inv : Curve K → K → K) (mk : List (K × K) → Curve K) (hmk : Visc.Spec.Interpolates mk) (rocks : List (Rock K))
    (hC : rocks.mapM (ratioCurves O inv mk false) = some J.C) (hw : 0 < O.muw) (ho : 0 < O.muo) (he : 0 < O.eps)
    (hR : ∀ R ∈ rocks, ∀ l r, leftBound O inv false R = some l → rightBound O inv false R = some r →
      l < r ∧ Visc.Spec.Physical O.eps (R.water 0).eval (R.oil 0).eval l r) : Rising J := by
  intro c hc d x y hxy
  obtain ⟨R, hRm, e⟩ : ∃ R ∈ rocks, ratioCurves O inv mk false R = some c := by
    clear hR
    revert hC hc
    generalize J.C = C
    induction rocks generalizing C with
    | nil => intro hC hc; simp at hC; rw [hC] at hc; simp at hc
    | cons R rs ih =>
      intro hC hc
      rw [List.mapM_cons] at hC
      simp only [Option.bind_eq_bind, Option.bind_eq_some_iff, Option.pure_def, Option.some.injEq] at hC
      obtain ⟨q, h1, C', h2, rfl⟩ := hC
      rcases List.mem_cons.mp hc with rfl | hc
      · exact ⟨R, List.mem_cons_self .., h1⟩
      · obtain ⟨R', m, e⟩ := ih C' h2 hc
        exact ⟨R', List.mem_cons_of_mem _ m, e⟩
  unfold ratioCurves at e
  simp only [Option.bind_eq_some_iff] at e
  obtain ⟨l, hl, r, hr, t, ht, e⟩ := e
  rw [if_neg Bool.false_ne_true] at e
  obtain ⟨h1, h2⟩ := hR R hRm l r hl hr
  obtain ⟨t', ht', _, _, hp1, hp2⟩ := C114_table O (R.water 0) (R.oil 0) l r hw ho he h1 h2
  obtain rfl : t = t' := Option.some.inj (ht.symm.trans ht')
  rw [← Option.some.inj e]
  exact (hmk t hp1 (hp2.imp fun h => h.le)).2.2.1 x y hxy

/-! ### Where the rock conducts the phase fully -/

theorem grid_full (O : Opts K) (kr : Nat → Fin 3 → Curve K) (s : Nat → K) (cells : List (Cell K)) (hc : 1 ≤ O.contrast) (hmin : 0 < O.minPerm)
    (h0 : ∀ c ∈ cells, ¬ 0 < c.satnum → c.perm 0 ≤ O.minPerm) (hp : ∀ c ∈ cells, ∀ d, 0 ≤ c.perm d)
    (h : ∀ c ∈ cells, 0 < c.satnum → (kr (rockOf c) 0).eval (s (rockOf c)) = 1) :
    gridPerms O false kr s cells = Visc.singlePerms O false cells := by
  have hcp : 0 < O.contrast := zero_lt_one.trans_le hc
  have key : ∀ (l : List (Cell K)), (∀ c ∈ l, c ∈ cells) → ∀ m m' : K, max m O.minPerm = max m' O.minPerm →
      max ((l.map (cellPhase O false kr s)).foldl (fun m x => max (max m x.1) (max (max (x.2 0) (x.2 1)) (x.2 2))) m) O.minPerm =
      max (l.foldl (fun m c => if c.satnum > 0 then max m (c.perm 0) else m) m') O.minPerm := by
    intro l
    induction l with
    | nil => intro _ m m' hm; exact hm
    | cons c l ih =>
      intro hl m m' hm
      have hcm := hl c (List.mem_cons_self ..)
      rw [List.map_cons, List.foldl_cons, List.foldl_cons]
      refine ih (fun d hd => hl d (List.mem_cons_of_mem _ hd)) _ _ ?_
      unfold cellPhase
      by_cases hr : c.satnum > 0
      · simp only [if_pos hr, if_neg (Bool.false_ne_true), h c hcm hr, one_mul, max_self]
        rw [max_assoc, max_self, max_right_comm, hm, max_right_comm]
      · simp only [if_neg hr, max_self]
        rw [max_assoc, max_assoc, max_self, max_self, hm]
  have hfl : phaseFloor O (cells.map (cellPhase O false kr s)) = Visc.singleFloor O cells :=
    RelPermChain.floor_full hc hmin (key cells (fun _ h => h) 0 0 rfl)
  have hm : O.minPerm ≤ Visc.singleFloor O cells := le_max_right _ _
  unfold gridPerms Visc.singlePerms
  dsimp only
  rw [List.map_map, hfl]
  refine List.map_congr_left fun c hcm => ?_
  funext d
  simp only [Function.comp, if_neg (Bool.false_ne_true)]
  unfold cellPhase
  by_cases hr : c.satnum > 0
  · simp only [if_pos hr, if_neg (Bool.false_ne_true), h c hcm hr, one_mul]
    rw [← max_assoc, max_self, max_comm]
  · simp only [if_neg hr]
    rw [max_eq_left hm, max_self, max_eq_right ((h0 c hcm hr).trans hm)]

/-- C144: where every rock conducts the phase fully (and cells without rock have no more than the least permeability), the upscaled relative permeability
of isotropic input is one, exactly, with fixed and with periodic conditions. -/
theorem C144_full (h : Ready J lo hi side) (hv : Valid J) (hbc : J.I.bct ≠ .linear) (ha : J.aniso = false)
    (h0 : ∀ c ∈ J.cells, ¬ 0 < c.satnum → c.perm 0 ≤ J.O.minPerm) (kr : Nat → Fin 3 → Curve K) (v : K)
    (hk : ∀ c ∈ J.cells, 0 < c.satnum → ∀ q, J.C[(c.satnum - 1).toNat]? = some q →
      (kr (c.satnum - 1).toNat 0).eval (Visc.Spec.rockSat false q v) = 1) :
    ∃ w, MeanSat J v w ∧ ∀ b b', point J kr v b b' =
      some (w, if J.I.bct = .fixed then [1, 1, 1] else [1, 1, 1, 0, 0, 0, 0, 0, 0]) := by
  obtain ⟨w, hw, hm⟩ := sat_of hv v
  have hPS : ∀ b, phase J kr v b = single J b := by
    intro b
    unfold phase single
    rw [ha, grid_full J.O kr (rockSats J v) J.cells hv.contrast hv.minPerm h0 hv.perm fun c hc hr => ?_]
    have hlt : (c.satnum - 1).toNat < J.C.length := by have := (hv.typed c hc).1; omega
    have := hk c hc hr _ (List.getElem?_eq_getElem hlt)
    unfold rockSats rockOf satOf
    rw [List.getElem?_eq_getElem hlt, ha]
    exact this
  have hlen : (Visc.singlePerms J.O J.aniso J.cells).length = J.I.G.nc := by
    unfold Visc.singlePerms; rw [List.length_map]; exact hv.cells
  refine ⟨w, hm, fun b b' => ?_⟩
  unfold point
  cases hb : J.I.bct with
  | linear => exact absurd hb hbc
  | fixed =>
    obtain ⟨T, _, t1, _, t2, _, tp⟩ := flow2_fixed h _ _ hlen (single_pos J.O J.aniso J.cells hv.minPerm) hb
    have hT : ∀ d, 0 < T d d := fun d => (tp d).1
    rw [hPS, show ∀ b, single J b = some T from t1, show ∀ b, single J b = some T from t1, hw]
    simp only [Option.bind_some]
    rw [relPerm_eq, RelPermChain.relPerm_fixed (base_ready h) hb T T t2 hT, div_self (hT 0).ne', div_self (hT 1).ne', div_self (hT 2).ne']
    rfl
  | periodic =>
    obtain ⟨T, _, t1, _, _, _, t3, _, _⟩ := flow2_periodic h _ _ hlen (single_pos J.O J.aniso J.cells hv.minPerm) hb
    rw [hPS, show ∀ b, single J b = some T from t1, show ∀ b, single J b = some T from t1, hw]
    simp only [Option.bind_some]
    obtain ⟨r, r1, r2⟩ := RelPermChain.relPerm_full (base_ready h) hb T T t3
    have hu := RelPermChain.unit_posdef T t3
    have e : RelPermChain.ofVoigt r = 1 := hu.mul_right_cancel (r2.trans (Matrix.one_mul _).symm)
    have g : ∀ i j, RelPermChain.ofVoigt r i j = (1 : Matrix (Fin 3) (Fin 3) K) i j := fun i j => by rw [e]
    have r0 : r 0 = 1 := g 0 0
    have r1' : r 1 = 1 := g 1 1
    have r2' : r 2 = 1 := g 2 2
    have r3 : r 3 = 0 := g 1 2
    have r4 : r 4 = 0 := g 0 2
    have r5 : r 5 = 0 := g 0 1
    have r6 : r 6 = 0 := g 2 1
    have r7 : r 7 = 0 := g 2 0
    have r8 : r 8 = 0 := g 1 0
    rw [relPerm_eq, r1, show List.ofFn r = [r 0, r 1, r 2, r 3, r 4, r 5, r 6, r 7, r 8] by simp [List.ofFn_succ, Fin.succ],
      r0, r1', r2', r3, r4, r5, r6, r7, r8]
    rfl

end props

/-! ### A concrete job -/

/-- Two cells of one rock type whose saturation is the ratio, limited by zero and one; the tool's default contrast and least permeability. -/
noncomputable def exJob (bct : Upscale.BCType) (aniso : Bool) (k k' : Fin 3 → ℚ) : Job ℚ where
  O := ⟨1 / 10 ^ 4, 1 / 10 ^ 12, 10 ^ 5, 10 ^ 7, 1 / 10 ^ 5, 1, 1, 1 / 10 ^ 12⟩
  aniso := aniso
  cells := [⟨1, 1 / 4, k, 343⟩, ⟨1, 1 / 4, k', 343⟩]
  C := [fun _ => ⟨[(0, 0), (1, 1)], fun x => max 0 (min 1 x)⟩]
  vols := [343 / 2]
  I := exInput bct 0 exPerm
  invert := RelPermChain.exInvert

theorem ex_ready (bct : Upscale.BCType) (aniso : Bool) (k k' : Fin 3 → ℚ) : Ready (exJob bct aniso k k') exLo exHi exSide :=
  have h := RelPermChain.ex_ready bct false (fun _ => 1) (fun _ => 1)
  ⟨h.tiling, h.box, h.suited, h.basis, h.sort, h.solver, h.gravity, h.invert⟩

theorem ex_valid (bct : Upscale.BCType) (aniso : Bool) (k k' : Fin 3 → ℚ) (h : ∀ d, 0 ≤ k d) (h' : ∀ d, 0 ≤ k' d) : Valid (exJob bct aniso k k') where
  cells := rfl
  typed c hc := by
    rcases List.mem_cons.mp hc with rfl | hc
    · exact ⟨le_refl _, by norm_num, by norm_num⟩
    · rw [List.mem_singleton.mp hc]
      exact ⟨le_refl _, by norm_num, by norm_num⟩
  volume := by
    change (0 : ℚ) < [(343 : ℚ) * (1 / 4), 343 * (1 / 4)].sum
    norm_num
  vols := ⟨rfl, fun r hr => by
    have : r = 0 := Nat.lt_one_iff.mp hr
    subst this
    change some (343 / 2 : ℚ) = some [(343 : ℚ) * (1 / 4), 343 * (1 / 4)].sum
    norm_num⟩
  perm c hc d := by
    rcases List.mem_cons.mp hc with rfl | hc
    · exact h d
    · rw [List.mem_singleton.mp hc]; exact h' d
  minPerm := by change (0 : ℚ) < 1 / 10 ^ 12; norm_num
  contrast := by change (1 : ℚ) ≤ 10 ^ 7; norm_num

theorem ex_rising (bct : Upscale.BCType) (aniso : Bool) (k k' : Fin 3 → ℚ) : Rising (exJob bct aniso k k') := by
  intro c hc d x y h
  rw [List.mem_singleton.mp hc]
  exact max_le_max (le_refl _) (min_le_min (le_refl _) h)

/-- The relative permeability s² of water. -/
def exKr (_ : Nat) (_ : Fin 3) : Curve ℚ := ⟨[(0, 0), (1, 1)], fun s => (max 0 (min 1 s)) ^ 2⟩

theorem exKr_unit : UnitRange exKr := fun _ _ s => RelPermChain.exKr_unit 0 0 s

/-- Two different cells: the relative permeabilities at any ratio. -/
example (v : ℚ) : ∃ w, ∃ r : Fin 3 → ℚ, (∀ b b', point (exJob .fixed false (fun _ => 1) fun _ => 2) exKr v b b' =
    some (w, [r 0, r 1, r 2])) ∧ ∀ d, 0 < r d ∧ r d ≤ 1 := by
  obtain ⟨_, _, w, r, _, _, _, h, h'⟩ := C144_unit_partial (ex_ready .fixed false (fun _ => 1) fun _ => 2)
    (ex_valid _ _ _ _ (fun _ => by norm_num) fun _ => by norm_num) rfl (fun h => by cases h) exKr exKr_unit v
  exact ⟨w, r, h, fun d => (h' d).2⟩

/-- Anisotropic cells with the largest permeabilities in the x direction, periodic conditions. -/
example (v : ℚ) : ∃ w, ∃ r : Fin 9 → ℚ, ∀ b b', point (exJob .periodic true ![3, 2, 1] ![6, 5, 4]) exKr v b b' = some (w, List.ofFn r) := by
  obtain ⟨_, _, w, r, _, _, _, h, _⟩ := C144_periodic_partial (ex_ready .periodic true ![3, 2, 1] ![6, 5, 4])
    (ex_valid _ _ _ _ (by decide) (by decide)) rfl (fun _ c hc _ d => ⟨⟨1, 1 / 4, ![6, 5, 4], 343⟩,
      List.mem_cons_of_mem _ (List.mem_singleton.mpr rfl), by decide, by
        rcases List.mem_cons.mp hc with rfl | hc
        · revert d; decide
        · rw [List.mem_singleton.mp hc]; revert d; decide⟩) exKr exKr_unit v
  exact ⟨w, r, h⟩

/-- Two points of the curve with different saturations. -/
example (v v' : ℚ) (b : Boundary.BCs ℚ) (w w' : ℚ) (row row' : List ℚ) (hp : point (exJob .fixed true ![3, 2, 1] ![4, 5, 6]) exKr v b b = some (w, row))
    (hq : point (exJob .fixed true ![3, 2, 1] ![4, 5, 6]) exKr v' b b = some (w', row')) (hw : w < w') : List.Forall₂ (· ≤ ·) row row' :=
  ((C144_monotone (ex_ready .fixed true ![3, 2, 1] ![4, 5, 6]) (ex_valid _ _ _ _ (by decide) (by decide)) rfl (ex_rising _ _ _ _) exKr v v' b b b b
    w w' row row' hp hq).2 hw).1 fun r d s t h => RelPermChain.exKr_mono d r s t h

/-- At the ratio one the rock is full of water: relative permeability one. -/
example : ∃ w, ∀ b b', point (exJob .fixed false (fun _ => 1) fun _ => 2) exKr 1 b b' = some (w, [1, 1, 1]) := by
  obtain ⟨w, _, h⟩ := C144_full (ex_ready .fixed false (fun _ => 1) fun _ => 2)
    (ex_valid _ _ _ _ (fun _ => by norm_num) fun _ => by norm_num) (by decide) rfl (fun c hc h => by
      rcases List.mem_cons.mp hc with rfl | hc
      · exact absurd Int.one_pos h
      · rw [List.mem_singleton.mp hc] at h; exact absurd Int.one_pos h) exKr 1 (fun c hc _ q hq => by
      have hs : c.satnum = 1 := by
        rcases List.mem_cons.mp hc with rfl | hc
        · rfl
        · rw [List.mem_singleton.mp hc]
      rw [hs] at hq
      obtain rfl := Option.some.inj hq
      change (max (0 : ℚ) (min 1 (max 0 (min 1 1)))) ^ 2 = 1
      norm_num)
  exact ⟨w, h⟩

/-- The hypotheses of `C144_rising` are met by two equal rocks. -/
example (J : Job ℚ) (hC : [exRock, exRock].mapM (ratioCurves exOpts (fun _ _ => 0) stepMk false) = some J.C) : Rising J := by
  refine C144_rising exOpts (fun _ _ => 0) stepMk stepMk_interpolates [exRock, exRock] hC (by norm_num [exOpts]) (by norm_num [exOpts])
    (by norm_num [exOpts]) fun R hR l r hl hr => ?_
  obtain rfl : R = exRock := by
    rcases List.mem_cons.mp hR with rfl | hR
    · rfl
    · exact List.mem_singleton.mp hR
  obtain rfl : (1 / 10 : ℚ) = l := Option.some.inj ((show leftBound exOpts (fun _ _ => 0) false exRock = some (1 / 10) by decide +kernel).symm.trans hl)
  obtain rfl : (9 / 10 : ℚ) = r := Option.some.inj ((show rightBound exOpts (fun _ _ => 0) false exRock = some (9 / 10) by decide +kernel).symm.trans hr)
  exact ⟨by norm_num, by simpa [exRock, exOpts] using exPhysical 1 (le_refl 1)⟩

/-- C144 is violated for anisotropic input: a homogeneous sample with x-permeability 1/10000 and y- and z-permeability 10000, rock that conducts the phase
fully. The least phase permeability is taken from the largest of all directions, the least single phase permeability from the x direction only: the
upscaled relative permeability is 10 in the x direction. -/
theorem C144_violated_anisotropic : ∃ w, ∀ b b', point (exJob .fixed true ![1 / 10 ^ 4, 10 ^ 4, 10 ^ 4] ![1 / 10 ^ 4, 10 ^ 4, 10 ^ 4])
    (fun _ _ => ⟨[(0, 1), (1, 1)], fun _ => 1⟩) 1 b b' = some (w, [10, 1, 1]) := by
  have hv := ex_valid .fixed true ![1 / 10 ^ 4, 10 ^ 4, 10 ^ 4] ![1 / 10 ^ 4, 10 ^ 4, 10 ^ 4] (by decide +kernel) (by decide +kernel)
  have hR := ex_ready .fixed true ![1 / 10 ^ 4, 10 ^ 4, 10 ^ 4] ![1 / 10 ^ 4, 10 ^ 4, 10 ^ 4]
  obtain ⟨w, hw, _⟩ := sat_of hv 1
  have hflow : ∀ (ks : List (Fin 3 → ℚ)) (k : Fin 3 → ℚ), ks = [k, k] → (∀ d, 0 < k d) → ∀ b,
      upscaleSinglePhase (RelPermChain.setPerms (exInput .fixed 0 exPerm) ks) b = some fun i j => if i = j then k i else 0 := by
    intro ks k hk hpos b
    have e : ks = ([0, 1] : List Nat).map fun _ => k := hk
    rw [e]
    refine C89_single_phase (RelPermChain.ready_sound (RelPermChain.ex_ready .fixed false (fun _ => 1) fun _ => 1) [0, 1] (fun _ => k) rfl
      fun _ _ d => hpos d) hR.tiling hR.box hR.suited _ (fun c i j => ?_) (fun _ i j h => if_neg h) b
    have := (RelPermChain.setPerms_perm (exInput .fixed 0 exPerm) [0, 1] (fun _ => k) rfl c).2
    exact congrFun (congrFun this i) j
  have hS : ∀ b, single (exJob .fixed true ![1 / 10 ^ 4, 10 ^ 4, 10 ^ 4] ![1 / 10 ^ 4, 10 ^ 4, 10 ^ 4]) b =
      some fun i j => if i = j then (![1 / 10 ^ 4, 10 ^ 4, 10 ^ 4] : Fin 3 → ℚ) i else 0 :=
    hflow _ _ (by decide +kernel) (by decide +kernel)
  have hP : ∀ b, phase (exJob .fixed true ![1 / 10 ^ 4, 10 ^ 4, 10 ^ 4] ![1 / 10 ^ 4, 10 ^ 4, 10 ^ 4]) (fun _ _ => ⟨[(0, 1), (1, 1)], fun _ => 1⟩) 1 b =
      some fun i j => if i = j then (![1 / 10 ^ 3, 10 ^ 4, 10 ^ 4] : Fin 3 → ℚ) i else 0 :=
    hflow _ _ (by decide +kernel) (by decide +kernel)
  refine ⟨w, fun b b' => ?_⟩
  unfold point
  rw [hS, hP, hw]
  simp only [Option.bind_some]
  rw [relPerm_eq, RelPermChain.relPerm_fixed (base_ready hR) rfl _ _ (fun i j h => if_neg h) (fun d => by
    rw [if_pos rfl]
    fin_cases d <;> norm_num [Matrix.cons_val])]
  norm_num [Matrix.cons_val]
  change (10000 : ℚ) / 10000 = 1
  norm_num

end Verif.ViscChain
