import Verif.Spec.ChainMirror
import Verif.Props.RelPermMirror
import Verif.Props.ResistCopies

/-!
C169: the mirror image of a sample has the mirror image of the relative permeabilities in the viscous limit, and of the resistivity.
-/

namespace Verif.ViscChain

open Verif.Dense Verif.Control Verif.RelPerm Verif.SinglePhase Verif.Visc

open Verif.RelPermChain (ofVoigt)

variable {K : Type} [Field K] [LinearOrder K] [IsStrictOrderedRing K]

/-- The mirror image of a positive definite tensor. -/
theorem posdef_mirror {s : Fin 3 → K} (hs : ∀ k, s k = 1 ∨ s k = -1) {T : Fin 3 → Fin 3 → K} (tp : Mimetic.PosDef T) :
    Mimetic.PosDef fun i j => s i * s j * T i j := by
  intro x hx
  have e : Mimetic.quadForm (fun i j => s i * s j * T i j) x = Mimetic.quadForm T fun i => s i * x i := by
    unfold Mimetic.quadForm
    refine Finset.sum_congr rfl fun i _ => Finset.sum_congr rfl fun j _ => ?_
    ring
  rw [e]
  obtain ⟨i, hi⟩ := hx
  refine tp _ ⟨i, mul_ne_zero ?_ hi⟩
  rcases hs i with e | e <;> rw [e]
  · exact one_ne_zero
  · exact neg_ne_zero.mpr one_ne_zero

/-- A diagonal tensor is its own mirror image. -/
theorem diag_mirror {s : Fin 3 → K} (hs : ∀ k, s k = 1 ∨ s k = -1) {T : Fin 3 → Fin 3 → K} (h : ∀ i j, i ≠ j → T i j = 0) :
    (fun i j => s i * s j * T i j) = T := by
  funext i j
  by_cases hij : i = j
  · subst hij
    rw [sign_sq hs, one_mul]
  · rw [h i j hij, mul_zero]

/-- Setting diagonal permeabilities of the mirror image is taking the mirror image of the sample with these permeabilities. -/
theorem setPerms_mirror {s : Fin 3 → K} (hs : ∀ k, s k = 1 ∨ s k = -1) (I : Input K) (bid : Half I.G → Nat) (ks : List (Fin 3 → K)) :
    RelPermChain.setPerms (mirror s I bid) ks = mirror s (RelPermChain.setPerms I ks) bid := by
  have e : (RelPermChain.setPerms (mirror s I bid) ks).perm = (mirror s (RelPermChain.setPerms I ks) bid).perm := by
    funext c i j
    change (match ks[c.val]? with | some k => if i = j then k i else 0 | none => s i * s j * I.perm c i j) =
      s i * s j * (match ks[c.val]? with | some k => if i = j then k i else 0 | none => I.perm c i j)
    cases ks[c.val]? with
    | none => rfl
    | some k =>
      dsimp only
      by_cases hij : i = j
      · subst hij
        rw [if_pos rfl, sign_sq hs, one_mul]
      · rw [if_neg hij, mul_zero]
  exact congrArg (fun q => ({ mirror s I bid with perm := q } : Input K)) e

section
variable {J : Job K} {lo hi lo' hi' : Fin 3 → K} {side side' : Boundary.Face K → Nat} {s : Fin 3 → K} {bid : Half J.I.G → Nat}

theorem flow_mirror (hs : ∀ k, s k = 1 ∨ s k = -1) (h : Ready J lo hi side) (hb' : FillsBox (mirror s J.I bid).G lo' hi' side')
    (hs' : Suited (mirror s J.I bid) lo' hi' side') (ks : List (Fin 3 → K)) (hl : ks.length = J.I.G.nc) (hk : ∀ k ∈ ks, ∀ d, 0 < k d) :
    ∃ T, (∀ b, upscaleSinglePhase (RelPermChain.setPerms J.I ks) b = some T) ∧
      ∀ b, upscaleSinglePhase (RelPermChain.setPerms (mirror s J.I bid) ks) b = some fun i j => s i * s j * T i j := by
  rw [setPerms_mirror hs J.I bid ks]
  exact C159_single_phase hs (list_sound h ks hl hk) h.tiling h.box h.suited hb' hs'

/-- **C169**. In the viscous limit, the mirror image of a sample has the same upscaled saturation at every ratio of mobilities, and the mirror images of the
single-phase and phase permeabilities: entries that couple a mirrored direction with one that is not mirrored change sign. -/
theorem C169_visc_tensors (hs : ∀ k, s k = 1 ∨ s k = -1) (h : Ready J lo hi side) (hb' : FillsBox (mirror s J.I bid).G lo' hi' side')
    (hs' : Suited (mirror s J.I bid) lo' hi' side') (hv : Valid J) (kr : Nat → Fin 3 → Curve K) (v : K) :
    ∃ T P w, (∀ b, single J b = some T) ∧ (∀ b, single (mirrorJob s J bid) b = some fun i j => s i * s j * T i j) ∧ (∀ b, phase J kr v b = some P) ∧
      (∀ b, phase (mirrorJob s J bid) kr v b = some fun i j => s i * s j * P i j) ∧ MeanSat J v w ∧
      swAt J.aniso J.C J.vols (poreVolume J.cells) v = some w := by
  obtain ⟨T, t1, t2⟩ := flow_mirror hs h hb' hs' (Visc.singlePerms J.O J.aniso J.cells) ((single_length ..).trans hv.cells) (single_positive hv)
  obtain ⟨P, p1, p2⟩ := flow_mirror hs h hb' hs' (gridPerms J.O J.aniso kr (rockSats J v) J.cells) ((grid_length ..).trans hv.cells) (grid_positive hv kr _)
  obtain ⟨w, e1, m1⟩ := sat_of hv v
  exact ⟨T, P, w, t1, t2, p1, p2, m1, e1⟩

/-- **C169**. In the viscous limit with fixed boundary conditions, the mirror image has the same relative permeabilities. -/
theorem C169_visc_fixed (hs : ∀ k, s k = 1 ∨ s k = -1) (h : Ready J lo hi side) (hb' : FillsBox (mirror s J.I bid).G lo' hi' side')
    (hs' : Suited (mirror s J.I bid) lo' hi' side') (hv : Valid J) (hb : J.I.bct = .fixed) (kr : Nat → Fin 3 → Curve K) (v : K) :
    ∃ w, ∃ k : Fin 3 → K, MeanSat J v w ∧ (∀ b b', point J kr v b b' = some (w, List.ofFn k)) ∧
      ∀ b b', point (mirrorJob s J bid) kr v b b' = some (w, List.ofFn k) := by
  obtain ⟨T, P, w, s1, s2, q1, q2, m, w1⟩ := C169_visc_tensors hs h hb' hs' hv kr v
  obtain ⟨T1, _, t1, _, t0, _, tp⟩ := flow2_fixed h _ _ ((single_length ..).trans hv.cells) (single_pos J.O J.aniso J.cells hv.minPerm) hb
  let b0 : Boundary.BCs K := ⟨⟨[], []⟩, [], []⟩
  obtain rfl : T1 = T := Option.some.inj ((t1 b0).symm.trans (s1 b0))
  have w2 : swAt (mirrorJob s J bid).aniso (mirrorJob s J bid).C (mirrorJob s J bid).vols (poreVolume (mirrorJob s J bid).cells) v = some w := w1
  refine ⟨w, fun d => P d d / T1 d d, m, fun b b' => ?_, fun b b' => ?_⟩
  · unfold point
    rw [s1, q1, w1, Option.bind_some, Option.bind_some, Option.bind_some, relPerm_eq,
      RelPermChain.relPerm_fixed (base_ready h) hb T1 P t0 fun d => (tp d).1]
    rfl
  · have er : relPerm (mirrorJob s J bid) T1 (fun i j => s i * s j * P i j) = relPerm J T1 fun i j => s i * s j * P i j := rfl
    unfold point
    rw [s2, q2, w2, Option.bind_some, Option.bind_some, Option.bind_some, diag_mirror hs t0, er, relPerm_eq,
      RelPermChain.relPerm_fixed (base_ready h) hb T1 _ t0 fun d => (tp d).1]
    simp only [sign_sq hs, one_mul]
    rfl

/-- **C169**. In the viscous limit with periodic boundary conditions, the mirror image has the mirror image of the relative permeability tensor. -/
theorem C169_visc_periodic (hs : ∀ k, s k = 1 ∨ s k = -1) (h : Ready J lo hi side) (hb' : FillsBox (mirror s J.I bid).G lo' hi' side')
    (hs' : Suited (mirror s J.I bid) lo' hi' side') (hv : Valid J) (hb : J.I.bct = .periodic) (kr : Nat → Fin 3 → Curve K) (v : K) :
    ∃ w, ∃ k k' : Fin 9 → K, MeanSat J v w ∧ (∀ b b', point J kr v b b' = some (w, List.ofFn k)) ∧
      (∀ b b', point (mirrorJob s J bid) kr v b b' = some (w, List.ofFn k')) ∧ ∀ i j, ofVoigt k' i j = s i * s j * ofVoigt k i j := by
  obtain ⟨T, P, w, s1, s2, q1, q2, m, w1⟩ := C169_visc_tensors hs h hb' hs' hv kr v
  obtain ⟨T1, _, t1, _, _, _, tp, _⟩ := flow2_periodic h _ _ ((single_length ..).trans hv.cells) (single_pos J.O J.aniso J.cells hv.minPerm) hb
  let b0 : Boundary.BCs K := ⟨⟨[], []⟩, [], []⟩
  obtain rfl : T1 = T := Option.some.inj ((t1 b0).symm.trans (s1 b0))
  have w2 : swAt (mirrorJob s J bid).aniso (mirrorJob s J bid).C (mirrorJob s J bid).vols (poreVolume (mirrorJob s J bid).cells) v = some w := w1
  have tp' := posdef_mirror hs tp
  obtain ⟨k, k1, k2⟩ := RelPermChain.relPerm_full (base_ready h) hb T1 P tp
  obtain ⟨k', k1', k2'⟩ := RelPermChain.relPerm_full (base_ready h) hb (fun i j => s i * s j * T1 i j) (fun i j => s i * s j * P i j) tp'
  refine ⟨w, k, k', m, fun b b' => ?_, fun b b' => ?_, fun i j => ?_⟩
  · unfold point
    rw [s1, q1, w1, Option.bind_some, Option.bind_some, Option.bind_some, relPerm_eq, k1]
    rfl
  · have er : relPerm (mirrorJob s J bid) (fun i j => s i * s j * T1 i j) (fun i j => s i * s j * P i j) =
      relPerm J (fun i j => s i * s j * T1 i j) fun i j => s i * s j * P i j := rfl
    unfold point
    rw [s2, q2, w2, Option.bind_some, Option.bind_some, Option.bind_some, er, relPerm_eq, k1']
    rfl
  · have e : (Matrix.of fun i j => s i * s j * ofVoigt k i j) * (Matrix.of fun i j => s i * s j * T1 i j) = Matrix.of fun i j => s i * s j * P i j := by
      ext i j
      have e1 := congrFun (congrFun k2 i) j
      rw [Matrix.mul_apply] at e1 ⊢
      simp only [Matrix.of_apply] at e1 ⊢
      rw [← e1, Finset.mul_sum]
      refine Finset.sum_congr rfl fun l _ => ?_
      linear_combination s i * s j * ofVoigt k i l * T1 l j * sign_sq hs l
    exact congrFun (congrFun ((RelPermChain.unit_posdef _ tp').mul_right_cancel (k2'.trans e.symm)) i) j

end

/-! ### The hypotheses are met -/

/-- The cells of C159 with the cell data of `exJob`, anisotropic. -/
noncomputable def symJob (bct : Upscale.BCType) : Job ℚ := { exJob bct true ![3, 2, 1] ![6, 5, 4] with I := symInput bct }

theorem symJob_ready (bct : Upscale.BCType) : Ready (symJob bct) exLo exHi exSide :=
  have h := RelPermChain.symJob_ready bct
  ⟨h.tiling, h.box, h.suited, h.basis, h.sort, h.solver, h.gravity, h.invert⟩

theorem symJob_valid (bct : Upscale.BCType) : Valid (symJob bct) :=
  have h := ex_valid bct true ![3, 2, 1] ![6, 5, 4] (fun d => by fin_cases d <;> norm_num) (fun d => by fin_cases d <;> norm_num)
  { h with cells := rfl }

example (kr : Nat → Fin 3 → Curve ℚ) (v : ℚ) : ∃ w, ∃ k : Fin 3 → ℚ, (∀ b b', point (symJob .fixed) kr v b b' = some (w, List.ofFn k)) ∧
    ∀ b b', point (mirrorJob symSign (symJob .fixed) (symBid false)) kr v b b' = some (w, List.ofFn k) := by
  obtain ⟨w, k, -, h⟩ := C169_visc_fixed symSign_sign (symJob_ready .fixed) (symMir_box _) (symMir_suited .fixed) (symJob_valid .fixed) rfl kr v
  exact ⟨w, k, h⟩

example (kr : Nat → Fin 3 → Curve ℚ) (v : ℚ) : ∃ w, ∃ k k' : Fin 9 → ℚ, (∀ b b', point (symJob .periodic) kr v b b' = some (w, List.ofFn k)) ∧
    (∀ b b', point (mirrorJob symSign (symJob .periodic) (symBid true)) kr v b b' = some (w, List.ofFn k')) ∧
    ∀ i j, ofVoigt k' i j = symSign i * symSign j * ofVoigt k i j := by
  obtain ⟨w, k, k', -, h⟩ := C169_visc_periodic symSign_sign (symJob_ready .periodic) (symMir_box _) (symMir_suited .periodic) (symJob_valid .periodic) rfl kr v
  exact ⟨w, k, k', h⟩

end Verif.ViscChain

namespace Verif.ResistChain

open Verif.Dense Verif.Control Verif.SinglePhase Verif.Resist Verif.Resist.Spec Verif.Upscale

open Verif.RelPermChain (ofVoigt)

variable {K : Type} [Field K] [LinearOrder K] [IsStrictOrderedRing K]

section
variable {J : Job K} {lo hi lo' hi' : Fin 3 → K} {side side' : Boundary.Face K → Nat} {s : Fin 3 → K} {bid : Half J.I.G → Nat}

theorem valid_mirror (hv : Valid J) : Valid (mirrorJob s J bid) := ⟨hv.options, hv.cells, hv.checked, hv.rock⟩

/-- **C169**. With fixed boundary conditions, the mirror image of a sample has the same saturation and resistivity at every capillary pressure. -/
theorem C169_resist_fixed (hs : ∀ k, s k = 1 ∨ s k = -1) (h : Ready J lo hi side) (hb' : FillsBox (mirror s J.I bid).G lo' hi' side')
    (hs' : Suited (mirror s J.I bid) lo' hi' side') (hv : Valid J) (hb : J.I.bct = .fixed) (p : K) :
    ∃ w, ∃ k : Fin 3 → K, MeanSat J p w ∧ (∀ b, point J p b = some (w, List.ofFn k)) ∧ ∀ b, point (mirrorJob s J bid) p b = some (w, List.ofFn k) := by
  obtain ⟨R, w, -, l1, h3, m, v, c1, c2⟩ := cells_at hv p
  have r1 : ∀ x ∈ R, 0 < x := fun x hx => (h3 x hx).1
  have hl : ((R.map (1 / ·)).map fun k (_ : Fin 3) => k).length = J.I.G.nc := by rw [List.length_map, List.length_map]; exact l1
  obtain ⟨T, t1, t2⟩ := ViscChain.flow_mirror (J := visc J) hs (visc_ready h) hb' hs' ((R.map (1 / ·)).map fun k _ => k) hl (conds_pos R r1)
  obtain ⟨T1, k, a1, -, a3, -⟩ := run_fixed h hb R l1 r1
  obtain ⟨T2, b1, b2, -⟩ := C90_single_phase (sound h R l1 r1) h.tiling h.box h.suited hb _ (inv_diag R l1 r1)
  let b0 : Boundary.BCs K := ⟨⟨[], []⟩, [], []⟩
  obtain rfl : T1 = T := Option.some.inj ((a1 b0).symm.trans (t1 b0))
  obtain rfl : T2 = T1 := Option.some.inj ((b1 b0).symm.trans (t1 b0))
  rw [ViscChain.diag_mirror hs b2] at t2
  exact ⟨w, k, m, fun b => (point_of hv c1 c2 (a1 b) a3).trans rfl, fun b => (point_of (valid_mirror hv) c1 c2 (t2 b) a3).trans rfl⟩

/-- **C169**. With periodic boundary conditions, the mirror image has the same saturation and the mirror image of the tensor of resistivity: entries that
couple a mirrored direction with one that is not mirrored change sign. -/
theorem C169_resist_periodic (hs : ∀ k, s k = 1 ∨ s k = -1) (h : Ready J lo hi side) (hb' : FillsBox (mirror s J.I bid).G lo' hi' side')
    (hs' : Suited (mirror s J.I bid) lo' hi' side') (hv : Valid J) (hb : J.I.bct = .periodic) (p : K) :
    ∃ w, ∃ k k' : Fin 9 → K, MeanSat J p w ∧ (∀ b, point J p b = some (w, List.ofFn k)) ∧ (∀ b, point (mirrorJob s J bid) p b = some (w, List.ofFn k')) ∧
      ∀ i j, ofVoigt k' i j = s i * s j * ofVoigt k i j := by
  obtain ⟨R, w, -, l1, h3, m, v, c1, c2⟩ := cells_at hv p
  have r1 : ∀ x ∈ R, 0 < x := fun x hx => (h3 x hx).1
  have hl : ((R.map (1 / ·)).map fun k (_ : Fin 3) => k).length = J.I.G.nc := by rw [List.length_map, List.length_map]; exact l1
  obtain ⟨T, t1, t2⟩ := ViscChain.flow_mirror (J := visc J) hs (visc_ready h) hb' hs' ((R.map (1 / ·)).map fun k _ => k) hl (conds_pos R r1)
  obtain ⟨T1, k, a1, -, tp, a4, a5, -⟩ := run_periodic h hb R l1 r1
  let b0 : Boundary.BCs K := ⟨⟨[], []⟩, [], []⟩
  obtain rfl : T1 = T := Option.some.inj ((a1 b0).symm.trans (t1 b0))
  have tp' := ViscChain.posdef_mirror hs tp
  obtain ⟨S, hS, -, e9⟩ := entries h _ tp'
  obtain ⟨m1, -⟩ := mul_inverse _ S tp' hS
  have e9' : ((List.range (elements (mirrorJob s J bid).I.bct)).mapM fun (v : Nat) =>
      getVoigtValue ((mirrorJob s J bid).invert (RelPermChain.tensor fun i j => s i * s j * T1 i j)) (v : Int)) =
      some (List.ofFn ![S 0 0, S 1 1, S 2 2, S 1 2, S 0 2, S 0 1, S 2 1, S 2 0, S 1 0]) := by
    have : (mirrorJob s J bid).I.bct = .periodic := hb
    rw [this]
    exact e9.trans rfl
  refine ⟨w, k, ![S 0 0, S 1 1, S 2 2, S 1 2, S 0 2, S 0 1, S 2 1, S 2 0, S 1 0], m, fun b => point_of hv c1 c2 (a1 b) a5,
    fun b => point_of (valid_mirror hv) c1 c2 (t2 b) e9', fun i j => ?_⟩
  have hSv : ofVoigt ![S 0 0, S 1 1, S 2 2, S 1 2, S 0 2, S 0 1, S 2 1, S 2 0, S 1 0] i j = S i j := by
    fin_cases i <;> fin_cases j <;> rfl
  rw [hSv]
  have x1 : (Matrix.of fun i j => s i * s j * T1 i j) * Matrix.of S = 1 := by
    ext i j
    rw [Matrix.mul_apply, Matrix.one_apply]
    exact m1 i j
  have x2 : (Matrix.of fun i j => s i * s j * T1 i j) * (Matrix.of fun i j => s i * s j * ofVoigt k i j) = 1 := by
    ext i j
    rw [Matrix.mul_apply, Matrix.one_apply]
    simp only [Matrix.of_apply]
    have e1 : ∑ l, s i * s l * T1 i l * (s l * s j * ofVoigt k l j) = s i * s j * ∑ l, T1 i l * ofVoigt k l j := by
      rw [Finset.mul_sum]
      refine Finset.sum_congr rfl fun l _ => ?_
      linear_combination s i * s j * T1 i l * ofVoigt k l j * sign_sq hs l
    rw [e1, a4]
    by_cases hij : i = j
    · subst hij
      rw [if_pos rfl, mul_one, sign_sq hs]
    · rw [if_neg hij, mul_zero]
  exact congrFun (congrFun ((RelPermChain.unit_posdef _ tp').mul_left_cancel (x1.trans x2.symm)) i) j

end

/-! ### The hypotheses are met -/

/-- The cells of C159 with the cell data of `exJob`. -/
noncomputable def symJob (bct : BCType) : Job ℚ := { exJob bct (1 / 10) with I := symInput bct }

theorem symJob_ready (bct : BCType) : Ready (symJob bct) exLo exHi exSide :=
  have h := RelPermChain.symJob_ready bct
  { tiling := h.tiling, box := h.box, suited := h.suited, basis := h.basis, sort := h.sort, solver := h.solver, gravity := h.gravity
    invert := fun A M h1 _ => exInvert_ok A M h1 }

theorem symJob_valid (bct : BCType) : Valid (symJob bct) :=
  have h := ex_valid bct (poro := 1 / 10) (by norm_num)
  { h with cells := rfl }

example (p : ℚ) : ∃ w, ∃ k : Fin 3 → ℚ, (∀ b, point (symJob .fixed) p b = some (w, List.ofFn k)) ∧
    ∀ b, point (mirrorJob symSign (symJob .fixed) (symBid false)) p b = some (w, List.ofFn k) := by
  obtain ⟨w, k, -, h⟩ := C169_resist_fixed symSign_sign (symJob_ready .fixed) (symMir_box _) (symMir_suited .fixed) (symJob_valid .fixed) rfl p
  exact ⟨w, k, h⟩

example (p : ℚ) : ∃ w, ∃ k k' : Fin 9 → ℚ, (∀ b, point (symJob .periodic) p b = some (w, List.ofFn k)) ∧
    (∀ b, point (mirrorJob symSign (symJob .periodic) (symBid true)) p b = some (w, List.ofFn k')) ∧
    ∀ i j, ofVoigt k' i j = symSign i * symSign j * ofVoigt k i j := by
  obtain ⟨w, k, k', -, h⟩ := C169_resist_periodic symSign_sign (symJob_ready .periodic) (symMir_box _) (symMir_suited .periodic) (symJob_valid .periodic) rfl p
  exact ⟨w, k, k', h⟩

end Verif.ResistChain
