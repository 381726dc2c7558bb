import Verif.Spec.RelPermMirror
import Verif.Props.RelPermRelabel
import Verif.Props.Mirror

/-!
C166: the mirror image of a sample has the mirror image of the relative permeabilities.
-/

namespace Verif.RelPermChain

open Verif.Dense Verif.Control Verif.RelPerm Verif.SinglePhase

variable {K : Type} [Field K] [LinearOrder K] [IsStrictOrderedRing K]

section
variable {J : Job K} {lo hi t lo' hi' : Fin 3 → K} {side side' : Boundary.Face K → Nat} {s : Fin 3 → K} {bid : Half J.I.G → Nat}

/-- Setting isotropic permeabilities of the mirror image is taking the mirror image of the sample with these permeabilities. -/
theorem setPerms_mirror (h : ∀ k, s k = 1 ∨ s k = -1) (I : Input K) (bid : Half I.G → Nat) (l : List Nat) (k : Nat → K) (hl : l.length = I.G.nc) :
    setPerms (mirror s I bid) (l.map fun c (_ : Fin 3) => k c) = mirror s (setPerms I (l.map fun c (_ : Fin 3) => k c)) bid := by
  have e : (setPerms (mirror s I bid) (l.map fun c (_ : Fin 3) => k c)).perm = (mirror s (setPerms I (l.map fun c (_ : Fin 3) => k c)) bid).perm := by
    funext c i j
    refine (congrFun (congrFun (setPerms_perm (mirror s I bid) l (fun c _ => k c) hl c).2 i) j).trans
      (Eq.trans ?_ (congrArg (s i * s j * ·) (congrFun (congrFun (setPerms_perm I l (fun c _ => k c) hl c).2 i) j)).symm)
    beta_reduce
    by_cases hij : i = j
    · subst hij
      rw [if_pos rfl, sign_sq h, one_mul]
    · rw [if_neg hij, mul_zero]
  exact congrArg (fun q => ({ mirror s I bid with perm := q } : Input K)) e

theorem flow_mirror (hs : ∀ k, s k = 1 ∨ s k = -1) (h : Ready J lo hi side) (hb' : FillsBox (mirror s J.I bid).G lo' hi' side')
    (hs' : Suited (mirror s J.I bid) lo' hi' side') (hv : Valid J) (k : Nat → K) (hk : ∀ c ∈ J.S.globalCell, 0 < k c) :
    ∃ T, (∀ b, upscaleSinglePhase (setPerms J.I (J.S.globalCell.map fun c (_ : Fin 3) => k c)) b = some T) ∧
      ∀ b, upscaleSinglePhase (setPerms (mirror s J.I bid) (J.S.globalCell.map fun c (_ : Fin 3) => k c)) b = some fun i j => s i * s j * T i j := by
  rw [setPerms_mirror hs J.I bid J.S.globalCell k hv.cells]
  exact C159_single_phase hs (ready_sound h J.S.globalCell (fun c _ => k c) hv.cells fun c hc _ => hk c hc) h.tiling h.box h.suited hb' hs'

/-- **C166**. The mirror image of a sample has the same upscaled saturation at every capillary pressure, and the mirror images of the single-phase and phase
permeabilities: entries that couple a mirrored direction with one that is not mirrored change sign. -/
theorem C166_tensors (hs : ∀ k, s k = 1 ∨ s k = -1) (h : Ready J lo hi side) (hb' : FillsBox (mirror s J.I bid).G lo' hi' side')
    (hs' : Suited (mirror s J.I bid) lo' hi' side') (hv : Valid J) (ha : J.S.aniso = false) (kr : Fin 3 → Nat → K → K) (p : K) :
    ∃ T P w, (∀ b, single J b = some T) ∧ (∀ b, single (mirrorJob s J bid) b = some fun i j => s i * s j * T i j) ∧ (∀ b, phase J kr p b = some P) ∧
      (∀ b, phase (mirrorJob s J bid) kr p b = some fun i j => s i * s j * P i j) ∧ upscaledSw J.S p = some w ∧
      upscaledSw (mirrorJob s J bid).S p = some w := by
  obtain ⟨hd, hsat⟩ := heads_of hv
  obtain ⟨w, hw⟩ := C68_defined J.S p hv.heads hv.volume
  obtain ⟨T, t1, t2⟩ := flow_mirror hs h hb' hs' hv (singleK J.S J.contrast J.minPerm) (fun c _ => singleK_pos _ _ _ hv.minPerm c)
  obtain ⟨P, p1, p2⟩ := flow_mirror hs h hb' hs' hv (cellK J.S (kr 0) J.contrast J.minPerm (sats J.S hd p)) (fun c _ => cellK_pos _ _ _ _ _ hv.minPerm c)
  exact ⟨T, P, w, fun b => (single_eq ha b).trans (t1 b), fun b => (single_eq (J := mirrorJob s J bid) ha b).trans (t2 b),
    fun b => (phase_eq ha kr p _ (hsat p) b).trans (p1 b), fun b => (phase_eq (J := mirrorJob s J bid) ha kr p _ (hsat p) b).trans (p2 b), hw, hw⟩

/-- **C166**. With fixed boundary conditions, the mirror image has the same relative permeabilities. -/
theorem C166_fixed (hs : ∀ k, s k = 1 ∨ s k = -1) (h : Ready J lo hi side) (hb' : FillsBox (mirror s J.I bid).G lo' hi' side')
    (hs' : Suited (mirror s J.I bid) lo' hi' side') (hv : Valid J) (hb : J.I.bct = .fixed) (ha : J.S.aniso = false) (kr : Fin 3 → Nat → K → K) (p : K) :
    ∃ w, ∃ k : Fin 3 → K, (∀ b b', point J kr p b b' = some (w, List.ofFn k)) ∧
      ∀ b b', point (mirrorJob s J bid) kr p b b' = some (w, List.ofFn k) := by
  obtain ⟨T, P, w, s1, s2, q1, q2, w1, w2⟩ := C166_tensors hs h hb' hs' hv ha kr p
  obtain ⟨T1, _, t1, _, t0, _, tp⟩ := flow_fixed h J.S.globalCell (fun c _ => singleK J.S J.contrast J.minPerm c) (fun c _ => singleK J.S J.contrast J.minPerm c)
    hv.cells (fun c _ _ => singleK_pos _ _ _ hv.minPerm c) (fun _ _ _ => le_refl _) hb
  let b0 : Boundary.BCs K := ⟨⟨[], []⟩, [], []⟩
  obtain rfl : T1 = T := Option.some.inj (((t1 b0).symm.trans (single_eq ha b0).symm).trans (s1 b0))
  have eT : (fun i j => s i * s j * T1 i j) = T1 := by
    funext i j
    by_cases hij : i = j
    · subst hij
      rw [sign_sq hs, one_mul]
    · rw [t0 i j hij, mul_zero]
  refine ⟨w, fun d => P d d / T1 d d, fun b b' => ?_, fun b b' => ?_⟩
  · unfold point
    rw [s1, q1, w1, Option.bind_some, Option.bind_some, Option.bind_some, relPerm_fixed h hb T1 P t0 fun d => (tp d).1]
    rfl
  · have er : relPerm (mirrorJob s J bid) T1 (fun i j => s i * s j * P i j) = relPerm J T1 fun i j => s i * s j * P i j := rfl
    unfold point
    rw [s2, q2, w2, Option.bind_some, Option.bind_some, Option.bind_some, eT, er, relPerm_fixed h hb T1 _ t0 fun d => (tp d).1]
    simp only [sign_sq hs, one_mul]
    rfl

/-- **C166**. With periodic boundary conditions, the mirror image has the mirror image of the relative permeability tensor. -/
theorem C166_periodic (hs : ∀ k, s k = 1 ∨ s k = -1) (h : Ready J lo hi side) (hb' : FillsBox (mirror s J.I bid).G lo' hi' side')
    (hs' : Suited (mirror s J.I bid) lo' hi' side') (hv : Valid J) (hb : J.I.bct = .periodic) (ha : J.S.aniso = false) (kr : Fin 3 → Nat → K → K) (p : K) :
    ∃ w, ∃ k k' : Fin 9 → K, (∀ b b', point J kr p b b' = some (w, List.ofFn k)) ∧
      (∀ b b', point (mirrorJob s J bid) kr p b b' = some (w, List.ofFn k')) ∧ ∀ i j, ofVoigt k' i j = s i * s j * ofVoigt k i j := by
  obtain ⟨T, P, w, s1, s2, q1, q2, w1, w2⟩ := C166_tensors hs h hb' hs' hv ha kr p
  obtain ⟨T1, _, t1, _, _, _, tp, _⟩ := flow_periodic h J.S.globalCell (fun c _ => singleK J.S J.contrast J.minPerm c)
    (fun c _ => singleK J.S J.contrast J.minPerm c) hv.cells (fun c _ _ => singleK_pos _ _ _ hv.minPerm c) (fun _ _ _ => le_refl _) hb
  let b0 : Boundary.BCs K := ⟨⟨[], []⟩, [], []⟩
  obtain rfl : T1 = T := Option.some.inj (((t1 b0).symm.trans (single_eq ha b0).symm).trans (s1 b0))
  have tp' : Mimetic.PosDef fun i j => s i * s j * T1 i j := by
    intro x hx
    have e : Mimetic.quadForm (fun i j => s i * s j * T1 i j) x = Mimetic.quadForm T1 fun i => s i * x i := by
      unfold Mimetic.quadForm
      refine Finset.sum_congr rfl fun i _ => Finset.sum_congr rfl fun j _ => ?_
      ring
    rw [e]
    obtain ⟨i, hi⟩ := hx
    refine tp _ ⟨i, mul_ne_zero ?_ hi⟩
    rcases hs i with e | e <;> rw [e]
    · exact one_ne_zero
    · exact neg_ne_zero.mpr one_ne_zero
  obtain ⟨k, k1, k2⟩ := relPerm_full h hb T1 P tp
  obtain ⟨k', k1', k2'⟩ := relPerm_full h hb (fun i j => s i * s j * T1 i j) (fun i j => s i * s j * P i j) tp'
  refine ⟨w, k, k', fun b b' => ?_, fun b b' => ?_, fun i j => ?_⟩
  · unfold point
    rw [s1, q1, w1, Option.bind_some, Option.bind_some, Option.bind_some, k1]
    rfl
  · have er : relPerm (mirrorJob s J bid) (fun i j => s i * s j * T1 i j) (fun i j => s i * s j * P i j) =
      relPerm J (fun i j => s i * s j * T1 i j) fun i j => s i * s j * P i j := rfl
    unfold point
    rw [s2, q2, w2, Option.bind_some, Option.bind_some, Option.bind_some, er, k1']
    rfl
  · have e : (Matrix.of fun i j => s i * s j * ofVoigt k i j) * (Matrix.of fun i j => s i * s j * T1 i j) = Matrix.of fun i j => s i * s j * P i j := by
      ext i j
      have e1 := congrFun (congrFun k2 i) j
      rw [Matrix.mul_apply] at e1 ⊢
      simp only [Matrix.of_apply] at e1 ⊢
      rw [← e1, Finset.mul_sum]
      refine Finset.sum_congr rfl fun l _ => ?_
      linear_combination s i * s j * ofVoigt k i l * T1 l j * sign_sq hs l
    exact congrFun (congrFun ((unit_posdef _ tp').mul_right_cancel (k2'.trans e.symm)) i) j

end

/-! ### The hypotheses are met -/

/-- The cells of C159 with the rock data of `exJob`. -/
noncomputable def symJob (bct : Upscale.BCType) : Job ℚ := { exJob bct false (fun c => c + 1) (fun _ => 0) with I := symInput bct }

theorem symJob_ready (bct : Upscale.BCType) : Ready (symJob bct) exLo exHi exSide where
  tiling := sym_tiling _
  box := sym_box _
  suited := sym_suited bct
  basis := (sym_sound bct).basis
  sort := (sym_sound bct).sort
  solver := (sym_sound bct).solver
  gravity := rfl
  invert A M h _ := exInvert_ok A M h

theorem symJob_valid (bct : Upscale.BCType) : Valid (symJob bct) where
  cells := rfl
  heads := (ex_valid bct false (fun c => c + 1) (fun _ => 0) fun c => by positivity).heads
  volume := (ex_valid bct false (fun c => c + 1) (fun _ => 0) fun c => by positivity).volume
  perm := (ex_valid bct false (fun c => c + 1) (fun _ => 0) fun c => by positivity).perm
  minPerm := (ex_valid bct false (fun c => c + 1) (fun _ => 0) fun c => by positivity).minPerm
  contrast := (ex_valid bct false (fun c => c + 1) (fun _ => 0) fun c => by positivity).contrast

example (p : ℚ) : ∃ w, ∃ k : Fin 3 → ℚ, (∀ b b', point (symJob .fixed) exKr p b b' = some (w, List.ofFn k)) ∧
    ∀ b b', point (mirrorJob symSign (symJob .fixed) (symBid false)) exKr p b b' = some (w, List.ofFn k) :=
  C166_fixed symSign_sign (symJob_ready .fixed) (symMir_box _) (symMir_suited .fixed) (symJob_valid .fixed) rfl rfl exKr p

example (p : ℚ) : ∃ w, ∃ k k' : Fin 9 → ℚ, (∀ b b', point (symJob .periodic) exKr p b b' = some (w, List.ofFn k)) ∧
    (∀ b b', point (mirrorJob symSign (symJob .periodic) (symBid true)) exKr p b b' = some (w, List.ofFn k')) ∧
    ∀ i j, ofVoigt k' i j = symSign i * symSign j * ofVoigt k i j :=
  C166_periodic symSign_sign (symJob_ready .periodic) (symMir_box _) (symMir_suited .periodic) (symJob_valid .periodic) rfl rfl exKr p

end Verif.RelPermChain
