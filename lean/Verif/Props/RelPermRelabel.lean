import Verif.Props.RelPermCopies
import Verif.Props.Relabel

/-!
C165: numbering, unit of length, origin and names of the axes do not change upscaled relative permeabilities.
-/

namespace Verif.RelPermChain

open Verif.Dense Verif.Control Verif.RelPerm Verif.SinglePhase

variable {K : Type} [Field K] [LinearOrder K] [IsStrictOrderedRing K]

section
variable {J J' : Job K} {lo hi t lo' hi' : Fin 3 → K} {side side' : Boundary.Face K → Nat} {a : K} {π : Equiv.Perm (Fin 3)} {σ : Fin J.I.G.nc ≃ Fin J'.I.G.nc}
  {τ : (c : Fin J.I.G.nc) → Fin (J.I.G.cell c).nf ≃ Fin (J'.I.G.cell (σ c)).nf} {v : K}

/-- Permeabilities that are the same for the two numbers of a cell. -/
theorem flow_relabel (g : SameGrid J.I.G J'.I.G a t π σ τ) (hc : J'.I.bct = J.I.bct) (h : Ready J lo hi side) (h' : Ready J' lo' hi' side')
    (hv : Valid J) (hv' : Valid J') (k k' : Nat → K) (hk : ∀ c ∈ J.S.globalCell, 0 < k c) (hk' : ∀ c ∈ J'.S.globalCell, 0 < k' c)
    (e : ∀ c, k' (deckCell J' c) = k (deckCell J (σ.symm c))) :
    ∃ T T', (∀ b, upscaleSinglePhase (setPerms J.I (J.S.globalCell.map fun c (_ : Fin 3) => k c)) b = some T) ∧
      (∀ b, upscaleSinglePhase (setPerms J'.I (J'.S.globalCell.map fun c (_ : Fin 3) => k' c)) b = some T') ∧ ∀ i j, T' (π i) (π j) = T i j :=
  C158_single_phase (I := setPerms J.I (J.S.globalCell.map fun c (_ : Fin 3) => k c)) (I' := setPerms J'.I (J'.S.globalCell.map fun c (_ : Fin 3) => k' c))
    (a := a) (t := t) (π := π) (σ := σ) (τ := τ)
    ⟨g, fun c i j => by
      refine (cond_iso J'.I J'.S.globalCell k' hv'.cells (σ c) (π i) (π j)).trans (Eq.trans ?_ (cond_iso J.I J.S.globalCell k hv.cells c i j).symm)
      exact if_congr π.injective.eq_iff ((e (σ c)).trans (congrArg (fun y => k (deckCell J y)) (σ.symm_apply_apply c))) rfl, hc⟩
    (ready_sound h J.S.globalCell (fun c _ => k c) hv.cells fun c hc _ => hk c hc)
    (ready_sound h' J'.S.globalCell (fun c _ => k' c) hv'.cells fun c hc _ => hk' c hc) h.tiling h'.tiling h.box h'.box h.suited h'.suited

/-- **C165**. Two descriptions of the same sample, with other numbers of cells and faces, unit of length, origin and names of the axes, have the same upscaled
saturation at every capillary pressure, and the same single-phase and phase permeability, up to the names of the axes. -/
theorem C165_tensors (g : SameGrid J.I.G J'.I.G a t π σ τ) (hc : J'.I.bct = J.I.bct) (r : CopiedRock J J' σ.symm v) (h : Ready J lo hi side)
    (h' : Ready J' lo' hi' side') (hv : Valid J) (hv' : Valid J') (ha : J.S.aniso = false) (ha' : J'.S.aniso = false) (kr : Fin 3 → Nat → K → K) (p : K) :
    ∃ T T' P P' w, (∀ b, single J b = some T) ∧ (∀ b, single J' b = some T') ∧ (∀ b, phase J kr p b = some P) ∧ (∀ b, phase J' kr p b = some P') ∧
      upscaledSw J.S p = some w ∧ upscaledSw J'.S p = some w ∧ (∀ i j, T' (π i) (π j) = T i j) ∧ ∀ i j, P' (π i) (π j) = P i j := by
  obtain ⟨hd, hsat⟩ := heads_of hv
  obtain ⟨hd', hsat'⟩ := heads_of hv'
  obtain ⟨k1, k2, w, hw, hw'⟩ := copied_rock r hv hv' ha ha' σ.symm.surjective 1 (fun f => by rw [one_mul, Equiv.sum_comp]) kr p _ _ (hsat p) (hsat' p)
  obtain ⟨T, T', t1, t2, t3⟩ := flow_relabel g hc h h' hv hv' (singleK J.S J.contrast J.minPerm) (singleK J'.S J'.contrast J'.minPerm)
    (fun c _ => singleK_pos _ _ _ hv.minPerm c) (fun c _ => singleK_pos _ _ _ hv'.minPerm c) k1
  obtain ⟨P, P', p1, p2, p3⟩ := flow_relabel g hc h h' hv hv' (cellK J.S (kr 0) J.contrast J.minPerm (sats J.S hd p))
    (cellK J'.S (kr 0) J'.contrast J'.minPerm (sats J'.S hd' p))
    (fun c _ => cellK_pos _ _ _ _ _ hv.minPerm c) (fun c _ => cellK_pos _ _ _ _ _ hv'.minPerm c) k2
  exact ⟨T, T', P, P', w, fun b => (single_eq ha b).trans (t1 b), fun b => (single_eq ha' b).trans (t2 b),
    fun b => (phase_eq ha kr p _ (hsat p) b).trans (p1 b), fun b => (phase_eq ha' kr p _ (hsat' p) b).trans (p2 b), hw, hw', t3, p3⟩

/-- **C165**. With fixed boundary conditions, the relative permeability reported for a direction is the same under its old and its new name. -/
theorem C165_fixed (g : SameGrid J.I.G J'.I.G a t π σ τ) (hb : J.I.bct = .fixed) (hb' : J'.I.bct = .fixed) (r : CopiedRock J J' σ.symm v)
    (h : Ready J lo hi side) (h' : Ready J' lo' hi' side') (hv : Valid J) (hv' : Valid J') (ha : J.S.aniso = false) (ha' : J'.S.aniso = false)
    (kr : Fin 3 → Nat → K → K) (p : K) :
    ∃ w, ∃ k k' : Fin 3 → K, (∀ b b', point J kr p b b' = some (w, List.ofFn k)) ∧ (∀ b b', point J' kr p b b' = some (w, List.ofFn k')) ∧
      ∀ d, k' (π d) = k d := by
  obtain ⟨T, T', P, P', w, s1, s2, q1, q2, w1, w2, eT, eP⟩ := C165_tensors g (hb'.trans hb.symm) r h h' hv hv' ha ha' kr p
  have key : ∀ {J : Job K} {lo hi : Fin 3 → K} {side : Boundary.Face K → Nat} {T P : Fin 3 → Fin 3 → K}, Ready J lo hi side → Valid J → J.I.bct = .fixed →
      J.S.aniso = false → (∀ b, single J b = some T) → (∀ b, phase J kr p b = some P) → upscaledSw J.S p = some w →
      ∀ b b', point J kr p b b' = some (w, List.ofFn fun d => P d d / T d d) := by
    intro J lo hi side T P h hv hb ha s q hw b b'
    obtain ⟨T1, _, t1, _, t0, _, tp⟩ := flow_fixed h J.S.globalCell (fun c _ => singleK J.S J.contrast J.minPerm c) (fun c _ => singleK J.S J.contrast J.minPerm c)
      hv.cells (fun c _ _ => singleK_pos _ _ _ hv.minPerm c) (fun _ _ _ => le_refl _) hb
    obtain rfl : T1 = T := Option.some.inj (((t1 b).symm.trans (single_eq ha b).symm).trans (s b))
    unfold point
    rw [s, q, hw, Option.bind_some, Option.bind_some, Option.bind_some, relPerm_fixed h hb T1 P t0 fun d => (tp d).1]
    rfl
  exact ⟨w, _, _, key h hv hb ha s1 q1 w1, key h' hv' hb' ha' s2 q2 w2, fun d => by rw [eT, eP]⟩

/-- **C165**. With periodic boundary conditions, the reported relative permeability tensor is the same, up to the names of the axes. -/
theorem C165_periodic (g : SameGrid J.I.G J'.I.G a t π σ τ) (hb : J.I.bct = .periodic) (hb' : J'.I.bct = .periodic) (r : CopiedRock J J' σ.symm v)
    (h : Ready J lo hi side) (h' : Ready J' lo' hi' side') (hv : Valid J) (hv' : Valid J') (ha : J.S.aniso = false) (ha' : J'.S.aniso = false)
    (kr : Fin 3 → Nat → K → K) (p : K) :
    ∃ w, ∃ k k' : Fin 9 → K, (∀ b b', point J kr p b b' = some (w, List.ofFn k)) ∧ (∀ b b', point J' kr p b b' = some (w, List.ofFn k')) ∧
      ∀ i j, ofVoigt k' (π i) (π j) = ofVoigt k i j := by
  obtain ⟨T, T', P, P', w, s1, s2, q1, q2, w1, w2, eT, eP⟩ := C165_tensors g (hb'.trans hb.symm) r h h' hv hv' ha ha' kr p
  have key : ∀ {J : Job K} {lo hi : Fin 3 → K} {side : Boundary.Face K → Nat} {T P : Fin 3 → Fin 3 → K}, Ready J lo hi side → Valid J → J.I.bct = .periodic →
      J.S.aniso = false → (∀ b, single J b = some T) → (∀ b, phase J kr p b = some P) → upscaledSw J.S p = some w →
      IsUnit (Matrix.of T) ∧ ∃ k : Fin 9 → K, (∀ b b', point J kr p b b' = some (w, List.ofFn k)) ∧ ofVoigt k * Matrix.of T = Matrix.of P := by
    intro J lo hi side T P h hv hb ha s q hw
    obtain ⟨T1, _, t1, _, _, _, tp, _⟩ := flow_periodic h J.S.globalCell (fun c _ => singleK J.S J.contrast J.minPerm c)
      (fun c _ => singleK J.S J.contrast J.minPerm c) hv.cells (fun c _ _ => singleK_pos _ _ _ hv.minPerm c) (fun _ _ _ => le_refl _) hb
    let b0 : Boundary.BCs K := ⟨⟨[], []⟩, [], []⟩
    obtain rfl : T1 = T := Option.some.inj (((t1 b0).symm.trans (single_eq ha b0).symm).trans (s b0))
    obtain ⟨k, k1, k2⟩ := relPerm_full h hb T1 P tp
    refine ⟨unit_posdef T1 tp, k, fun b b' => ?_, k2⟩
    unfold point
    rw [s, q, hw, Option.bind_some, Option.bind_some, Option.bind_some, k1]
    rfl
  obtain ⟨u, k, k1, k2⟩ := key h hv hb ha s1 q1 w1
  obtain ⟨-, k', k1', k2'⟩ := key h' hv' hb' ha' s2 q2 w2
  refine ⟨w, k, k', k1, k1', fun i j => ?_⟩
  have e : (ofVoigt k').submatrix π π * Matrix.of T = Matrix.of P := by
    have e1 : Matrix.of T = (Matrix.of T').submatrix π π := by
      ext i j
      exact (eT i j).symm
    have e2 : Matrix.of P = (Matrix.of P').submatrix π π := by
      ext i j
      exact (eP i j).symm
    rw [e1, e2, ← k2', Matrix.submatrix_mul_equiv]
  exact congrFun (congrFun (u.mul_right_cancel (e.trans k2.symm)) i) j

end

/-! ### The hypotheses are met -/

/-- The sample of `exJob` with other numbers, unit of length, origin and names of the axes. -/
noncomputable def otherJob (bct : Upscale.BCType) : Job ℚ :=
  { exJob bct false (fun c => if c = 0 then 2 else 1) (fun _ => 0) with
    S := { (exJob bct false (fun c => if c = 0 then 2 else 1) (fun _ => 0)).S with volume := fun _ => 2744 }
    I := ex2Input bct }

theorem other_ready (bct : Upscale.BCType) : Ready (otherJob bct) ex2Lo ex2Hi ex2Side where
  tiling := ex2_tiling _
  box := ex2_box _
  suited := ex2_suited bct
  basis := (ex2_sound bct).basis
  sort := (ex2_sound bct).sort
  solver := (ex2_sound bct).solver
  gravity := rfl
  invert A M h _ := exInvert_ok A M h

theorem other_valid (bct : Upscale.BCType) : Valid (otherJob bct) where
  cells := rfl
  heads _ _ _ := ⟨0, Or.inl ⟨rfl, rfl⟩⟩
  volume := by
    change [(2744 : ℚ) * (1 / 4), 2744 * (1 / 4)].sum ≠ 0
    norm_num
  perm c _ := by
    change (0 : ℚ) ≤ if c = 0 then 2 else 1
    split <;> norm_num
  minPerm := by change (0 : ℚ) < 1 / 10 ^ 12; norm_num
  contrast := by change (1 : ℚ) ≤ 10 ^ 7; norm_num

theorem other_rock (bct : Upscale.BCType) : CopiedRock (exJob bct false (fun c => c + 1) fun _ => 0) (otherJob bct) swapCells.symm 8 where
  satnum _ := rfl
  poro _ := rfl
  permx := by
    have : ∀ c : Fin 2, (if [0, 1].getD c.val 0 = 0 then (2 : ℚ) else 1) = (([0, 1].getD (swapCells.symm c).val 0 : ℕ) : ℚ) + 1 := by decide +kernel
    exact this
  volume _ := by change (2744 : ℚ) = 8 * 343; norm_num
  head _ _ := ⟨fun h => h.elim Or.inl fun x => absurd rfl x.1, fun h => h.elim Or.inl fun x => absurd rfl x.1⟩
  curves := rfl
  sqrt := rfl
  contrast := rfl
  minPerm := rfl

example (p : ℚ) : ∃ w, ∃ k k' : Fin 3 → ℚ, (∀ b b', point (exJob .fixed false (fun c => c + 1) fun _ => 0) exKr p b b' = some (w, List.ofFn k)) ∧
    (∀ b b', point (otherJob .fixed) exKr p b b' = some (w, List.ofFn k')) ∧ ∀ d, k' (swapAxes d) = k d :=
  C165_fixed (ex2_same .fixed).toSameGrid rfl rfl (other_rock .fixed) (ex_ready .fixed false (fun c => c + 1) fun _ => 0) (other_ready .fixed)
    (ex_valid _ _ _ _ fun c => by positivity) (other_valid .fixed) rfl rfl exKr p

example (p : ℚ) : ∃ w, ∃ k k' : Fin 9 → ℚ, (∀ b b', point (exJob .periodic false (fun c => c + 1) fun _ => 0) exKr p b b' = some (w, List.ofFn k)) ∧
    (∀ b b', point (otherJob .periodic) exKr p b b' = some (w, List.ofFn k')) ∧ ∀ i j, ofVoigt k' (swapAxes i) (swapAxes j) = ofVoigt k i j :=
  C165_periodic (ex2_same .periodic).toSameGrid rfl rfl (other_rock .periodic) (ex_ready .periodic false (fun c => c + 1) fun _ => 0) (other_ready .periodic)
    (ex_valid _ _ _ _ fun c => by positivity) (other_valid .periodic) rfl rfl exKr p

end Verif.RelPermChain
