import Verif.Lemmas.Relabel
import Verif.Lemmas.RelabelExample

/-!
C158: numbers of cells and faces, unit of length, origin and names of the axes do not matter (`Verif.Model.SinglePhase`).
-/

namespace Verif.SinglePhase

variable {K : Type} [Field K] [LinearOrder K] [IsStrictOrderedRing K]

section
variable {I I' : Input K} {lo hi lo' hi' : Fin 3 → K} {side side' : Boundary.Face K → Nat} {a : K} {t : Fin 3 → K} {π : Equiv.Perm (Fin 3)}
  {σ : Fin I.G.nc ≃ Fin I'.G.nc} {τ : (c : Fin I.G.nc) → Fin (I.G.cell c).nf ≃ Fin (I'.G.cell (σ c)).nf}

/-- **C158**. Two descriptions of the same sample that differ in the numbers of cells and faces, the unit of length, the origin and the names of the axes
give the same upscaled tensor, for all types of boundary conditions. -/
theorem C158_relabel (h : SameSample I I' a t π σ τ) (s : Sound I) (s' : Sound I') (ht : Tiling I.G) (ht' : Tiling I'.G) (hb : FillsBox I.G lo hi side)
    (hb' : FillsBox I'.G lo' hi' side') (hs : Suited I lo hi side) (hs' : Suited I' lo' hi' side') :
    ∃ T T', (∀ b, upscaleEffectivePerm I b = some T) ∧ (∀ b, upscaleEffectivePerm I' b = some T') ∧ ∀ i j, T' (π i) (π j) = T i j := by
  obtain ⟨T, hT, hsol⟩ := suited_run s ht hb hs
  obtain ⟨T', hT', hsol'⟩ := suited_run s' ht' hb' hs'
  refine ⟨T, T', hT, hT', fun i d => ?_⟩
  obtain ⟨c, z, f, e⟩ := hsol d
  obtain ⟨c', z', f', e'⟩ := hsol' (π d)
  set w' := Energy.fluxOf (ipOf I') (Energy.drop c' z') with hw'
  let B : (c : Fin I.G.nc) → Fin (I.G.cell c).nf → Fin (I.G.cell c).nf → K := fun c i j => ipOf I' (σ c) (τ c i) (τ c j)
  let y : Half I.G → K := fun p => z' (halfEquiv σ τ p)
  have hflux : ∀ p, Energy.fluxOf B (Energy.drop (fun k => c' (σ k)) y) p = w' (halfEquiv σ τ p) := by
    intro p
    rw [hw']
    unfold Energy.fluxOf
    rw [half_apply]
    exact Equiv.sum_comp (τ p.1) fun j => ipOf I' (σ p.1) (τ p.1 p.2) j * Energy.drop c' z' ⟨σ p.1, j⟩
  have key := sol_scale s.toRegular ht (suited_kind hb hs d) B a h.unit.ne' (ip_relabel h s s' ht ht') f (c' := fun k => c' (σ k)) (z' := y)
    (fun k => by
      simp only [hflux]
      refine Eq.trans ?_ (f'.balanced (σ k))
      exact Equiv.sum_comp (τ k) fun j => w' ⟨σ k, j⟩)
    (fun p hp => by
      rw [hflux, hflux, mate_relabel h ht ht' hb hb' hs hs']
      exact f'.skew _ fun e => hp ((halfEquiv σ τ).injective ((mate_relabel h ht ht' hb hb' hs hs' p).trans e)))
    (fun p hp => by
      refine (f'.interior (halfEquiv σ τ p) fun e => hp ((nbr_none h p).mp e)).trans ?_
      rw [← mate_relabel h ht ht' hb hb' hs hs'])
    (fun p hp ht0 => by
      rw [← cnd_relabel h hb hb' d p hp] at ht0 ⊢
      exact f'.dirichlet _ ((nbr_none h p).mpr hp) ht0)
    (fun p hp ht0 => by
      rw [← cnd_relabel h hb hb' d p hp] at ht0 ⊢
      rw [hflux]
      exact f'.neumann _ ((nbr_none h p).mpr hp) ht0)
    (fun p hp ht0 => by
      rw [← cnd_relabel h hb hb' d p hp] at ht0 ⊢
      refine Eq.trans ?_ (f'.periodic _ ((nbr_none h p).mpr hp) ht0)
      change z' _ - z' _ = _
      rw [mate_relabel h ht ht' hb hb' hs hs'])
  obtain ⟨l1, l2⟩ := ends_relabel h hb hb' d
  rw [e, e', avg_relabel h hb hb', h.conditions, l1, l2, show (fun p => w' (halfEquiv σ τ p)) = fun p => a * Energy.fluxOf (ipOf I) (Energy.drop c z) p from
    funext fun p => (hflux p).symm.trans (key p), avgVel_mul]
  have ha := h.unit.ne'
  by_cases hc : I.bct = .fixed ∧ i ≠ d
  · rw [if_pos hc, if_pos ⟨hc.1, fun x => hc.2 (π.injective x)⟩]
    ring
  · rw [if_neg hc, if_neg fun x => hc ⟨x.1, fun y => x.2 (by rw [y])⟩]
    field_simp
    ring

/-- **C158** for `upscaleSinglePhase`. -/
theorem C158_single_phase (h : SameSample (tracer I) (tracer I') a t π σ τ) (s : Sound (tracer I)) (s' : Sound (tracer I')) (ht : Tiling I.G) (ht' : Tiling I'.G)
    (hb : FillsBox I.G lo hi side) (hb' : FillsBox I'.G lo' hi' side') (hs : Suited I lo hi side) (hs' : Suited I' lo' hi' side') :
    ∃ T T', (∀ b, upscaleSinglePhase I b = some T) ∧ (∀ b, upscaleSinglePhase I' b = some T') ∧ ∀ i j, T' (π i) (π j) = T i j :=
  C158_relabel h s s' ht ht' hb hb' hs hs'

end

/-- The two cubes, described a second time with other numbers, axes, unit and origin. -/
example (bct : Upscale.BCType) : ∃ T T', (∀ b, upscaleEffectivePerm (exInput bct 0 exPerm) b = some T) ∧
    (∀ b, upscaleEffectivePerm (ex2Input bct) b = some T') ∧ ∀ i j, T' (swapAxes i) (swapAxes j) = T i j :=
  C158_relabel (ex2_same bct) (ex_sound bct) (ex2_sound bct) (ex_tiling _) (ex2_tiling _) (ex_box _) (ex2_box _) (ex_suited bct 0 exPerm) (ex2_suited bct)

example (bct : Upscale.BCType) : ∃ T T', (∀ b, upscaleSinglePhase (exInput bct 0 exPerm) b = some T) ∧
    (∀ b, upscaleSinglePhase (ex2Input bct) b = some T') ∧ ∀ i j, T' (swapAxes i) (swapAxes j) = T i j := by
  have key : ∀ (c : Fin 2) (i j : Fin 3), (tracerMob (1 : ℚ)).sum * exPerm (swapCells (swapCells c)) (swapAxes (swapAxes i)) (swapAxes (swapAxes j)) =
      (tracerMob (1 : ℚ)).sum * exPerm c i j := by decide +kernel
  have h0 := ex2_same bct
  have s0 := ex_sound bct
  have s1 := ex2_sound bct
  refine C158_single_phase (a := 2) (t := ex2Shift) (π := swapAxes) (σ := swapCells) (τ := fun _ => swapFaces)
    ⟨h0.toSameGrid, key, h0.conditions⟩
    ⟨⟨s0.symm, s0.posdef, fun _ => ?_, s0.basis, s0.sort, s0.solver⟩, rfl⟩ ⟨⟨s1.symm, s1.posdef, fun _ => ?_, s1.basis, s1.sort, s1.solver⟩, rfl⟩
    (ex_tiling _) (ex2_tiling _) (ex_box _) (ex2_box _) (ex_suited bct 0 exPerm) (ex2_suited bct) <;>
  · change (0 : ℚ) < (tracerMob 1).sum
    norm_num [tracerMob]

/-- **C158** fails without the condition on the size: for the sample with lengths divided by a hundred million, whose opposite sides match exactly, upscaling
with periodic boundary conditions never succeeds. All boundary faces are within the absolute tolerance of the first side, so none has a partner. -/
theorem C158_violated_tiny : ∃ (I I' : Input ℚ) (lo hi lo' hi' : Fin 3 → ℚ) (side side' : Boundary.Face ℚ → Nat) (a : ℚ) (t : Fin 3 → ℚ) (π : Equiv.Perm (Fin 3))
    (σ : Fin I.G.nc ≃ Fin I'.G.nc) (τ : (c : Fin I.G.nc) → Fin (I.G.cell c).nf ≃ Fin (I'.G.cell (σ c)).nf),
    SameSample I I' a t π σ τ ∧ Sound I ∧ Sound I' ∧ Tiling I.G ∧ Tiling I'.G ∧ FillsBox I.G lo hi side ∧ FillsBox I'.G lo' hi' side' ∧
    (∃ T, ∀ b, upscaleEffectivePerm I b = some T) ∧ ∀ b, upscaleEffectivePerm I' b = none := by
  refine ⟨exInput .periodic 0 exPerm, tinyInput, exLo, exHi, tinyLo, tinyHi, exSide, tinySide, tinyUnit, fun _ => 0, Equiv.refl _, Equiv.refl (Fin 2),
    fun _ => Equiv.refl (Fin 6), tiny_same, ex_sound _, tiny_sound, ex_tiling _, tiny_tiling, ex_box _, tiny_box, ?_, fun b => ?_⟩
  · obtain ⟨T, hT, -⟩ := suited_run (ex_sound .periodic) (ex_tiling _) (ex_box _) (ex_suited .periodic 0 exPerm)
    exact ⟨T, hT⟩
  · have h1 : setup tinyInput 0 b = setup tinyInput 0 ⟨⟨[], []⟩, [], []⟩ := by
      have ha : Boundary.periodicAsserts (Boundary.periodicFlowConds (0 : Fin 3) (1 : ℚ) tinyInput.twodim) (Boundary.periodicSatConds tinyInput.twodim) =
        true := by decide +kernel
      unfold setup Boundary.setupUpscalingConditions
      rw [show code tinyInput.bct = 2 from rfl, if_neg (by decide), if_neg (by decide), if_neg (by decide)]
      unfold Boundary.createPeriodic Boundary.createPeriodicImpl
      simp only [if_pos ha]
      cases Boundary.findPeriodicPartners tinyInput.sort tinyInput.G.bfaces
        (fun s => decide ((Boundary.periodicFlowConds (0 : Fin 3) (1 : ℚ) tinyInput.twodim s).type = .periodic)) (1 / 10 ^ 6) with
      | error x => rfl
      | ok x => rfl
    have h2 := tiny_start
    rw [← h1] at h2
    unfold upscaleEffectivePerm
    cases hb : setup tinyInput 0 b with
    | none => rfl
    | some b0 =>
      rw [hb] at h2
      cases hn : Numbering.enumerate tinyInput.G.topology with
      | none => rfl
      | some n =>
        rw [hn] at h2
        simp only [Option.bind_some] at h2
        cases hl : perFaces tinyInput.G n b0 with
        | none => simp [hl]
        | some l =>
          rw [hl, Option.bind_some, Option.map_eq_none_iff] at h2
          simp [hl, h2]

end Verif.SinglePhase
