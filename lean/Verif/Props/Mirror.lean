import Verif.Lemmas.Mirror
import Verif.Props.Relabel
import Verif.Lemmas.MirrorExample

/-!
C159: the mirror image of a sample has the mirror image of the permeability (`Verif.Model.SinglePhase`).
-/

namespace Verif.SinglePhase

variable {K : Type} [Field K] [LinearOrder K] [IsStrictOrderedRing K]

section
variable {I : Input K} {lo hi lo' hi' : Fin 3 → K} {side side' : Boundary.Face K → Nat} {s : Fin 3 → K} {bid : Half I.G → Nat}

/-- **C159**. Mirroring a sample in any of the coordinate directions changes nothing but the sign of the entries of the upscaled tensor that couple a
mirrored direction with one that is not mirrored. -/
theorem C159_mirror (h : ∀ k, s k = 1 ∨ s k = -1) (hr : Sound I) (ht : Tiling I.G) (hb : FillsBox I.G lo hi side) (hs : Suited I lo hi side)
    (hb' : FillsBox (mirror s I bid).G lo' hi' side') (hs' : Suited (mirror s I bid) lo' hi' side') :
    ∃ T, (∀ b, upscaleEffectivePerm I b = some T) ∧ ∀ b, upscaleEffectivePerm (mirror s I bid) b = some fun i j => s i * s j * T i j := by
  obtain ⟨T, hT, hsol⟩ := suited_run hr ht hb hs
  obtain ⟨T', hT', hsol'⟩ := suited_run (mirror_sound (bid := bid) h hr) (mirror_tiling h ht) hb' hs'
  refine ⟨T, hT, fun b => (hT' b).trans (congrArg some (funext fun i => funext fun d => ?_))⟩
  obtain ⟨c, z, f, e⟩ := hsol d
  obtain ⟨c', z', f', e'⟩ := hsol' d
  have hmate := mirror_mate h hb hb' hs hs'
  -- the solution for the mirror image, read in the sample
  let t : K := if s d = 1 then 0 else 1
  let cc : Fin I.G.nc → K := fun k => t + s d * c' k
  let zz : Half I.G → K := fun p => t + s d * z' p
  let w' : Half I.G → K := Energy.fluxOf (ipOf (mirror s I bid)) (Energy.drop c' z')
  have hflux : ∀ p, Energy.fluxOf (ipOf I) (Energy.drop cc zz) p = s d * w' p := by
    intro p
    change (∑ j, ipOf I p.1 p.2 j * (cc p.1 - zz ⟨p.1, j⟩)) = s d * ∑ j, ipOf (mirror s I bid) p.1 p.2 j * (c' p.1 - z' ⟨p.1, j⟩)
    rw [Finset.mul_sum]
    refine Finset.sum_congr rfl fun j _ => ?_
    rw [← mirror_ip h p.1 p.2 j]
    change _ * (t + s d * c' p.1 - (t + s d * z' ⟨p.1, j⟩)) = _
    ring
  have ht1 : s d = 1 → t = 0 := fun k => if_pos k
  have h1 : (1 : K) ≠ -1 := by
    intro e
    have : (0 : K) < 1 := one_pos
    linarith
  have ht2 : s d = -1 → t = 1 := fun k => if_neg fun k' => h1 (k'.symm.trans k)
  have hcnd : ∀ p, (I.G.face p).nbr = none →
      (cndOf (mirror s I bid) lo' hi' side' d p).type = (cndOf I lo hi side d p).type ∧
      ((cndOf I lo hi side d p).type = .dirichlet → (cndOf I lo hi side d p).value = t + s d * (cndOf (mirror s I bid) lo' hi' side' d p).value) ∧
      ((cndOf I lo hi side d p).type ≠ .dirichlet → (cndOf I lo hi side d p).value = s d * (cndOf (mirror s I bid) lo' hi' side' d p).value) := by
    intro p hp
    obtain ⟨q1, q2⟩ := mirror_side_iff h hb hb' p hp d
    obtain ⟨r1, r2⟩ := mirror_ends h hb hb' d
    have hc : (mirror s I bid).bct = I.bct := rfl
    have hlt := hb.lt d
    unfold cndOf
    rw [hc]
    cases I.bct with
    | fixed =>
      dsimp only
      unfold fixedCnd
      rcases h d with k | k
      · simp only [(q1 k).1, (q1 k).2]
        rw [ht1 k, k]
        split_ifs <;> simp
      · simp only [(q2 k).1, (q2 k).2]
        rw [ht2 k, k]
        by_cases a1 : side (I.G.bface p) = 2 * d.val
        · have a2 : side (I.G.bface p) ≠ 2 * d.val + 1 := by omega
          rw [if_pos a1, if_neg a2, if_pos a1]
          simp
        · by_cases a2 : side (I.G.bface p) = 2 * d.val + 1
          · simp [a2]
          · rw [if_neg a1, if_neg a2, if_neg a2, if_neg a1]
            simp
    | linear =>
      dsimp only
      unfold linearCnd
      have hf : ((mirror s I bid).G.face p).centroid d = s d * (I.G.face p).centroid d := rfl
      refine ⟨rfl, fun _ => ?_, fun k => absurd rfl k⟩
      dsimp only
      rw [hf]
      rcases h d with k | k
      · rw [ht1 k, k, (r1 k).1, (r1 k).2]
        ring
      · rw [ht2 k, k, (r2 k).1, (r2 k).2]
        have hne : hi d - lo d ≠ 0 := (sub_pos.mpr hlt).ne'
        rw [show -lo d - -hi d = hi d - lo d by ring]
        field_simp
        ring
    | periodic =>
      dsimp only
      unfold periodicCnd
      refine ⟨rfl, fun k => by simp at k, fun _ => ?_⟩
      dsimp only
      rcases h d with k | k
      · simp only [(q1 k).1, (q1 k).2]
        rw [k, one_mul]
      · simp only [(q2 k).1, (q2 k).2]
        rw [k]
        by_cases a1 : side (I.G.bface p) = 2 * d.val
        · have a2 : side (I.G.bface p) ≠ 2 * d.val + 1 := by omega
          rw [if_pos a1, if_neg a2, if_pos a1]
          ring
        · by_cases a2 : side (I.G.bface p) = 2 * d.val + 1
          · rw [if_neg a1, if_pos a2, if_pos a2]
            ring
          · rw [if_neg a1, if_neg a2, if_neg a2, if_neg a1]
            ring
  have key := sol_scale hr.toRegular ht (suited_kind hb hs d) (ipOf I) 1 one_ne_zero (fun _ _ _ => (one_mul _).symm) f (c' := cc) (z' := zz)
    (fun k => by
      simp only [hflux]
      rw [← Finset.mul_sum]
      exact mul_eq_zero_of_right _ (f'.balanced k))
    (fun p hp => by
      rw [hflux, hflux]
      have := f'.skew p (by rw [hmate p]; exact hp)
      rw [hmate p] at this
      exact (congrArg (s d * ·) this).trans (mul_neg _ _))
    (fun p hp => by
      have := f'.interior p hp
      rw [hmate p] at this
      exact congrArg (fun x => t + s d * x) this)
    (fun p hp k => by
      obtain ⟨k1, k2, -⟩ := hcnd p hp
      rw [k2 k, ← f'.dirichlet p hp (k1.trans k)])
    (fun p hp k => by
      obtain ⟨k1, -, k3⟩ := hcnd p hp
      rw [hflux, k3 (by rw [k]; simp), ← f'.neumann p hp (k1.trans k)]
      rfl)
    (fun p hp k => by
      obtain ⟨k1, -, k3⟩ := hcnd p hp
      have := f'.periodic p hp (k1.trans k)
      rw [hmate p] at this
      rw [k3 (by rw [k]; simp), ← this]
      change t + s d * _ - (t + s d * _) = _
      ring)
  have hflux' : w' = fun p => s d * Energy.fluxOf (ipOf I) (Energy.drop c z) p := by
    funext p
    have k1 := (hflux p).symm.trans (key p)
    rw [one_mul] at k1
    rw [← k1, ← mul_assoc, sign_sq h, one_mul]
  rw [e, e']
  have hc : (mirror s I bid).bct = I.bct := rfl
  have hd : hi' d - lo' d = hi d - lo d := by
    obtain ⟨r1, r2⟩ := mirror_ends h hb hb' d
    rcases h d with k | k
    · rw [(r1 k).1, (r1 k).2]
    · rw [(r2 k).1, (r2 k).2]
      ring
  have hv : avgVel (mirror s I bid).G side' w' i = s i * (s d * avgVel I.G side (Energy.fluxOf (ipOf I) (Energy.drop c z)) i) := by
    rw [mirror_avg h hb hb', hflux', avgVel_mul]
  rw [hc, hd]
  by_cases hx : I.bct = .fixed ∧ i ≠ d
  · rw [if_pos hx, if_pos hx]
    ring
  · rw [if_neg hx, if_neg hx]
    refine (congrArg (· * (hi d - lo d)) hv).trans ?_
    ring

/-- **C159** for `upscaleSinglePhase`. -/
theorem C159_single_phase (h : ∀ k, s k = 1 ∨ s k = -1) (hr : Sound (tracer I)) (ht : Tiling I.G) (hb : FillsBox I.G lo hi side) (hs : Suited I lo hi side)
    (hb' : FillsBox (mirror s I bid).G lo' hi' side') (hs' : Suited (mirror s I bid) lo' hi' side') :
    ∃ T, (∀ b, upscaleSinglePhase I b = some T) ∧ ∀ b, upscaleSinglePhase (mirror s I bid) b = some fun i j => s i * s j * T i j :=
  C159_mirror (I := tracer I) h hr ht hb hs hb' hs'

/-- **C159**. If a sample is its own mirror image, up to numbering and origin, the upscaled tensor has no entries that couple a mirrored direction with one
that is not mirrored. -/
theorem C159_symmetric (h : ∀ k, s k = 1 ∨ s k = -1) (hr : Sound I) (ht : Tiling I.G) (hb : FillsBox I.G lo hi side) (hs : Suited I lo hi side)
    (hb' : FillsBox (mirror s I bid).G lo' hi' side') (hs' : Suited (mirror s I bid) lo' hi' side') {t : Fin 3 → K}
    {σ : Fin I.G.nc ≃ Fin I.G.nc} {τ : (c : Fin I.G.nc) → Fin (I.G.cell c).nf ≃ Fin (I.G.cell (σ c)).nf}
    (hS : SameSample (mirror s I bid) I 1 t (Equiv.refl _) σ τ) :
    ∃ T, (∀ b, upscaleEffectivePerm I b = some T) ∧ ∀ i j, s i ≠ s j → T i j = 0 := by
  obtain ⟨T, hT, hM⟩ := C159_mirror h hr ht hb hs hb' hs'
  obtain ⟨T1, T2, h1, h2, h3⟩ := C158_relabel hS (mirror_sound h hr) hr (mirror_tiling h ht) ht hb' hb hs' hs
  refine ⟨T, hT, fun i j hij => ?_⟩
  let b : Boundary.BCs K := ⟨⟨[], []⟩, [], []⟩
  have e1 : T1 = fun i j => s i * s j * T i j := Option.some.inj ((h1 b).symm.trans (hM b))
  have e2 : T2 = T := Option.some.inj ((h2 b).symm.trans (hT b))
  have e3 : T i j = s i * s j * T i j := by
    have := h3 i j
    rw [e1, e2] at this
    exact this
  have e4 : s i * s j = -1 := by
    rcases h i with x | x <;> rcases h j with y | y
    · exact absurd (x.trans y.symm) hij
    · rw [x, y]; ring
    · rw [x, y]; ring
    · exact absurd (x.trans y.symm) hij
  rw [e4] at e3
  linarith

end

/-- Two cubes with full tensors that lean to different sides, for all types of boundary conditions. -/
example (bct : Upscale.BCType) : ∃ T, (∀ b, upscaleEffectivePerm (symInput bct) b = some T) ∧
    ∀ b, upscaleEffectivePerm (mirror symSign (symInput bct) (symBid (bct != .fixed))) b = some fun i j => symSign i * symSign j * T i j :=
  C159_mirror symSign_sign (sym_sound bct) (sym_tiling _) (sym_box _) (sym_suited bct) (symMir_box _) (symMir_suited bct)

/-- The sample is its own mirror image, so the first direction is not coupled with the others, though it is in both cells. -/
example (bct : Upscale.BCType) : ∃ T, (∀ b, upscaleEffectivePerm (symInput bct) b = some T) ∧ ∀ i j, symSign i ≠ symSign j → T i j = 0 :=
  C159_symmetric symSign_sign (sym_sound bct) (sym_tiling _) (sym_box _) (sym_suited bct) (symMir_box _) (symMir_suited bct) (sym_same bct)

example (bct : Upscale.BCType) : ∃ T, (∀ b, upscaleSinglePhase (symInput bct) b = some T) ∧
    ∀ b, upscaleSinglePhase (mirror symSign (symInput bct) (symBid (bct != .fixed))) b = some fun i j => symSign i * symSign j * T i j := by
  have s0 := sym_sound bct
  refine C159_single_phase symSign_sign ⟨⟨s0.symm, s0.posdef, fun _ => ?_, s0.basis, s0.sort, s0.solver⟩, rfl⟩ (sym_tiling _) (sym_box _) (sym_suited bct)
    (symMir_box _) (symMir_suited bct)
  change (0 : ℚ) < (tracerMob 1).sum
  norm_num [tracerMob]

end Verif.SinglePhase
