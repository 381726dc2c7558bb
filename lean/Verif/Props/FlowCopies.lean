import Verif.Lemmas.FlowCopies
import Verif.Lemmas.FlowCopiesExample

/-!
C163: copies of a periodic sample have the permeability of one (`Verif.Model.SinglePhase`).
-/

namespace Verif.SinglePhase

variable {K : Type} [Field K] [LinearOrder K] [IsStrictOrderedRing K]

section
variable {I I' : Input K} {lo hi t lo' hi' : Fin 3 → K} {side side' : Boundary.Face K → Nat} {M : Fin 3 → Nat} {σ : Place M × Fin I.G.nc ≃ Fin I'.G.nc}
  {τ : (x : Place M × Fin I.G.nc) → Fin (I.G.cell x.2).nf ≃ Fin (I'.G.cell (σ x)).nf}

theorem sum_copies (s : Nat) (P : Place M → Prop) [DecidablePred P]
    (hP : ∀ k p, ((I'.G.face (copyOf τ k p)).nbr = none ∧ side' (I'.G.bface (copyOf τ k p)) = s) ↔
      P k ∧ (I.G.face p).nbr = none ∧ side (I.G.bface p) = s)
    (f : Half I'.G → K) (g : Half I.G → K) (hfg : ∀ k p, f (copyOf τ k p) = g p) :
    sideSum I'.G side' f s = (∑ k : Place M, if P k then 1 else 0) * sideSum I.G side g s := by
  unfold sideSum
  rw [copy_sum (τ := τ), Finset.sum_mul]
  refine Finset.sum_congr rfl fun k _ => ?_
  by_cases hk : P k
  · rw [if_pos hk, one_mul]
    refine Finset.sum_congr rfl fun p _ => ?_
    rw [hfg]
    exact if_congr ((hP k p).trans (and_iff_right hk)) rfl rfl
  · rw [if_neg hk, zero_mul]
    refine Finset.sum_eq_zero fun p _ => if_neg fun x => hk ((hP k p).mp x).1

theorem count_pos (P : Place M → Prop) [DecidablePred P] (k : Place M) (hk : P k) : (∑ k : Place M, if P k then (1 : K) else 0) ≠ 0 := by
  refine (Finset.sum_pos' (fun j _ => ?_) ⟨k, Finset.mem_univ _, ?_⟩).ne'
  · split
    · exact zero_le_one
    · exact le_refl _
  · rw [if_pos hk]
    exact one_pos

/-- The boundary of the copies. -/
theorem outer_copy (h : Stacked I I' lo hi t M σ τ) (ht : Tiling I.G) (ht' : Tiling I'.G) (hb : FillsBox I.G lo hi side)
    (hb' : FillsBox I'.G lo' hi' side') (hm : Matching I.G side) (hf' : FaceIds I'.G lo' hi' side') (hm' : Matching I'.G side') (k : Place M) (p : Half I.G)
    (e : Fin 3) :
    (((I'.G.face (copyOf τ k p)).nbr = none ∧ side' (I'.G.bface (copyOf τ k p)) = 2 * e.val) ↔
      (k e).val = 0 ∧ (I.G.face p).nbr = none ∧ side (I.G.bface p) = 2 * e.val) ∧
    (((I'.G.face (copyOf τ k p)).nbr = none ∧ side' (I'.G.bface (copyOf τ k p)) = 2 * e.val + 1) ↔
      (k e).val + 1 = M e ∧ (I.G.face p).nbr = none ∧ side (I.G.bface p) = 2 * e.val + 1) := by
  obtain ⟨-, -, hn, -⟩ := mate_copy h ht ht' hb hb' hm hf' hm' k p
  constructor <;> constructor
  · rintro ⟨x1, x2⟩
    have y := hn.mp x1
    rw [side_copy h hb hb' k p y.1 x1] at x2
    exact ⟨(y.2 e).1 x2, y.1, x2⟩
  · rintro ⟨x1, x2, x3⟩
    have n : (I'.G.face (copyOf τ k p)).nbr = none := hn.mpr ⟨x2, fun d => ⟨fun x => by
      obtain rfl : d = e := Fin.ext (by omega)
      exact x1, fun x => by omega⟩⟩
    exact ⟨n, by rw [side_copy h hb hb' k p x2 n, x3]⟩
  · rintro ⟨x1, x2⟩
    have y := hn.mp x1
    rw [side_copy h hb hb' k p y.1 x1] at x2
    exact ⟨(y.2 e).2 x2, y.1, x2⟩
  · rintro ⟨x1, x2, x3⟩
    have n : (I'.G.face (copyOf τ k p)).nbr = none := hn.mpr ⟨x2, fun d => ⟨fun x => by omega, fun x => by
      obtain rfl : d = e := Fin.ext (by omega)
      exact x1⟩⟩
    exact ⟨n, by rw [side_copy h hb hb' k p x2 n, x3]⟩

/-- **C163**. A sample that consists of copies of a periodic sample, put next to each other in any number in the three directions, has the upscaled tensor
of the single sample. -/
theorem C163_copies (h : Stacked I I' lo hi t M σ τ) (s : Sound I) (s' : Sound I') (ht : Tiling I.G) (ht' : Tiling I'.G) (hb : FillsBox I.G lo hi side)
    (hb' : FillsBox I'.G lo' hi' side') (hs : Suited I lo hi side) (hs' : Suited I' lo' hi' side') (hp : I.bct = .periodic) (hp' : I'.bct = .periodic) :
    ∃ T, (∀ b, upscaleEffectivePerm I b = some T) ∧ ∀ b, upscaleEffectivePerm I' b = some T := by
  obtain ⟨hf, hm, T, hT, hcol⟩ := periodic_column s ht hb hs hp
  obtain ⟨hf', hm', T', hT', hcol'⟩ := periodic_column s' ht' hb' hs' hp'
  obtain ⟨-, -, -, -, a, ha, -⟩ := periodic_run s ht hb hs hp
  suffices e : T' = T from ⟨T, hT, e ▸ hT'⟩
  -- A first and a last copy.
  have hM : ∀ d, 0 < M d := by
    obtain ⟨p', -, -⟩ := hb'.ne 0 (by omega)
    obtain ⟨k, -, -⟩ := copy_all (τ := τ) p'
    exact fun d => (k d).pos
  let first : Place M := fun d => ⟨0, hM d⟩
  let last : Place M := fun d => ⟨M d - 1, by have := hM d; omega⟩
  have hlast : ∀ d, (last d).val + 1 = M d := fun d => by
    have := hM d
    change M d - 1 + 1 = M d
    omega
  have hout := outer_copy h ht ht' hb hb' hm hf' hm'
  -- The size of the box.
  have hsize : ∀ d, hi' d - lo' d = M d * (hi d - lo d) := by
    intro d
    have h1 : lo' d = lo d + t d := by
      obtain ⟨p, hp, sp⟩ := hb.ne (2 * d.val) (by omega)
      obtain ⟨n, sn⟩ := (hout first p d).1.mpr ⟨rfl, hp, sp⟩
      obtain ⟨e, ⟨x1, x2, -⟩ | ⟨x1, -, -⟩⟩ := hb'.sides _ n
      · obtain rfl : e = d := Fin.ext (by omega)
        obtain ⟨e', ⟨y1, y2, -⟩ | ⟨y1, -, -⟩⟩ := hb.sides p hp
        · obtain rfl : e' = e := Fin.ext (by omega)
          rw [← x2, ← y2]
          refine (h.face (first, p.1) p.2 e').trans ?_
          change _ + (((0 : ℕ) : K) * _ + _) = _
          rw [Nat.cast_zero, zero_mul, zero_add]
          rfl
        · omega
      · omega
    have h2 : hi' d = hi d + (((M d : K) - 1) * (hi d - lo d) + t d) := by
      obtain ⟨p, hp, sp⟩ := hb.ne (2 * d.val + 1) (by omega)
      obtain ⟨n, sn⟩ := (hout last p d).2.mpr ⟨hlast d, hp, sp⟩
      obtain ⟨e, ⟨x1, -, -⟩ | ⟨x1, x2, -⟩⟩ := hb'.sides _ n
      · omega
      · obtain rfl : e = d := Fin.ext (by omega)
        obtain ⟨e', ⟨y1, -, -⟩ | ⟨y1, y2, -⟩⟩ := hb.sides p hp
        · omega
        · obtain rfl : e' = e := Fin.ext (by omega)
          have c1 : ((last e').val : K) = (M e' : K) - 1 := by
            have : ((last e').val : K) + 1 = (M e' : K) := by exact_mod_cast hlast e'
            linear_combination this
          rw [← x2]
          refine (h.face (last, p.1) p.2 e').trans ?_
          dsimp only
          rw [c1]
          exact congrArg (· + _) y2
    rw [h1, h2]
    ring
  -- Averages over the sides.
  have havg : ∀ (f : Half I'.G → K) (g : Half I.G → K), (∀ k p, f (copyOf τ k p) = g p) → ∀ e, avgVel I'.G side' f e = avgVel I.G side g e := by
    intro f g hfg e
    have harea : ∀ k p, (I'.G.face (copyOf τ k p)).area = (I.G.face p).area := fun k p => h.area (k, p.1) p.2
    have n1 := count_pos (K := K) (fun k : Place M => (k e).val = 0) first rfl
    have n2 := count_pos (K := K) (fun k : Place M => (k e).val + 1 = M e) last (hlast e)
    have a1 := (sideArea_pos ht hb (2 * e.val) (by omega)).ne'
    have a2 := (sideArea_pos ht hb (2 * e.val + 1) (by omega)).ne'
    unfold avgVel sideArea
    unfold sideArea at a1 a2
    rw [sum_copies _ _ (fun k p => (hout k p e).1) f g hfg, sum_copies _ _ (fun k p => (hout k p e).2) f g hfg,
      sum_copies _ _ (fun k p => (hout k p e).1) _ _ harea, sum_copies _ _ (fun k p => (hout k p e).2) _ _ harea]
    field_simp
  funext i d
  obtain ⟨c, z, f, -⟩ := ha d
  have hMd : (M d : K) ≠ 0 := by exact_mod_cast (hM d).ne'
  -- The solution for the copies: the pressure falls by one from copy to copy, divided by the number of copies.
  let c' : Fin I'.G.nc → K := fun x => (c (σ.symm x).2 - ((σ.symm x).1 d).val) / M d
  let y : (Σ x : Place M × Fin I.G.nc, Fin (I.G.cell x.2).nf) → K := fun x => (z ⟨x.1.2, x.2⟩ - (x.1.1 d).val) / M d
  let z' : Half I'.G → K := fun p => y ((copyEquiv τ).symm p)
  have hc : ∀ x, c' (σ x) = (c x.2 - (x.1 d).val) / M d := fun x => by simp only [c', Equiv.symm_apply_apply]
  have hz : ∀ k p, z' (copyOf τ k p) = (z p - (k d).val) / M d := fun k p => congrArg y (copy_symm k p)
  set w := Energy.fluxOf (ipOf I) (Energy.drop c z) with hw
  have hflux : ∀ k p, Energy.fluxOf (ipOf I') (Energy.drop c' z') (copyOf τ k p) = w p / M d := by
    intro k p
    rw [hw]
    unfold Energy.fluxOf
    rw [div_eq_mul_inv, Finset.sum_mul]
    refine (Equiv.sum_comp (τ (k, p.1)) fun j => ipOf I' (σ (k, p.1)) (τ (k, p.1) p.2) j * Energy.drop c' z' ⟨σ (k, p.1), j⟩).symm.trans ?_
    refine Finset.sum_congr rfl fun j _ => ?_
    rw [ip_copy h s s' ht ht' (k, p.1)]
    have e1 : Energy.drop c' z' ⟨σ (k, p.1), τ (k, p.1) j⟩ = Energy.drop c z ⟨p.1, j⟩ * (M d : K)⁻¹ := by
      have e2 := hz k ⟨p.1, j⟩
      have e3 := hc (k, p.1)
      unfold Energy.drop
      change c' (σ (k, p.1)) - z' (copyOf τ k ⟨p.1, j⟩) = _
      rw [e2, e3]
      ring
    rw [e1]
    ring
  have fs : FlowSol I' (pmate I'.G side') (periodicCnd I'.G side' d) c' z' := by
    refine ⟨fun x => ?_, fun p' hne => ?_, fun p' hn => ?_, fun p' hn x => (by cases x), fun p' hn x => (by cases x), fun p' hn _ => ?_⟩
    · obtain ⟨⟨k, b⟩, rfl⟩ := σ.surjective x
      refine (Equiv.sum_comp (τ (k, b)) fun j => Energy.fluxOf (ipOf I') (Energy.drop c' z') ⟨σ (k, b), j⟩).symm.trans ?_
      have := f.balanced b
      refine (Finset.sum_congr rfl fun j _ => (hflux k ⟨b, j⟩).trans (div_eq_mul_inv _ _)).trans ?_
      rw [← Finset.sum_mul, this, zero_mul]
    · obtain ⟨k, p, rfl⟩ := copy_all (τ := τ) p'
      obtain ⟨l, hl, -, -⟩ := mate_copy h ht ht' hb hb' hm hf' hm' k p
      rw [hl, hflux, hflux]
      have e1 : w (pmate I.G side p) = -w p := f.skew p (pmate_ne ht hm p)
      rw [e1]
      ring
    · obtain ⟨k, p, rfl⟩ := copy_all (τ := τ) p'
      obtain ⟨l, hl, -, hj⟩ := mate_copy h ht ht' hb hb' hm hf' hm' k p
      have hjd := hj d
      rw [if_neg hn] at hjd
      rw [hl, hz, hz, hjd]
      have : z p - z (pmate I.G side p) = jump I.G side d p := by
        unfold jump
        split
        · rename_i hb0
          exact f.periodic p hb0 rfl
        · rename_i hb0
          rw [f.interior p hb0, sub_self]
      congr 1
      linear_combination this
    · obtain ⟨k, p, rfl⟩ := copy_all (τ := τ) p'
      obtain ⟨l, hl, hb0, hj⟩ := mate_copy h ht ht' hb hb' hm hf' hm' k p
      have hjd := hj d
      have hb1 := (hb0.mp hn).1
      rw [if_pos hn] at hjd
      have e0 : jump I.G side d p = (periodicCnd I.G side d p).value := by
        unfold jump
        rw [if_pos hb1]
      have e1 := f.periodic p hb1 rfl
      have e2 : (periodicCnd I'.G side' d (copyOf τ k p)).value = (periodicCnd I.G side d p).value := by
        unfold periodicCnd
        rw [side_copy h hb hb' k p hb1 hn]
      rw [e2, hl, hz, hz, hjd, e0, ← e1]
      field_simp
      ring
  rw [hcol d c z f i, hcol' d c' z' fs i, havg _ (fun p => (M d : K)⁻¹ * w p) (fun k p => by rw [hflux]; ring), avgVel_mul, hsize]
  change (M d : K)⁻¹ * avgVel I.G side w i * _ = avgVel I.G side w i * _
  field_simp

/-- **C163** for `upscaleSinglePhase`. -/
theorem C163_single_phase (h : Stacked (tracer I) (tracer I') lo hi t M σ τ) (s : Sound (tracer I)) (s' : Sound (tracer I')) (ht : Tiling I.G)
    (ht' : Tiling I'.G) (hb : FillsBox I.G lo hi side) (hb' : FillsBox I'.G lo' hi' side') (hs : Suited I lo hi side) (hs' : Suited I' lo' hi' side')
    (hp : I.bct = .periodic) (hp' : I'.bct = .periodic) :
    ∃ T, (∀ b, upscaleSinglePhase I b = some T) ∧ ∀ b, upscaleSinglePhase I' b = some T :=
  C163_copies h s s' ht ht' hb hb' hs hs' hp hp'

end

/-- Two cubes with different permeabilities, and four cubes that are two copies of them. -/
example : ∃ T, (∀ b, upscaleEffectivePerm (exInput .periodic 0 exPerm) b = some T) ∧ ∀ b, upscaleEffectivePerm twoInput b = some T :=
  C163_copies two_stacked (ex_sound _) two_sound (ex_tiling _) two_tiling (ex_box _) two_box (ex_suited .periodic 0 exPerm) two_suited rfl rfl

example : ∃ T, (∀ b, upscaleSinglePhase (exInput .periodic 0 exPerm) b = some T) ∧ ∀ b, upscaleSinglePhase twoInput b = some T := by
  have key : ∀ (x : Place twoM × Fin 2) (i j : Fin 3), (tracerMob (1 : ℚ)).sum * exPerm ⟨(twoCell x).val % 2, by omega⟩ i j =
      (tracerMob (1 : ℚ)).sum * exPerm x.2 i j := by decide +kernel
  have h0 := two_stacked
  have s0 := ex_sound .periodic
  have s1 := two_sound
  refine C163_single_phase (t := 0) (M := twoM) (σ := twoCell) (τ := fun _ => Equiv.refl (Fin 6))
    ⟨h0.toStackedGrid, key⟩
    ⟨⟨s0.symm, s0.posdef, fun _ => ?_, s0.basis, s0.sort, s0.solver⟩, rfl⟩ ⟨⟨s1.symm, s1.posdef, fun _ => ?_, s1.basis, s1.sort, s1.solver⟩, rfl⟩
    (ex_tiling _) two_tiling (ex_box _) two_box (ex_suited .periodic 0 exPerm) two_suited rfl rfl <;>
  · change (0 : ℚ) < (tracerMob 1).sum
    norm_num [tracerMob]

end Verif.SinglePhase
