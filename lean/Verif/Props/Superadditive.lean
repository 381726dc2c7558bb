import Verif.Props.SinglePhase

/-!
C92, continued: conductivities that are parts of others.
-/

namespace Verif.SinglePhase

variable {K : Type} [Field K] [LinearOrder K] [IsStrictOrderedRing K]

variable {I : Input K} {lo hi : Fin 3 → K} {side : Boundary.Face K → Nat}

section parts
variable {p1 p2 : Fin I.G.nc → Fin 3 → Fin 3 → K} {m1 m2 r1 r2 : Fin I.G.nc → List K}

/-- Energies of the parts. -/
theorem form_parts (h : Sound I) (ht : Tiling I.G) (h1 : Sound (withRock I p1 m1 r1)) (h2 : Sound (withRock I p2 m2 r2))
    (hc : ∀ c x, (m1 c).sum * Mimetic.quadForm (p1 c) x + (m2 c).sum * Mimetic.quadForm (p2 c) x ≤ Mimetic.quadForm (cond I c) x) (a : Half I.G → K) :
    Energy.form (ipOf (withRock I p1 m1 r1)) a a + Energy.form (ipOf (withRock I p2 m2 r2)) a a ≤ Energy.form (ipOf I) a a := by
  have hq : ∀ c x, Mimetic.quadForm (fun i j => (m1 c).sum * p1 c i j + (m2 c).sum * p2 c i j) x =
      (m1 c).sum * Mimetic.quadForm (p1 c) x + (m2 c).sum * Mimetic.quadForm (p2 c) x := by
    intro c x
    unfold Mimetic.quadForm
    rw [Finset.mul_sum, Finset.mul_sum, ← Finset.sum_add_distrib]
    refine Finset.sum_congr rfl fun i _ => ?_
    rw [Finset.mul_sum, Finset.mul_sum, ← Finset.sum_add_distrib]
    exact Finset.sum_congr rfl fun j _ => by ring
  let J : Input K := withRock I (fun c i j => (m1 c).sum * p1 c i j + (m2 c).sum * p2 c i j) (fun _ => [1]) I.rho
  have hJ : Sound J :=
    { symm := fun c i j => by
        change (m1 c).sum * p1 c i j + (m2 c).sum * p2 c i j = (m1 c).sum * p1 c j i + (m2 c).sum * p2 c j i
        rw [show p1 c i j = p1 c j i from h1.symm c i j, show p2 c i j = p2 c j i from h2.symm c i j]
      posdef := fun c x hx => by
        change 0 < Mimetic.quadForm (fun i j => (m1 c).sum * p1 c i j + (m2 c).sum * p2 c i j) x
        rw [hq c x]
        exact add_pos (mul_pos (h1.mob c) (h1.posdef c x hx)) (mul_pos (h2.mob c) (h2.posdef c x hx))
      mob := fun c => by change (0 : K) < ([1] : List K).sum; simp
      basis := h.basis
      sort := h.sort
      solver := h.solver
      gravity := h.gravity }
  have hcond : ∀ c, cond J c = fun i j => (m1 c).sum * p1 c i j + (m2 c).sum * p2 c i j := fun c => by
    funext i j
    change ([1] : List K).sum * _ = _
    simp
    rfl
  have key := form_mono (I := J) hJ ht I.perm I.mob I.rho (fun c x => by
    rw [hcond c, hq c x]
    refine (hc c x).trans (le_of_eq ?_)
    unfold Mimetic.quadForm cond
    rw [Finset.mul_sum]
    refine Finset.sum_congr rfl fun i _ => ?_
    rw [Finset.mul_sum]
    exact Finset.sum_congr rfl fun j _ => by ring) a
  refine le_trans (le_of_eq ?_) key
  let B1 : (c : Fin I.G.nc) → Fin (I.G.cell c).nf → Fin (I.G.cell c).nf → K := ipOf (withRock I p1 m1 r1)
  let B2 : (c : Fin I.G.nc) → Fin (I.G.cell c).nf → Fin (I.G.cell c).nf → K := ipOf (withRock I p2 m2 r2)
  let B : (c : Fin I.G.nc) → Fin (I.G.cell c).nf → Fin (I.G.cell c).nf → K := ipOf J
  change Energy.form B1 a a + Energy.form B2 a a = Energy.form B a a
  rw [Energy.form_quad, Energy.form_quad, Energy.form_quad, ← Finset.sum_add_distrib]
  refine Finset.sum_congr rfl fun c _ => ?_
  have e : ∀ i j, B c i j = B1 c i j + B2 c i j := by
    intro i j
    rw [show B c i j = Mimetic.inner (I.G.geo c) (I.Q c) (cond J c) i j from ipOf_cond J c i j,
      show B1 c i j = Mimetic.inner (I.G.geo c) (I.Q c) (fun k l => (m1 c).sum * p1 c k l) i j from ipOf_cond (withRock I p1 m1 r1) c i j,
      show B2 c i j = Mimetic.inner (I.G.geo c) (I.Q c) (fun k l => (m2 c).sum * p2 c k l) i j from ipOf_cond (withRock I p2 m2 r2) c i j, hcond c]
    exact inner_add _ _ _ _ i j
  unfold Mimetic.quadForm
  rw [← Finset.sum_add_distrib]
  refine Finset.sum_congr rfl fun i _ => ?_
  rw [← Finset.sum_add_distrib]
  exact Finset.sum_congr rfl fun j _ => by rw [e]; ring

/-- C92 (parts): if the conductivities of two samples do not add up to more than those of a third in any cell, nor do the upscaled ones. -/
theorem C92_parts_fixed (h : Sound I) (ht : Tiling I.G) (hb : FillsBox I.G lo hi side) (hs : Suited I lo hi side) (hbc : I.bct = .fixed)
    (h1 : Sound (withRock I p1 m1 r1)) (h2 : Sound (withRock I p2 m2 r2))
    (hc : ∀ c x, (m1 c).sum * Mimetic.quadForm (p1 c) x + (m2 c).sum * Mimetic.quadForm (p2 c) x ≤ Mimetic.quadForm (cond I c) x) :
    ∃ T T1 T2, (∀ b, upscaleEffectivePerm I b = some T) ∧ (∀ b, upscaleEffectivePerm (withRock I p1 m1 r1) b = some T1) ∧
      (∀ b, upscaleEffectivePerm (withRock I p2 m2 r2) b = some T2) ∧ ∀ d, T1 d d + T2 d d ≤ T d d := by
  obtain ⟨T, hT, _, hE⟩ := fixed_run h ht hb hs hbc
  obtain ⟨T1, hT1, _, hE1⟩ := fixed_run (I := withRock I p1 m1 r1) h1 ht hb hs hbc
  obtain ⟨T2, hT2, _, hE2⟩ := fixed_run (I := withRock I p2 m2 r2) h2 ht hb hs hbc
  refine ⟨T, T1, T2, hT, hT1, hT2, fun d => ?_⟩
  obtain ⟨c, z, f, e⟩ := hE d
  obtain ⟨c1, z1, f1, e1⟩ := hE1 d
  obtain ⟨c2, z2, f2, e2⟩ := hE2 d
  refine le_of_mul_le_mul_right ?_ (vol_pos ht hb)
  rw [add_mul]
  change T1 d d * vol (withRock I p1 m1 r1) + T2 d d * vol (withRock I p2 m2 r2) ≤ _
  rw [e, e1, e2, ← add_mul]
  refine mul_le_mul_of_nonneg_right ?_ (sq_nonneg _)
  exact (add_le_add (fixed_min (I := withRock I p1 m1 r1) h1 ht hb f1 c z f.interior (fixed_ends f).1 (fixed_ends f).2)
    (fixed_min (I := withRock I p2 m2 r2) h2 ht hb f2 c z f.interior (fixed_ends f).1 (fixed_ends f).2)).trans (form_parts h ht h1 h2 hc _)

/-- The periodic solution has the least energy among the fields of other conductivities. -/
theorem periodic_least (h : Sound I) (ht : Tiling I.G) (hb : FillsBox I.G lo hi side) (hs : Suited I lo hi side) (hbc : I.bct = .periodic)
    {p m r} {T : Fin 3 → Fin 3 → K} (hT : ∀ b, upscaleEffectivePerm I b = some T)
    (a' : Fin 3 → Half I.G → K) (ha' : ∀ d, ∃ c z, FlowSol (withRock I p m r) (pmate I.G side) (periodicCnd I.G side d) c z ∧ a' d = Energy.drop c z) (x : Fin 3 → K) :
    Mimetic.quadForm T x * vol I ≤ Energy.form (ipOf I) (fun p => ∑ d, (x d * (hi d - lo d)) * a' d p) (fun p => ∑ d, (x d * (hi d - lo d)) * a' d p) := by
  obtain ⟨hf, hm, U, hU, a, ha, hE⟩ := periodic_run h ht hb hs hbc
  have b0 : Boundary.BCs K := ⟨⟨[], []⟩, [], []⟩
  obtain rfl : T = U := Option.some.inj ((hT b0).symm.trans (hU b0))
  have hpsd := fun c => Energy.posSemi_of_posDef (ip_posdef h ht c)
  let ax : Half I.G → K := fun p => ∑ d, (x d * (hi d - lo d)) * a d p
  let ax' : Half I.G → K := fun p => ∑ d, (x d * (hi d - lo d)) * a' d p
  have q1 : Energy.form (ipOf I) ax ax = Mimetic.quadForm T x * vol I := by
    rw [form_six _ (ip_symm h), Mimetic.quadForm, Finset.sum_mul]
    refine Finset.sum_congr rfl fun i _ => ?_
    rw [Finset.sum_mul]
    exact Finset.sum_congr rfl fun d _ => by linear_combination x i * x d * hE i d
  have q3 : Energy.form (ipOf I) ax' ax = Energy.form (ipOf I) ax ax := by
    refine (form_six (I := I) _ (ip_symm h) _ _ a' a).trans ?_
    refine Eq.trans ?_ (form_six (I := I) _ (ip_symm h) _ _ a a).symm
    refine Finset.sum_congr rfl fun i _ => Finset.sum_congr rfl fun d _ => ?_
    congr 1
    obtain ⟨c, z, f, e⟩ := ha i
    obtain ⟨c', z', f', e'⟩ := ha' i
    obtain ⟨c2, z2, f2, e2⟩ := ha d
    unfold Energy.form
    rw [e, e', e2, periodic_work ht hb hf hm f _ f2.balanced f2.skew]
    exact periodic_work (I := withRock I p m r) ht hb hf hm f' _ f2.balanced f2.skew
  rw [← q1]
  exact Energy.energy_min (ipOf I) (ip_symm h) hpsd _ _ q3

/-- C92 (parts), periodic conditions. -/
theorem C92_parts_periodic (h : Sound I) (ht : Tiling I.G) (hb : FillsBox I.G lo hi side) (hs : Suited I lo hi side) (hbc : I.bct = .periodic)
    (h1 : Sound (withRock I p1 m1 r1)) (h2 : Sound (withRock I p2 m2 r2))
    (hc : ∀ c x, (m1 c).sum * Mimetic.quadForm (p1 c) x + (m2 c).sum * Mimetic.quadForm (p2 c) x ≤ Mimetic.quadForm (cond I c) x) :
    ∃ T T1 T2, (∀ b, upscaleEffectivePerm I b = some T) ∧ (∀ b, upscaleEffectivePerm (withRock I p1 m1 r1) b = some T1) ∧
      (∀ b, upscaleEffectivePerm (withRock I p2 m2 r2) b = some T2) ∧ ∀ x, Mimetic.quadForm T1 x + Mimetic.quadForm T2 x ≤ Mimetic.quadForm T x := by
  obtain ⟨-, -, T, hT, a, ha, hE⟩ := periodic_run h ht hb hs hbc
  obtain ⟨-, -, T1, hT1, -⟩ := periodic_run (I := withRock I p1 m1 r1) h1 ht hb hs hbc
  obtain ⟨-, -, T2, hT2, -⟩ := periodic_run (I := withRock I p2 m2 r2) h2 ht hb hs hbc
  refine ⟨T, T1, T2, hT, hT1, hT2, fun x => ?_⟩
  have l1 := periodic_least (I := withRock I p1 m1 r1) (p := I.perm) (m := I.mob) (r := I.rho) h1 ht hb hs hbc hT1 a ha x
  have l2 := periodic_least (I := withRock I p2 m2 r2) (p := I.perm) (m := I.mob) (r := I.rho) h2 ht hb hs hbc hT2 a ha x
  have q : Energy.form (ipOf I) (fun p => ∑ d, (x d * (hi d - lo d)) * a d p) (fun p => ∑ d, (x d * (hi d - lo d)) * a d p) = Mimetic.quadForm T x * vol I := by
    rw [form_six _ (ip_symm h), Mimetic.quadForm, Finset.sum_mul]
    refine Finset.sum_congr rfl fun i _ => ?_
    rw [Finset.sum_mul]
    exact Finset.sum_congr rfl fun d _ => by linear_combination x i * x d * hE i d
  refine le_of_mul_le_mul_right ?_ (vol_pos ht hb)
  rw [add_mul, ← q]
  exact (add_le_add l1 l2).trans (form_parts h ht h1 h2 hc _)

end parts

/-- Two fluids with mobilities 1/2 and 1 or 1/3, out of 3/2: the parts add up to at most the whole. -/
example : ∃ T T1 T2, (∀ b, upscaleEffectivePerm (exInput .fixed 0 exPerm) b = some T) ∧
    (∀ b, upscaleEffectivePerm (withRock (exInput .fixed 0 exPerm) exPerm (fun _ => [1 / 2]) fun _ => [1]) b = some T1) ∧
    (∀ b, upscaleEffectivePerm (withRock (exInput .fixed 0 exPerm) exPerm (fun c : Fin 2 => [if c = 0 then 1 else 1 / 3]) fun _ => [1]) b = some T2) ∧ ∀ d, T1 d d + T2 d d ≤ T d d := by
  have hr := ex_regular .fixed 0 exPerm exPerm_symm exPerm_posdef
  have hs : ∀ m : Fin 2 → ℚ, (∀ c, 0 < m c) → Sound (withRock (exInput .fixed 0 exPerm) exPerm (fun c => [m c]) fun _ => [1]) := fun m hm =>
    { symm := exPerm_symm, posdef := exPerm_posdef, basis := hr.basis, sort := hr.sort, solver := hr.solver, gravity := rfl
      mob := fun c => by change 0 < [m c].sum; rw [List.sum_singleton]; exact hm c }
  refine C92_parts_fixed (ex_sound .fixed) (ex_tiling _) (ex_box _) (ex_suited _ _ _) rfl (hs _ fun c => by norm_num)
    (hs (fun c : Fin 2 => if c = 0 then 1 else 1 / 3) fun c => by split <;> norm_num) fun c x => ?_
  have hp := Energy.posSemi_of_posDef (exPerm_posdef c) x
  have e : Mimetic.quadForm (cond (exInput .fixed 0 exPerm) c) x = (3 / 2) * Mimetic.quadForm (exPerm c) x := by
    have : cond (exInput .fixed 0 exPerm) c = fun i j => (3 / 2) * exPerm c i j := by
      funext i j
      change [1 / 2, 1].sum * exPerm c i j = _
      norm_num
    rw [this]
    unfold Mimetic.quadForm
    rw [Finset.mul_sum]
    refine Finset.sum_congr rfl fun i _ => ?_
    rw [Finset.mul_sum]
    exact Finset.sum_congr rfl fun j _ => by ring
  rw [e, List.sum_singleton, List.sum_singleton, ← add_mul]
  refine mul_le_mul_of_nonneg_right ?_ hp
  split <;> norm_num

end Verif.SinglePhase
