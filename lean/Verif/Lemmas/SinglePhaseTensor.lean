import Verif.Lemmas.SinglePhaseEnergy

/-! The upscaled tensor in terms of energies. -/

namespace Verif.SinglePhase

variable {K : Type} [Field K] [LinearOrder K] [IsStrictOrderedRing K]

/-- Velocity components do not depend on which solution is taken, and scale with the conductivities. -/
theorem sol_scale {I : Input K} (h : Regular I) (ht : Tiling I.G) {mate : Half I.G → Half I.G}
    {cnd : Half I.G → Boundary.BC K} (hk : Kind I.G mate cnd)
    (B' : (c : Fin I.G.nc) → Fin (I.G.cell c).nf → Fin (I.G.cell c).nf → K) (s : K) (hs : s ≠ 0)
    (hB : ∀ c i j, B' c i j = s * ipOf I c i j) {c c' : Fin I.G.nc → K} {z z' : Half I.G → K} (hc : FlowSol I mate cnd c z)
    (balanced : Energy.Balanced (Energy.fluxOf B' (Energy.drop c' z')))
    (skew : Energy.Skew mate (Energy.fluxOf B' (Energy.drop c' z')))
    (interior : ∀ p, (I.G.face p).nbr ≠ none → z' p = z' (mate p))
    (dirichlet : ∀ p, (I.G.face p).nbr = none → (cnd p).type = .dirichlet → z' p = (cnd p).value)
    (neumann : ∀ p, (I.G.face p).nbr = none → (cnd p).type = .neumann →
      Energy.fluxOf B' (Energy.drop c' z') p = (cnd p).value)
    (periodic : ∀ p, (I.G.face p).nbr = none → (cnd p).type = .periodic → z' p - z' (mate p) = (cnd p).value)
    (p : Half I.G) : Energy.fluxOf B' (Energy.drop c' z') p = s * Energy.fluxOf (ipOf I) (Energy.drop c z) p := by
  have e : ∀ p, Energy.fluxOf B' (Energy.drop c' z') p = s * Energy.fluxOf (ipOf I) (Energy.drop c' z') p := by
    intro p
    unfold Energy.fluxOf
    rw [Finset.mul_sum]
    exact Finset.sum_congr rfl fun j _ => by rw [hB]; ring
  rw [e]
  congr 1
  symm
  refine Energy.flux_unique (ipOf I) (ip_posdef h ht) mate ((setting_of hk fun _ => 0).invol ht) c c' z z' hc.balanced ?_
    hc.skew ?_ ?_ ?_ p
  · intro i
    have := balanced i
    simp only [e] at this
    rw [← Finset.mul_sum] at this
    exact (mul_eq_zero.mp this).resolve_left hs
  · intro q hq
    have := skew q hq
    rw [e, e] at this
    exact mul_left_cancel₀ hs (by rw [this]; ring)
  · intro q hq
    by_cases hb : (I.G.face q).nbr = none
    · rcases hk.boundary q hb with ⟨h1, _⟩ | ⟨h1, h2, _⟩ | ⟨_, _, _, h1, _⟩
      · left; rw [hc.dirichlet q hb h1, dirichlet q hb h1]
      · right
        have := neumann q hb h1
        rw [h2, e] at this
        rw [hc.neumann q hb h1, h2]
        exact ((mul_eq_zero.mp this).resolve_left hs).symm
      · exact absurd hq h1
    · have := hk.interior q hb
      rw [hq] at this
      exact absurd this.symm ((twin_ne_iff ht q).mpr hb)
  · intro q hq
    by_cases hb : (I.G.face q).nbr = none
    · rcases hk.boundary q hb with ⟨_, h1⟩ | ⟨_, _, h1⟩ | ⟨h1, _⟩
      · exact absurd h1 hq
      · exact absurd h1 hq
      · rw [hc.periodic q hb h1, periodic q hb h1]
    · rw [← hc.interior q hb, ← interior q hb, sub_self, sub_self]

theorem sol_unique {I : Input K} (h : Regular I) (ht : Tiling I.G) {mate : Half I.G → Half I.G}
    {cnd : Half I.G → Boundary.BC K} (hk : Kind I.G mate cnd) {c c' : Fin I.G.nc → K} {z z' : Half I.G → K}
    (hc : FlowSol I mate cnd c z) (hc' : FlowSol I mate cnd c' z') :
    Energy.fluxOf (ipOf I) (Energy.drop c' z') = Energy.fluxOf (ipOf I) (Energy.drop c z) := by
  funext p
  rw [sol_scale h ht hk (ipOf I) 1 one_ne_zero (fun _ _ _ => (one_mul _).symm) hc hc'.balanced hc'.skew hc'.interior
    hc'.dirichlet hc'.neumann hc'.periodic, one_mul]

/-- The result does not depend on the conditions left by an earlier call. -/
theorem run_unique {I : Input K} (h : Sound I) (ht : Tiling I.G) {lo hi : Fin 3 → K} {side : Boundary.Face K → Nat}
    (hb : FillsBox I.G lo hi side) {mate : Half I.G → Half I.G} (cnd : Fin 3 → Half I.G → Boundary.BC K)
    (hk : ∀ d, Kind I.G mate (cnd d)) (hper : ∀ d p, (cnd d p).type = .periodic → (cnd 0 p).type = .periodic)
    (hset : ∀ d b, ∃ r, setup I d b = some r ∧ Holds I.G side mate (cnd d) r) :
    ∃ T, (∀ b, upscaleEffectivePerm I b = some T) ∧ ∀ d, ∃ c z, FlowSol I mate (cnd d) c z ∧
      ∀ i, T i d = (if I.bct = .fixed ∧ i ≠ d then 0 else
          avgVel I.G side (Energy.fluxOf (ipOf I) (Energy.drop c z)) i) * (hi d - lo d) := by
  obtain ⟨T, _, hT⟩ := run_ok h ht hb cnd hk hper hset ⟨⟨[], []⟩, [], []⟩
  refine ⟨T, fun b => ?_, hT⟩
  obtain ⟨T', h', hT'⟩ := run_ok h ht hb cnd hk hper hset b
  rw [h']
  congr 1
  funext i d
  obtain ⟨c, z, f, e⟩ := hT d
  obtain ⟨c', z', f', e'⟩ := hT' d
  rw [e, e', sol_unique h ht (hk d) f f']

/-- Conditions and opposite faces of the three types. -/
noncomputable def cndOf (I : Input K) (lo hi : Fin 3 → K) (side : Boundary.Face K → Nat) (d : Fin 3) :
    Half I.G → Boundary.BC K :=
  match I.bct with
  | .fixed => fixedCnd I.G side d
  | .linear => linearCnd I.G lo hi d
  | .periodic => periodicCnd I.G side d

noncomputable def mateOf (I : Input K) (side : Boundary.Face K → Nat) : Half I.G → Half I.G :=
  match I.bct with
  | .fixed => twin I.G
  | .linear => twin I.G
  | .periodic => pmate I.G side

theorem suited_kind {I : Input K} {lo hi : Fin 3 → K} {side : Boundary.Face K → Nat} (hb : FillsBox I.G lo hi side)
    (hs : Suited I lo hi side) (d : Fin 3) : Kind I.G (mateOf I side) (cndOf I lo hi side d) := by
  unfold Suited at hs
  unfold mateOf cndOf
  cases hbc : I.bct with
  | fixed => exact fixed_kind _ _ _
  | linear => exact linear_kind _ _ _ _
  | periodic => rw [hbc] at hs; exact periodic_kind hb hs.1 hs.2.1 d

theorem suited_per {I : Input K} {lo hi : Fin 3 → K} {side : Boundary.Face K → Nat} (d : Fin 3) (p : Half I.G)
    (hp : (cndOf I lo hi side d p).type = .periodic) : (cndOf I lo hi side 0 p).type = .periodic := by
  unfold cndOf at hp ⊢
  cases hbc : I.bct with
  | fixed =>
    rw [hbc] at hp
    simp only [fixedCnd] at hp
    split at hp
    · cases hp
    · split at hp <;> cases hp
  | linear => rw [hbc] at hp; cases hp
  | periodic => rfl

theorem suited_set {I : Input K} (h : Regular I) (ht : Tiling I.G) {lo hi : Fin 3 → K} {side : Boundary.Face K → Nat}
    (hb : FillsBox I.G lo hi side) (hs : Suited I lo hi side) (d : Fin 3) (b : Boundary.BCs K) :
    ∃ r, setup I d b = some r ∧ Holds I.G side (mateOf I side) (cndOf I lo hi side d) r := by
  unfold Suited at hs
  unfold mateOf cndOf
  cases hbc : I.bct with
  | fixed => rw [hbc] at hs; exact fixed_setup hb hbc hs d b
  | linear => rw [hbc] at hs; exact linear_setup hb hbc hs.1 hs.2 d b
  | periodic => rw [hbc] at hs; exact periodic_setup h ht hb hbc hs.1 hs.2.1 hs.2.2 d b


theorem suited_run {I : Input K} (h : Sound I) (ht : Tiling I.G) {lo hi : Fin 3 → K} {side : Boundary.Face K → Nat}
    (hb : FillsBox I.G lo hi side) (hs : Suited I lo hi side) :
    ∃ T, (∀ b, upscaleEffectivePerm I b = some T) ∧ ∀ d, ∃ c z, FlowSol I (mateOf I side) (cndOf I lo hi side d) c z ∧
      ∀ i, T i d = (if I.bct = .fixed ∧ i ≠ d then 0 else
          avgVel I.G side (Energy.fluxOf (ipOf I) (Energy.drop c z)) i) * (hi d - lo d) :=
  run_unique h ht hb _ (suited_kind hb hs) suited_per (suited_set h ht hb hs)

/-! ### Fixed boundary conditions -/

theorem vol_pos {I : Input K} (ht : Tiling I.G) {lo hi : Fin 3 → K} {side : Boundary.Face K → Nat}
    (hb : FillsBox I.G lo hi side) : 0 < vol I := by
  obtain ⟨p, _, _⟩ := hb.ne 0 (by omega)
  unfold vol
  exact Finset.sum_pos (fun c _ => ht.volume c) ⟨p.1, Finset.mem_univ _⟩

section fixed
variable {I : Input K} {lo hi : Fin 3 → K} {side : Boundary.Face K → Nat} {d : Fin 3} {c : Fin I.G.nc → K} {z : Half I.G → K}

/-- Work of the flux of the solution against a field with the right values at inlet and outlet. -/
theorem fixed_work (ht : Tiling I.G) (hb : FillsBox I.G lo hi side)
    (hs : FlowSol I (twin I.G) (fixedCnd I.G side d) c z) (c' : Fin I.G.nc → K) (z' : Half I.G → K)
    (hz : ∀ p, (I.G.face p).nbr ≠ none → z' p = z' (twin I.G p))
    (hlo : ∀ p, (I.G.face p).nbr = none → side (I.G.bface p) = 2 * d.val → z' p = 1)
    (hhi : ∀ p, (I.G.face p).nbr = none → side (I.G.bface p) = 2 * d.val + 1 → z' p = 0) :
    Energy.form (ipOf I) (Energy.drop c' z') (Energy.drop c z) =
      avgVel I.G side (Energy.fluxOf (ipOf I) (Energy.drop c z)) d * sideArea I.G side (2 * d.val) := by
  set w := Energy.fluxOf (ipOf I) (Energy.drop c z) with hw
  have h0 : ∀ p, (I.G.face p).nbr = none → side (I.G.bface p) ≠ 2 * d.val → side (I.G.bface p) ≠ 2 * d.val + 1 → w p = 0 := by
    intro p hp h1 h2
    have e : fixedCnd I.G side d p = ⟨.neumann, 0⟩ := by unfold fixedCnd; rw [if_neg h1, if_neg h2]
    have := hs.neumann p hp (by rw [e])
    rw [e] at this
    exact this
  have h1 := work_boundary ht c' z' w hz hs.balanced hs.skew
  have e1 : (∑ p, if (I.G.face p).nbr = none then z' p * w p else 0) = sideSum I.G side w (2 * d.val) := by
    unfold sideSum
    refine Finset.sum_congr rfl fun p _ => ?_
    by_cases hp : (I.G.face p).nbr = none
    · by_cases s1 : side (I.G.bface p) = 2 * d.val
      · rw [if_pos hp, if_pos ⟨hp, s1⟩, hlo p hp s1, one_mul]
      · rw [if_pos hp, if_neg fun e => s1 e.2]
        by_cases s2 : side (I.G.bface p) = 2 * d.val + 1
        · rw [hhi p hp s2, zero_mul]
        · rw [h0 p hp s1 s2, mul_zero]
    · rw [if_neg hp, if_neg fun e => hp e.1]
  have e2 : sideSum I.G side w (2 * d.val) + sideSum I.G side w (2 * d.val + 1) = 0 := by
    rw [← net_zero ht w hs.balanced hs.skew]
    unfold sideSum
    rw [← Finset.sum_add_distrib]
    refine Finset.sum_congr rfl fun p _ => ?_
    by_cases hp : (I.G.face p).nbr = none
    · rw [if_pos hp]
      by_cases s1 : side (I.G.bface p) = 2 * d.val
      · rw [if_pos ⟨hp, s1⟩, if_neg (fun e => by have := e.2; omega), add_zero]
      · by_cases s2 : side (I.G.bface p) = 2 * d.val + 1
        · rw [if_neg (fun e => s1 e.2), if_pos ⟨hp, s2⟩, zero_add]
        · rw [if_neg (fun e => s1 e.2), if_neg (fun e => s2 e.2), h0 p hp s1 s2, add_zero]
    · rw [if_neg hp, if_neg (fun e => hp e.1), if_neg (fun e => hp e.1), add_zero]
  rw [avgVel_eq ht hb]
  unfold Energy.form
  rw [h1, e1]
  linear_combination (-1 / 2) * e2

theorem fixed_ends (hs : FlowSol I (twin I.G) (fixedCnd I.G side d) c z) :
    (∀ p, (I.G.face p).nbr = none → side (I.G.bface p) = 2 * d.val → z p = 1) ∧
    (∀ p, (I.G.face p).nbr = none → side (I.G.bface p) = 2 * d.val + 1 → z p = 0) := by
  refine ⟨fun p hp h => ?_, fun p hp h => ?_⟩
  · have e : fixedCnd I.G side d p = ⟨.dirichlet, 1⟩ := by unfold fixedCnd; rw [if_pos h]
    rw [hs.dirichlet p hp (by rw [e]), e]
  · have e : fixedCnd I.G side d p = ⟨.dirichlet, 0⟩ := by unfold fixedCnd; rw [if_neg (by omega), if_pos h]
    rw [hs.dirichlet p hp (by rw [e]), e]

/-- Energy of the solution. -/
theorem fixed_energy (ht : Tiling I.G) (hb : FillsBox I.G lo hi side)
    (hs : FlowSol I (twin I.G) (fixedCnd I.G side d) c z) :
    avgVel I.G side (Energy.fluxOf (ipOf I) (Energy.drop c z)) d * (hi d - lo d) * vol I =
      Energy.form (ipOf I) (Energy.drop c z) (Energy.drop c z) * (hi d - lo d) ^ 2 := by
  rw [fixed_work ht hb hs c z hs.interior (fixed_ends hs).1 (fixed_ends hs).2, show vol I = _ from volume_eq ht hb d]
  ring

/-- The solution has the least energy. -/
theorem fixed_min (h : Sound I) (ht : Tiling I.G) (hb : FillsBox I.G lo hi side)
    (hs : FlowSol I (twin I.G) (fixedCnd I.G side d) c z) (c' : Fin I.G.nc → K) (z' : Half I.G → K)
    (hz : ∀ p, (I.G.face p).nbr ≠ none → z' p = z' (twin I.G p))
    (hlo : ∀ p, (I.G.face p).nbr = none → side (I.G.bface p) = 2 * d.val → z' p = 1)
    (hhi : ∀ p, (I.G.face p).nbr = none → side (I.G.bface p) = 2 * d.val + 1 → z' p = 0) :
    Energy.form (ipOf I) (Energy.drop c z) (Energy.drop c z) ≤
      Energy.form (ipOf I) (Energy.drop c' z') (Energy.drop c' z') := by
  refine Energy.energy_min (ipOf I) (ip_symm h) (fun c => Energy.posSemi_of_posDef (ip_posdef h ht c)) _ _ ?_
  rw [fixed_work ht hb hs c' z' hz hlo hhi, fixed_work ht hb hs c z hs.interior (fixed_ends hs).1 (fixed_ends hs).2]

/-- The linear field from one to zero in direction `d`. -/
def grad (lo hi : Fin 3 → K) (d k : Fin 3) : K := if k = d then -1 / (hi d - lo d) else 0

theorem lin_value (G : Grid K) (lo hi : Fin 3 → K) (hl : lo d < hi d) (p : Half G) :
    linFace G (hi d / (hi d - lo d)) (grad lo hi d) p = (hi d - (G.face p).centroid d) / (hi d - lo d) := by
  unfold linFace grad
  rw [Finset.sum_eq_single d (fun k _ hk => by rw [if_neg hk, zero_mul]) (by simp), if_pos rfl]
  have : hi d - lo d ≠ 0 := (sub_pos.mpr hl).ne'
  field_simp
  ring

theorem lin_ends (hb : FillsBox I.G lo hi side) :
    (∀ p, (I.G.face p).nbr = none → side (I.G.bface p) = 2 * d.val →
      linFace I.G (hi d / (hi d - lo d)) (grad lo hi d) p = 1) ∧
    (∀ p, (I.G.face p).nbr = none → side (I.G.bface p) = 2 * d.val + 1 →
      linFace I.G (hi d / (hi d - lo d)) (grad lo hi d) p = 0) := by
  have hl := hb.lt d
  have : hi d - lo d ≠ 0 := (sub_pos.mpr hl).ne'
  refine ⟨fun p hp h => ?_, fun p hp h => ?_⟩
  · rw [lin_value _ lo hi hl, (low_face hb p hp d h).1, div_self this]
  · rw [lin_value _ lo hi hl, (high_face hb p hp d h).1, sub_self, zero_div]

/-- Work of the pressures of the solution against a uniform flux in direction `d`. -/
theorem fixed_uflow (ht : Tiling I.G) (hb : FillsBox I.G lo hi side)
    (hs : FlowSol I (twin I.G) (fixedCnd I.G side d) c z) (e : Fin 3 → K) (he : ∀ k, k ≠ d → e k = 0) :
    ∑ p : Half I.G, Energy.drop c z p * uflow I.G e p = -(e d * sideArea I.G side (2 * d.val)) := by
  rw [work_boundary ht c z _ hs.interior (uflow_balanced ht e) (uflow_skew ht e)]
  congr 1
  rw [← sideSum_low hb e d]
  unfold sideSum
  refine Finset.sum_congr rfl fun p _ => ?_
  by_cases hp : (I.G.face p).nbr = none
  · rw [if_pos hp]
    obtain ⟨k, h1⟩ := some_side hb p hp
    by_cases hk : k = d
    · subst hk
      rcases h1 with h1 | h1
      · rw [(fixed_ends hs).1 p hp h1, if_pos ⟨hp, h1⟩, one_mul]
      · rw [(fixed_ends hs).2 p hp h1, if_neg (fun e => by have := e.2; omega), zero_mul]
    · have hkv : k.val ≠ d.val := fun e => hk (Fin.ext e)
      have : uflow I.G e p = 0 := by
        rcases h1 with h1 | h1
        · rw [uflow_low hb e p hp k h1, he k hk, zero_mul]
        · rw [uflow_high hb e p hp k h1, he k hk, zero_mul, neg_zero]
      rw [this, mul_zero, if_neg (fun e => by have := e.2; omega)]
  · rw [if_neg hp, if_neg (fun e => hp e.1)]

theorem fixed_pos (h : Sound I) (ht : Tiling I.G) (hb : FillsBox I.G lo hi side)
    (hs : FlowSol I (twin I.G) (fixedCnd I.G side d) c z) :
    0 < Energy.form (ipOf I) (Energy.drop c z) (Energy.drop c z) := by
  have hd := d.2
  refine lt_of_le_of_ne (Energy.form_nonneg _ (fun c => Energy.posSemi_of_posDef (ip_posdef h ht c)) _) fun e => ?_
  have hz := Energy.form_zero (ipOf I) (ip_posdef h ht) _ e.symm
  have := fixed_uflow ht hb hs (fun k => if k = d then 1 else 0) (fun k hk => if_neg hk)
  simp only [hz, zero_mul, Finset.sum_const_zero, if_true, one_mul] at this
  have := sideArea_pos ht hb (2 * d.val) (by omega)
  linarith

end fixed

/-! ### Periodic boundary conditions -/

section periodic
variable {I : Input K} {lo hi : Fin 3 → K} {side : Boundary.Face K → Nat} {d : Fin 3}
  {c : Fin I.G.nc → K} {z : Half I.G → K}

/-- Jump one in direction `d`. -/
theorem periodic_jump (hb : FillsBox I.G lo hi side) (hs : FlowSol I (pmate I.G side) (periodicCnd I.G side d) c z)
    (p : Half I.G) (hp : (I.G.face p).nbr = none) (e : Fin 3) :
    (side (I.G.bface p) = 2 * e.val → z p - z (pmate I.G side p) = if e = d then 1 else 0) ∧
      (side (I.G.bface p) = 2 * e.val + 1 → z p - z (pmate I.G side p) = -if e = d then 1 else 0) := by
  have h := hs.periodic p hp rfl
  refine ⟨fun hsd => ?_, fun hsd => ?_⟩
  · rw [h]
    unfold periodicCnd
    dsimp only
    by_cases hed : e = d
    · subst hed; rw [if_pos hsd, if_pos rfl]
    · have : e.val ≠ d.val := fun h => hed (Fin.ext h)
      rw [if_neg (by omega), if_neg (by omega), if_neg hed]
  · rw [h]
    unfold periodicCnd
    dsimp only
    by_cases hed : e = d
    · subst hed; rw [if_neg (by omega), if_pos hsd, if_pos rfl]
    · have : e.val ≠ d.val := fun h => hed (Fin.ext h)
      rw [if_neg (by omega), if_neg (by omega), if_neg hed, neg_zero]

theorem periodic_work (ht : Tiling I.G) (hb : FillsBox I.G lo hi side) (hf : FaceIds I.G lo hi side)
    (hm : Matching I.G side) (hs : FlowSol I (pmate I.G side) (periodicCnd I.G side d) c z)
    (w : Half I.G → K) (hbal : Energy.Balanced (nf := fun c => (I.G.cell c).nf) w)
    (hk : Energy.Skew (nf := fun c => (I.G.cell c).nf) (pmate I.G side) w) :
    ∑ p : Half I.G, Energy.drop c z p * w p = avgVel I.G side w d * sideArea I.G side (2 * d.val) := by
  rw [work_periodic ht hb (pmate_invol ht hb hf hm) (pmate_ne ht hm) c z w (fun e => if e = d then 1 else 0) hs.interior
    (fun p hp e => periodic_jump hb hs p hp e) hbal hk,
    Finset.sum_eq_single d (fun k _ hk => by rw [if_neg hk, zero_mul]) (by simp), if_pos rfl, one_mul]

end periodic
end Verif.SinglePhase
