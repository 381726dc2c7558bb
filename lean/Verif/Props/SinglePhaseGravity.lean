import Verif.Props.SinglePhase

/-! C93: gravity and the upscaled tensor. -/

namespace Verif.SinglePhase

variable {K : Type} [Field K] [LinearOrder K] [IsStrictOrderedRing K]
variable {I : Input K} {lo hi : Fin 3 → K} {side : Boundary.Face K → Nat}

/-- Gradient of the hydrostatic pressure, with the sign that turns pressures into potentials. -/
def hyd (I : Input K) (ω : K) (k : Fin 3) : K := if k = 2 then -(ω * I.gravity) else 0

theorem foldl_zip (a b : List K) (s : K) :
    (a.zip b).foldl (fun x p => x + p.1 * p.2) s = s + (List.zipWith (· * ·) a b).sum := by
  induction a generalizing b s with
  | nil => simp
  | cons x a ih =>
    cases b with
    | nil => simp
    | cons y b =>
      rw [List.zip_cons_cons, List.foldl_cons, ih, List.zipWith_cons_cons, List.sum_cons]
      ring

theorem gpart_eq (h : Regular I) (ht : Tiling I.G) {ω : K} (hω : Density I ω) (p : Half I.G) :
    gpart I p = Energy.fluxOf (ipOf I) (gfield I fun _ => hyd I ω) p := by
  have e1 : Mimetic.mobDens (I.rho p.1) (I.mob p.1) = ω * (I.mob p.1).sum := by
    rw [← hω p.1]
    unfold Mimetic.mobDens
    rw [foldl_zip]
    exact zero_add _
  rw [flux_gfield h ht]
  unfold gpart Mimetic.gravityFlux Mimetic.gflux uflow hyd cond
  rw [e1]
  have e2 : ∀ k, ∑ l, (I.mob p.1).sum * I.perm p.1 k l * (if l = 2 then -(ω * I.gravity) else 0) =
      -(ω * (I.mob p.1).sum) * ∑ l, I.perm p.1 k l * (![0, 0, I.gravity] : Fin 3 → K) l := by
    intro k
    simp [Fin.sum_univ_three]
    ring
  simp only [e2]
  rw [Finset.sum_mul, Finset.mul_sum, ← Finset.sum_neg_distrib]
  refine Finset.sum_congr rfl fun k _ => ?_
  unfold Mimetic.nmat
  change (I.G.face p).normal k * (I.G.face p).area * _ * _ = _
  ring

/-- With uniform density the flux is that of the potential. -/
theorem hflux_pot (h : Regular I) (ht : Tiling I.G) {ω : K} (hω : Density I ω) (c : Fin I.G.nc → K) (z : Half I.G → K) :
    hflux I c z = Energy.fluxOf (ipOf I) (Energy.drop (fun i => c i + linCell I.G 0 (hyd I ω) i)
      fun p => z p + linFace I.G 0 (hyd I ω) p) := by
  funext p
  unfold hflux
  rw [gpart_eq h ht hω, ← lin_drop 0]
  unfold Energy.fluxOf Energy.drop
  rw [← Finset.sum_add_distrib]
  exact Finset.sum_congr rfl fun j _ => by ring

theorem linFace_hyd (I : Input K) (ω : K) (p : Half I.G) :
    linFace I.G 0 (hyd I ω) p = -(ω * I.gravity) * (I.G.face p).centroid 2 := by
  unfold linFace hyd
  simp

theorem flux_combine (B : (i : Fin I.G.nc) → Fin (I.G.cell i).nf → Fin (I.G.cell i).nf → K) (c c' : Fin I.G.nc → K)
    (z z' : Half I.G → K) (s t q : K) : Energy.fluxOf B (Energy.drop (fun i => s * c i + t * c' i + q)
      fun p : Half I.G => s * z p + t * z' p + q) =
      fun p => s * Energy.fluxOf B (Energy.drop c z) p + t * Energy.fluxOf B (Energy.drop c' z') p := by
  funext p
  unfold Energy.fluxOf Energy.drop
  rw [Finset.mul_sum, Finset.mul_sum, ← Finset.sum_add_distrib]
  exact Finset.sum_congr rfl fun j _ => by ring

theorem sideSum_add (G : Grid K) (side : Boundary.Face K → Nat) (f g : Half G → K) (s : Nat) :
    sideSum G side (fun p => f p + g p) s = sideSum G side f s + sideSum G side g s := by
  unfold sideSum
  rw [← Finset.sum_add_distrib]
  refine Finset.sum_congr rfl fun p _ => ?_
  split
  · rfl
  · rw [add_zero]

theorem avgVel_lin (G : Grid K) (side : Boundary.Face K → Nat) (v w : Half G → K) (s t : K) (d : Fin 3) :
    avgVel G side (fun p => s * v p + t * w p) d = s * avgVel G side v d + t * avgVel G side w d := by
  unfold avgVel
  simp only [sideSum_add, sideSum_mul]
  ring

/-- Flux with gravity as a combination of fluxes without. -/
theorem gravity_flux (h : Regular I) (ht : Tiling I.G) {mate : Half I.G → Half I.G} {cnd cnd1 cnd2 : Half I.G → Boundary.BC K}
    (hk : Kind I.G mate cnd) (hk1 : ∀ p, (cnd1 p).type = (cnd p).type) (hk2 : ∀ p, (cnd2 p).type = (cnd p).type)
    (hk1' : ∀ p, (cnd1 p).type = .neumann → (cnd1 p).value = 0) (hk2' : ∀ p, (cnd2 p).type = .neumann → (cnd2 p).value = 0)
    {ω : K} (hω : Density I ω) {c c1 c2 : Fin I.G.nc → K} {z z1 z2 : Half I.G → K} (s t q : K)
    (f : FlowSolG I mate cnd c z) (f1 : FlowSol I mate cnd1 c1 z1) (f2 : FlowSol I mate cnd2 c2 z2)
    (hdir : ∀ p, (I.G.face p).nbr = none → (cnd p).type = .dirichlet →
      (cnd p).value - ω * I.gravity * (I.G.face p).centroid 2 = s * (cnd1 p).value + t * (cnd2 p).value + q)
    (hper : ∀ p, (I.G.face p).nbr = none → (cnd p).type = .periodic →
      (cnd p).value - ω * I.gravity * ((I.G.face p).centroid 2 - (I.G.face (mate p)).centroid 2) =
        s * (cnd1 p).value + t * (cnd2 p).value) :
    hflux I c z = fun p => s * Energy.fluxOf (ipOf I) (Energy.drop c1 z1) p +
      t * Energy.fluxOf (ipOf I) (Energy.drop c2 z2) p := by
  have e := hflux_pot h ht hω c z
  have hcomb := flux_combine (ipOf I) c1 c2 z1 z2 s t q
  rw [e, ← hcomb]
  have b := f.balanced
  have k := f.skew
  have n := f.neumann
  rw [e] at b k n
  funext p
  refine Energy.flux_unique (ipOf I) (ip_posdef h ht) mate ((setting_of hk fun _ => 0).invol ht) _ _ _ _ b ?_ k ?_ ?_ ?_ p
  · rw [hcomb]
    intro i
    have h1 := f1.balanced i
    have h2 := f2.balanced i
    simp only
    rw [Finset.sum_add_distrib, ← Finset.mul_sum, ← Finset.mul_sum, h1, h2, mul_zero, mul_zero, add_zero]
  · rw [hcomb]
    intro p hp
    have h1 := f1.skew p hp
    have h2 := f2.skew p hp
    simp only
    rw [h1, h2]; ring
  · intro p hp
    by_cases hb : (I.G.face p).nbr = none
    · rcases hk.boundary p hb with ⟨h1, _⟩ | ⟨h1, h2, _⟩ | ⟨_, _, _, h1, _⟩
      · left
        beta_reduce
        rw [f.dirichlet p hb h1, f1.dirichlet p hb ((hk1 p).trans h1), f2.dirichlet p hb ((hk2 p).trans h1), linFace_hyd,
          ← hdir p hb h1]
        ring
      · right
        rw [hcomb, n p hb h1, h2]
        beta_reduce
        rw [f1.neumann p hb ((hk1 p).trans h1), f2.neumann p hb ((hk2 p).trans h1),
          hk1' p ((hk1 p).trans h1), hk2' p ((hk2 p).trans h1)]
        ring
      · exact absurd hp h1
    · have := hk.interior p hb
      rw [hp] at this
      exact absurd this.symm ((twin_ne_iff ht p).mpr hb)
  · intro p hp
    beta_reduce
    by_cases hb : (I.G.face p).nbr = none
    · rcases hk.boundary p hb with ⟨_, h1⟩ | ⟨_, _, h1⟩ | ⟨h1, _⟩
      · exact absurd h1 hp
      · exact absurd h1 hp
      · have j := f.periodic p hb h1
        have j1 := f1.periodic p hb ((hk1 p).trans h1)
        have j2 := f2.periodic p hb ((hk2 p).trans h1)
        have j3 := hper p hb h1
        rw [linFace_hyd, linFace_hyd]
        linear_combination j - s * j1 - t * j2 + j3
    · have j := f.interior p hb
      have j1 := f1.interior p hb
      have j2 := f2.interior p hb
      have : (I.G.face (mate p)).centroid 2 = (I.G.face p).centroid 2 := by
        rw [hk.interior p hb, (twin_spec ht p hb).2.2.2.1]
      rw [linFace_hyd, linFace_hyd, this]
      linear_combination j - s * j1 - t * j2

/-- C93 (fixed): with gravity `g` and fluid density `ω` the vertical entry is wrong by the factor `1 + ω g L`. -/
theorem C93_gravity_fixed (h : Regular I) (ht : Tiling I.G) (hb : FillsBox I.G lo hi side) (hs : Suited I lo hi side)
    (hbc : I.bct = .fixed) {ω : K} (hω : Density I ω) :
    ∃ T0, (∀ b, upscaleEffectivePerm (noGravity I) b = some T0) ∧ 0 < T0 2 2 ∧ ∀ b, ∃ T, upscaleEffectivePerm I b = some T ∧
      T 2 2 = T0 2 2 * (1 + ω * I.gravity * (hi 2 - lo 2)) := by
  have h0 : Sound (noGravity I) := ⟨⟨h.symm, h.posdef, h.mob, h.basis, h.sort, h.solver⟩, rfl⟩
  obtain ⟨T0, hT0, hsol0⟩ := suited_run (I := noGravity I) h0 ht hb hs
  obtain ⟨T1, hT1, _, hp⟩ := C90_bounds (I := noGravity I) h0 ht hb hs hbc
  have e01 : T0 = T1 := Option.some.inj ((hT0 ⟨⟨[], []⟩, [], []⟩).symm.trans (hT1 _))
  refine ⟨T0, hT0, e01 ▸ (hp 2).1, fun b => ?_⟩
  obtain ⟨T, hT, hsol⟩ := run_okG h ht hb _ (suited_kind hb hs) suited_per (suited_set h ht hb hs) b
  refine ⟨T, hT, ?_⟩
  obtain ⟨c, z, f, e⟩ := hsol 2
  obtain ⟨c0, z0, f0, e0⟩ := hsol0 2
  rw [e, e0, if_neg (by simp), if_neg (by simp)]
  have f' : FlowSolG I (twin I.G) (fixedCnd I.G side 2) c z := by
    unfold mateOf cndOf at f; rw [hbc] at f; exact f
  have f0' : FlowSol I (twin I.G) (fixedCnd I.G side 2) c0 z0 := by
    unfold mateOf cndOf at f0; rw [show (noGravity I).bct = .fixed from hbc] at f0
    exact ⟨f0.balanced, f0.skew, f0.interior, f0.dirichlet, f0.neumann, f0.periodic⟩
  have hneu : ∀ p, (fixedCnd I.G side 2 p).type = .neumann → (fixedCnd I.G side 2 p).value = 0 := by
    intro p hp
    unfold fixedCnd at hp ⊢
    split at hp
    · cases hp
    · split at hp
      · cases hp
      · rename_i h1 h2; rw [if_neg h1, if_neg h2]
  have hfl := gravity_flux h ht (fixed_kind I.G side 2) (fun _ => rfl) (fun _ => rfl) hneu hneu hω
    1 (ω * I.gravity * (hi 2 - lo 2)) (-(ω * I.gravity * hi 2)) f' f0' f0' (by
      intro p hp hd
      by_cases s1 : side (I.G.bface p) = 2 * (2 : Fin 3).val
      · have := (low_face hb p hp 2 s1).1
        unfold fixedCnd
        rw [if_pos s1, this]; ring
      · by_cases s2 : side (I.G.bface p) = 2 * (2 : Fin 3).val + 1
        · have := (high_face hb p hp 2 s2).1
          unfold fixedCnd
          rw [if_neg s1, if_pos s2, this]; ring
        · unfold fixedCnd at hd; rw [if_neg s1, if_neg s2] at hd; cases hd) (by
      intro p hp hd
      unfold fixedCnd at hd
      split at hd
      · cases hd
      · split at hd <;> cases hd)
  rw [hfl, avgVel_lin]
  change _ = avgVel I.G side (Energy.fluxOf (ipOf I) (Energy.drop c0 z0)) 2 * (hi 2 - lo 2) * _
  ring

/-- C93 (linear and periodic): the vertical column is added to every column, times `ω g` and the length in the direction of the
column. -/
theorem C93_gravity (h : Regular I) (ht : Tiling I.G) (hb : FillsBox I.G lo hi side) (hs : Suited I lo hi side)
    (hbc : I.bct ≠ .fixed) {ω : K} (hω : Density I ω) :
    ∃ T0, (∀ b, upscaleEffectivePerm (noGravity I) b = some T0) ∧ ∀ b, ∃ T, upscaleEffectivePerm I b = some T ∧
      ∀ i d, T i d = T0 i d + ω * I.gravity * (hi d - lo d) * T0 i 2 := by
  have h0 : Sound (noGravity I) := ⟨⟨h.symm, h.posdef, h.mob, h.basis, h.sort, h.solver⟩, rfl⟩
  obtain ⟨T0, hT0, hsol0⟩ := suited_run (I := noGravity I) h0 ht hb hs
  refine ⟨T0, hT0, fun b => ?_⟩
  obtain ⟨T, hT, hsol⟩ := run_okG h ht hb _ (suited_kind hb hs) suited_per (suited_set h ht hb hs) b
  refine ⟨T, hT, fun i d => ?_⟩
  obtain ⟨c, z, f, e⟩ := hsol d
  obtain ⟨c1, z1, f1, e1⟩ := hsol0 d
  obtain ⟨c2, z2, f2, e2⟩ := hsol0 2
  rw [e, e1, e2, if_neg (fun e => hbc e.1), if_neg (fun e => hbc e.1), if_neg (fun e => hbc e.1)]
  have f1' : FlowSol I (mateOf I side) (cndOf I lo hi side d) c1 z1 :=
    ⟨f1.balanced, f1.skew, f1.interior, f1.dirichlet, f1.neumann, f1.periodic⟩
  have f2' : FlowSol I (mateOf I side) (cndOf I lo hi side 2) c2 z2 :=
    ⟨f2.balanced, f2.skew, f2.interior, f2.dirichlet, f2.neumann, f2.periodic⟩
  have hL : ∀ d, hi d - lo d ≠ 0 := fun d => (sub_pos.mpr (hb.lt d)).ne'
  have key : hflux I c z = fun p => 1 * Energy.fluxOf (ipOf I) (Energy.drop c1 z1) p +
      (ω * I.gravity * (hi 2 - lo 2)) * Energy.fluxOf (ipOf I) (Energy.drop c2 z2) p := by
    have hk := suited_kind hb hs d
    unfold Suited at hs
    revert f f1' f2' hk
    unfold mateOf cndOf
    cases hb' : I.bct with
    | fixed => exact absurd hb' hbc
    | linear =>
      intro f f1' f2' hk
      refine gravity_flux (cnd := linearCnd I.G lo hi d) (cnd1 := linearCnd I.G lo hi d) (cnd2 := linearCnd I.G lo hi 2)
        h ht hk (fun _ => rfl) (fun _ => rfl) (fun p hp => by cases hp) (fun p hp => by cases hp) hω 1 _ (-(ω * I.gravity * hi 2)) f f1' f2' ?_ ?_
      · intro p hp _
        simp only [linearCnd]
        have := hL 2
        field_simp
        ring
      · intro p hp hd
        cases hd
    | periodic =>
      rw [hb'] at hs
      intro f f1' f2' hk
      refine gravity_flux (cnd := periodicCnd I.G side d) (cnd1 := periodicCnd I.G side d) (cnd2 := periodicCnd I.G side 2)
        h ht hk (fun _ => rfl) (fun _ => rfl) (fun p hp => by cases hp) (fun p hp => by cases hp) hω 1 _ 0 f f1' f2' ?_ ?_
      · intro p hp hd
        cases hd
      · intro p hp _
        obtain ⟨k, hk⟩ := some_side hb p hp
        have j := lin_jump hb hs.2.1 0 (hyd I ω) p hp k
        rw [linFace_hyd, linFace_hyd] at j
        have j1 := periodic_jump hb f1' p hp k
        have j2 := periodic_jump hb f2' p hp k
        rw [← f1'.periodic p hp rfl, ← f2'.periodic p hp rfl]
        rcases hk with hk | hk
        · rw [j2.1 hk]
          have j := j.1 hk
          unfold hyd at j
          by_cases h2 : k = 2
          · subst h2
            rw [if_pos rfl] at j ⊢
            linear_combination j
          · rw [if_neg h2] at j ⊢
            linear_combination j
        · rw [j2.2 hk]
          have j := j.2 hk
          unfold hyd at j
          by_cases h2 : k = 2
          · subst h2
            rw [if_pos rfl] at j ⊢
            linear_combination j
          · rw [if_neg h2] at j ⊢
            linear_combination j
  rw [key, avgVel_lin]
  change _ = avgVel I.G side (Energy.fluxOf (ipOf I) (Energy.drop c1 z1)) i * (hi d - lo d) + _ *
    (avgVel I.G side (Energy.fluxOf (ipOf I) (Energy.drop c2 z2)) i * (hi 2 - lo 2))
  ring

/-- C93 is violated: the upscaled permeability depends on gravity. With the two cells of the example, fixed boundary
conditions and gravity 9.81, the vertical permeability is more than two hundred times what it is without. -/
theorem C93_violated (b : Boundary.BCs ℚ) : ∃ T T0,
    upscaleEffectivePerm (exInput .fixed (981 / 100) exPerm) b = some T ∧
    upscaleEffectivePerm (exInput .fixed 0 exPerm) b = some T0 ∧ T 2 2 = 20701 / 100 * T0 2 2 ∧ T 2 2 ≠ T0 2 2 := by
  obtain ⟨T0, h0, hp, h1⟩ := C93_gravity_fixed (I := exInput .fixed (981 / 100) exPerm)
    (ex_regular .fixed _ _ exPerm_symm exPerm_posdef) (ex_tiling false) (ex_box false) (ex_suited _ _ _) rfl (ω := 3) (fun c => by
      change (List.zipWith (· * ·) [3, 3] [1 / 2, 1]).sum = (3 : ℚ) * [1 / 2, 1].sum
      norm_num)
  obtain ⟨T, h2, h3⟩ := h1 b
  have e : T 2 2 = 20701 / 100 * T0 2 2 := by
    rw [h3]
    change T0 2 2 * (1 + 3 * (981 / 100) * (exHi 2 - exLo 2)) = _
    have : exHi 2 - exLo 2 = 7 := by decide +kernel
    rw [this]; ring
  exact ⟨T, T0, h2, h0 b, e, by rw [e]; intro h; linarith⟩

/-- C93, what holds: entries in rows whose vertical entry is zero do not depend on gravity (linear and periodic conditions). -/
theorem C93_partial (h : Regular I) (ht : Tiling I.G) (hb : FillsBox I.G lo hi side) (hs : Suited I lo hi side)
    (hbc : I.bct ≠ .fixed) {ω : K} (hω : Density I ω) :
    ∃ T0, (∀ b, upscaleEffectivePerm (noGravity I) b = some T0) ∧ ∀ b, ∃ T, upscaleEffectivePerm I b = some T ∧
      ∀ i, T0 i 2 = 0 → ∀ d, T i d = T0 i d := by
  obtain ⟨T0, h0, h1⟩ := C93_gravity h ht hb hs hbc hω
  refine ⟨T0, h0, fun b => ?_⟩
  obtain ⟨T, h2, h3⟩ := h1 b
  exact ⟨T, h2, fun i hi d => by rw [h3, hi, mul_zero, add_zero]⟩

example (b : Boundary.BCs ℚ) : ∃ T T0, upscaleEffectivePerm (exInput .periodic (981 / 100) exPerm) b = some T ∧
    upscaleEffectivePerm (exInput .periodic 0 exPerm) b = some T0 ∧
    ∀ i d, T i d = T0 i d + 3 * (981 / 100) * (exHi d - exLo d) * T0 i 2 := by
  obtain ⟨T0, h0, h1⟩ := C93_gravity (I := exInput .periodic (981 / 100) exPerm)
    (ex_regular .periodic _ _ exPerm_symm exPerm_posdef) (ex_tiling true) (ex_box true) (ex_suited _ _ _) (by decide) (ω := 3)
    (fun c => by
      change (List.zipWith (· * ·) [3, 3] [1 / 2, 1]).sum = (3 : ℚ) * [1 / 2, 1].sum
      norm_num)
  obtain ⟨T, h2, h3⟩ := h1 b
  exact ⟨T, T0, h2, h0 b, h3⟩

end Verif.SinglePhase
