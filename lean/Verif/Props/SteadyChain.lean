import Verif.Spec.SteadyChain
import Verif.Props.Superadditive
import Verif.Props.SteadyFlows
import Verif.Props.RelPermChain

/-!
C149: relative permeabilities from steady state upscaling.
-/

namespace Verif.SteadyChain

open Verif.SinglePhase

variable {K : Type} [Field K] [LinearOrder K] [IsStrictOrderedRing K]

section lemmas
variable {J : Job K} {lo hi : Fin 3 → K} {side : Boundary.Face K → Nat}

/-- The sample filled with a fluid of given total mobilities. -/
abbrev filled (I : Input K) (m : Fin I.G.nc → K) : Input K := withRock I I.perm (fun c => [m c, 0]) fun _ => [1, 0]

theorem sound_filled (h : Ready J lo hi side) (m : Fin J.I.G.nc → K) (hm : ∀ c, 0 < m c) : Sound (filled J.I m) :=
  { symm := h.symm, posdef := h.posdef, basis := h.basis, sort := h.sort, solver := h.solver, gravity := h.gravity
    mob := fun c => by simpa using hm c }

theorem sound_tracer (h : Ready J lo hi side) : Sound (tracer J.I) :=
  { symm := h.symm, posdef := h.posdef, basis := h.basis, sort := h.sort, solver := h.solver, gravity := h.gravity
    mob := fun c => by simp [tracerMob] }

theorem cell_exists (h : Ready J lo hi side) : ∃ c : Fin J.I.G.nc, True := by
  obtain ⟨p, _⟩ := h.box.ne 0 (by omega)
  exact ⟨p.1, trivial⟩

omit [LinearOrder K] [IsStrictOrderedRing K] in
theorem quad_mul (s : K) (T : Fin 3 → Fin 3 → K) (x : Fin 3 → K) : Mimetic.quadForm (fun i j => s * T i j) x = s * Mimetic.quadForm T x := by
  unfold Mimetic.quadForm
  rw [Finset.mul_sum]
  refine Finset.sum_congr rfl fun i _ => ?_
  rw [Finset.mul_sum]
  exact Finset.sum_congr rfl fun j _ => by ring

theorem filled_cond (I : Input K) (m : Fin I.G.nc → K) (c : Fin I.G.nc) (x : Fin 3 → K) :
    Mimetic.quadForm (SinglePhase.cond (filled I m) c) x = m c * Mimetic.quadForm (I.perm c) x := by
  have : SinglePhase.cond (filled I m) c = fun i j => m c * I.perm c i j := by
    funext i j
    simp [SinglePhase.cond]
  rw [this, quad_mul]

/-- Mobility equal in all cells. -/
theorem filled_const (h : Ready J lo hi side) (s : K) (hs : 0 < s) : ∃ K0, (∀ b, upscaleSinglePhase J.I b = some K0) ∧
    ∀ b, upscaleEffectivePerm (filled J.I fun _ => s) b = some fun i j => s * K0 i j :=
  C92_scaling (I := tracer J.I) (sound_tracer h) h.tiling h.box h.suited J.I.perm (fun _ => [s, 0]) (fun _ => [1, 0]) (sound_filled h _ fun _ => hs) s
    fun c i j => by simp [tracerMob]

theorem filled_fixed (h : Ready J lo hi side) (hbc : J.I.bct = .fixed) : ∃ K0, (∀ b, upscaleSinglePhase J.I b = some K0) ∧ (∀ i j, i ≠ j → K0 i j = 0) ∧ (∀ d, 0 < K0 d d) ∧
    ∀ m : Fin J.I.G.nc → K, (∀ c, 0 < m c) → ∃ E, (∀ b, upscaleEffectivePerm (filled J.I m) b = some E) ∧ (∀ i j, i ≠ j → E i j = 0) ∧
      ∀ d a b, (∀ c, a ≤ m c) → (∀ c, m c ≤ b) → a * K0 d d ≤ E d d ∧ E d d ≤ b * K0 d d := by
  obtain ⟨K0, hK, hoff, hpos⟩ := C90_bounds (I := tracer J.I) (sound_tracer h) h.tiling h.box h.suited hbc
  refine ⟨K0, hK, hoff, fun d => (hpos d).1, fun m hm => ?_⟩
  obtain ⟨E, hE, hEoff, hEpos⟩ := C90_bounds (I := filled J.I m) (sound_filled h m hm) h.tiling h.box h.suited hbc
  have b0 : Boundary.BCs K := ⟨⟨[], []⟩, [], []⟩
  have hsc : ∀ s, 0 < s → ∀ b, upscaleEffectivePerm (filled J.I fun _ => s) b = some fun i j => s * K0 i j := fun s hs b => by
    obtain ⟨K1, h1, h2⟩ := filled_const h s hs
    have : K1 = K0 := Option.some.inj ((h1 b).symm.trans (hK b))
    rw [h2 b, this]
  obtain ⟨c0, -⟩ := cell_exists h
  refine ⟨E, hE, hEoff, fun d a b ha hb => ⟨?_, ?_⟩⟩
  · by_cases h0 : 0 < a
    · obtain ⟨T, T', e1, e2, hle⟩ := C92_monotone_fixed (I := filled J.I fun _ => a) (sound_filled h _ fun _ => h0) h.tiling h.box h.suited hbc J.I.perm (fun c => [m c, 0])
        (fun _ => [1, 0]) (sound_filled h m hm) fun c x => by
          rw [filled_cond J.I (fun _ => a)]
          simpa using mul_le_mul_of_nonneg_right (ha c) (Energy.posSemi_of_posDef (h.posdef c) x)
      have q1 := Option.some.inj ((e1 b0).symm.trans (hsc a h0 b0))
      have q2 := Option.some.inj ((e2 b0).symm.trans (hE b0))
      have := hle d
      rw [q1, q2] at this
      exact this
    · exact (mul_nonpos_of_nonpos_of_nonneg (not_lt.mp h0) (hpos d).1.le).trans (hEpos d).1.le
  · have h0 : 0 < b := (hm c0).trans_le (hb c0)
    obtain ⟨T, T', e1, e2, hle⟩ := C92_monotone_fixed (I := filled J.I m) (sound_filled h m hm) h.tiling h.box h.suited hbc J.I.perm (fun _ => [b, 0])
        (fun _ => [1, 0]) (sound_filled h _ fun _ => h0) fun c x => by
          rw [filled_cond J.I m]
          simpa using mul_le_mul_of_nonneg_right (hb c) (Energy.posSemi_of_posDef (h.posdef c) x)
    have q1 := Option.some.inj ((e1 b0).symm.trans (hE b0))
    have q2 := Option.some.inj ((e2 b0).symm.trans (hsc b h0 b0))
    have := hle d
    rw [q1, q2] at this
    exact this

theorem filled_periodic (h : Ready J lo hi side) (hbc : J.I.bct = .periodic) : ∃ K0, (∀ b, upscaleSinglePhase J.I b = some K0) ∧ Mimetic.Symm K0 ∧ Mimetic.PosDef K0 ∧
    ∀ m : Fin J.I.G.nc → K, (∀ c, 0 < m c) → ∃ E, (∀ b, upscaleEffectivePerm (filled J.I m) b = some E) ∧ Mimetic.Symm E ∧
      ∀ x a b, (∀ c, a ≤ m c) → (∀ c, m c ≤ b) → a * Mimetic.quadForm K0 x ≤ Mimetic.quadForm E x ∧ Mimetic.quadForm E x ≤ b * Mimetic.quadForm K0 x := by
  obtain ⟨K0, hK, hsym, hpos, -⟩ := C91_bounds (I := tracer J.I) (sound_tracer h) h.tiling h.box h.suited hbc
  refine ⟨K0, hK, hsym, hpos, fun m hm => ?_⟩
  obtain ⟨E, hE, hEs, hEp, -⟩ := C91_bounds (I := filled J.I m) (sound_filled h m hm) h.tiling h.box h.suited hbc
  have b0 : Boundary.BCs K := ⟨⟨[], []⟩, [], []⟩
  have hsc : ∀ s, 0 < s → ∀ b, upscaleEffectivePerm (filled J.I fun _ => s) b = some fun i j => s * K0 i j := fun s hs b => by
    obtain ⟨K1, h1, h2⟩ := filled_const h s hs
    have : K1 = K0 := Option.some.inj ((h1 b).symm.trans (hK b))
    rw [h2 b, this]
  obtain ⟨c0, -⟩ := cell_exists h
  refine ⟨E, hE, hEs, fun y a b ha hb => ⟨?_, ?_⟩⟩
  · by_cases h0 : 0 < a
    · obtain ⟨T, T', e1, e2, hle⟩ := C92_monotone_periodic (I := filled J.I fun _ => a) (sound_filled h _ fun _ => h0) h.tiling h.box h.suited hbc J.I.perm (fun c => [m c, 0])
        (fun _ => [1, 0]) (sound_filled h m hm) fun c x => by
          rw [filled_cond J.I (fun _ => a)]
          simpa using mul_le_mul_of_nonneg_right (ha c) (Energy.posSemi_of_posDef (h.posdef c) x)
      have q1 := Option.some.inj ((e1 b0).symm.trans (hsc a h0 b0))
      have q2 := Option.some.inj ((e2 b0).symm.trans (hE b0))
      have := hle y
      rw [q1, q2, quad_mul] at this
      exact this
    · exact (mul_nonpos_of_nonpos_of_nonneg (not_lt.mp h0) (Energy.posSemi_of_posDef hpos y)).trans (Energy.posSemi_of_posDef hEp y)
  · have h0 : 0 < b := (hm c0).trans_le (hb c0)
    obtain ⟨T, T', e1, e2, hle⟩ := C92_monotone_periodic (I := filled J.I m) (sound_filled h m hm) h.tiling h.box h.suited hbc J.I.perm (fun _ => [b, 0])
        (fun _ => [1, 0]) (sound_filled h _ fun _ => h0) fun c x => by
          rw [filled_cond J.I m]
          simpa using mul_le_mul_of_nonneg_right (hb c) (Energy.posSemi_of_posDef (h.posdef c) x)
    have q1 := Option.some.inj ((e1 b0).symm.trans (hE b0))
    have q2 := Option.some.inj ((e2 b0).symm.trans (hsc b h0 b0))
    have := hle y
    rw [q1, q2, quad_mul] at this
    exact this

/-- Two fluids that are parts of a third. -/
theorem parts_cond (h : Ready J lo hi side) (m n : Fin J.I.G.nc → K) (s : K) (hs : ∀ c, m c + n c ≤ s) (c : Fin J.I.G.nc) (x : Fin 3 → K) :
    ([m c, 0] : List K).sum * Mimetic.quadForm (J.I.perm c) x + ([n c, 0] : List K).sum * Mimetic.quadForm (J.I.perm c) x ≤
      Mimetic.quadForm (SinglePhase.cond (filled J.I fun _ => s) c) x := by
  rw [filled_cond J.I (fun _ => s), ← add_mul]
  refine mul_le_mul_of_nonneg_right ?_ (Energy.posSemi_of_posDef (h.posdef c) x)
  simpa using hs c

/-! ### mobilities -/

/-- Mobility of a phase in a cell. -/
def mobOf (J : Job K) (ph : Fin 2) (sat : List K) (c : Nat) : K := J.mob ph c (sat.getD c 0)

/-- The lower limit. -/
def floor (J : Job K) (ph : Fin 2) (sat : List K) : K :=
  Steady.mobThreshold J.relThresh (J.visc ph) J.contrast ((List.range J.I.G.nc).map fun c => [mobOf J ph sat c])

/-- The mobility used in a cell. -/
def used (J : Job K) (ph : Fin 2) (sat : List K) (c : Nat) : K := max (mobOf J ph sat c) (floor J ph sat)

omit [IsStrictOrderedRing K] in
theorem mobilities_eq (ph : Fin 2) (sat : List K) (hl : sat.length = J.I.G.nc) :
    mobilities J ph sat = some ((List.range J.I.G.nc).map fun c => [mobOf J ph sat c]) := by
  unfold mobilities
  refine Pattern.mapM_total _ _ _ fun c hc => ?_
  have hc : c < sat.length := by rw [hl]; exact List.mem_range.mp hc
  rw [List.getElem?_eq_getElem hc]
  simp [mobOf, List.getD_eq_getElem?_getD, List.getElem?_eq_getElem hc]

omit [IsStrictOrderedRing K] in
theorem effective_eq (ph : Fin 2) (sat : List K) (hl : sat.length = J.I.G.nc) (b : Boundary.BCs K) :
    effective J ph sat b = upscaleEffectivePerm (filled J.I fun c => used J ph sat c) b := by
  unfold effective
  rw [mobilities_eq ph sat hl, Option.bind_some]
  congr 1
  unfold withFluid
  have hm : (Steady.thresholded J.relThresh (J.visc ph) J.contrast ((List.range J.I.G.nc).map fun c => [mobOf J ph sat c])).flatten =
      (List.range J.I.G.nc).map fun c => used J ph sat c := by
    unfold Steady.thresholded
    rw [List.map_map]
    have : ((fun l : List K => l.map fun x => max x (Steady.mobThreshold J.relThresh (J.visc ph) J.contrast ((List.range J.I.G.nc).map fun c => [mobOf J ph sat c]))) ∘
        fun c => [mobOf J ph sat c]) = fun c => [used J ph sat c] := rfl
    rw [this]
    generalize List.range J.I.G.nc = l
    induction l with
    | nil => rfl
    | cons a l ih => simp [ih]
  rw [hm]
  have e : (fun c : Fin J.I.G.nc => (TransportDefs.phaseMobilities ((List.range J.I.G.nc).map fun c => used J ph sat c) c 1).getD []) = fun c : Fin J.I.G.nc => [used J ph sat c, 0] := by
    funext c
    unfold TransportDefs.phaseMobilities
    rw [List.getElem?_map, List.getElem?_range c.2]
    rfl
  rw [e]
  rfl

theorem floor_pos (hv : Valid J) (ph : Fin 2) (sat : List K) : 0 < floor J ph sat :=
  (div_pos hv.relThresh (hv.visc ph)).trans_le (le_max_left _ _)

theorem used_pos (hv : Valid J) (ph : Fin 2) (sat : List K) (c : Nat) : 0 < used J ph sat c := (floor_pos hv ph sat).trans_le (le_max_right _ _)

theorem used_thresh (hv : Valid J) (ph : Fin 2) (sat : List K) (c : Nat) : J.relThresh / J.visc ph ≤ used J ph sat c := (le_max_left _ _).trans (le_max_right _ _)

omit [IsStrictOrderedRing K] in
/-- Relative permeability in terms of the mobility. -/
theorem relperm_eq (ph : Fin 2) {sat : List K} (hl : sat.length = J.I.G.nc) (c : Fin J.I.G.nc) : ∃ s, sat[c.val]? = some s ∧ relperm J ph c s = mobOf J ph sat c * J.visc ph := by
  have hc : c.val < sat.length := by rw [hl]; exact c.2
  refine ⟨sat[c.val], List.getElem?_eq_getElem hc, ?_⟩
  unfold relperm mobOf
  rw [List.getD_eq_getElem?_getD, List.getElem?_eq_getElem hc, Option.getD_some]

theorem floor_le (h : Ready J lo hi side) (hv : Valid J) (ph : Fin 2) (sat : List K) (b : K) (hb : ∀ c : Fin J.I.G.nc, mobOf J ph sat c * J.visc ph ≤ b) (h0 : 0 ≤ b) :
    floor J ph sat ≤ max J.relThresh (b / J.contrast) / J.visc ph := by
  have hc : 0 < J.contrast := one_pos.trans_le hv.contrast
  refine max_le (div_le_div_of_nonneg_right (le_max_left _ _) (hv.visc ph).le) ?_
  have : Steady.maxMob ((List.range J.I.G.nc).map fun c => [mobOf J ph sat c]) ≤ b / J.visc ph := by
    rw [Steady.maxMob_le]
    refine ⟨div_nonneg h0 (hv.visc ph).le, fun l hl x hx => ?_⟩
    obtain ⟨c, hc, rfl⟩ := List.mem_map.mp hl
    rw [List.mem_singleton.mp hx, le_div_iff₀ (hv.visc ph)]
    exact hb ⟨c, List.mem_range.mp hc⟩
  refine (div_le_div_of_nonneg_right this hc.le).trans ?_
  rw [div_right_comm]
  exact div_le_div_of_nonneg_right (le_max_right _ _) (hv.visc ph).le

/-- The mobilities used keep within bounds. -/
theorem used_between (h : Ready J lo hi side) (hv : Valid J) (ph : Fin 2) {sat : List K} (hl : sat.length = J.I.G.nc) {a b : K} (hab : Between J ph sat a b) (hb : J.relThresh ≤ b)
    (c : Fin J.I.G.nc) : a / J.visc ph ≤ used J ph sat c ∧ used J ph sat c ≤ b / J.visc ph := by
  have h0 : 0 ≤ b := hv.relThresh.le.trans hb
  have key : ∀ c : Fin J.I.G.nc, a ≤ mobOf J ph sat c * J.visc ph ∧ mobOf J ph sat c * J.visc ph ≤ b := fun c => by
    obtain ⟨s, hs, e⟩ := relperm_eq ph hl c
    rw [← e]
    exact hab c s hs
  constructor
  · rw [div_le_iff₀ (hv.visc ph)]
    exact (key c).1.trans (mul_le_mul_of_nonneg_right (le_max_left _ _) (hv.visc ph).le)
  · refine max_le ((le_div_iff₀ (hv.visc ph)).mpr (key c).2) ((floor_le h hv ph sat b (fun c => (key c).2) h0).trans ?_)
    exact div_le_div_of_nonneg_right (max_le hb (div_le_self h0 hv.contrast)) (hv.visc ph).le

/-- The saturations keep their number. -/
theorem ends_length (U : Upscaler K) (n : Nat) (hv : Keeps U n) {init : List K} (hl : init.length = n) : (ends U init).2.length = n := by
  cases U with
  | implicit P pv transport =>
    have key : ∀ k it (s : Steady.LoopSt K), s.sat.length = n → (Steady.loop P pv transport k it s).2.sat.length = n := by
      intro k
      induction k with
      | zero => exact fun _ s hs => hs
      | succ k ih =>
        intro it s hs
        unfold Steady.loop
        by_cases hst : s.stationary = true
        · rw [if_pos hst]; exact hs
        · rw [if_neg hst]
          refine ih _ _ ?_
          unfold Steady.body
          dsimp only
          split <;> exact hv _ _ _ hs
    exact key _ _ _ hl
  | explicit steps threshold solve =>
    have key : ∀ k it (s : List K), s.length = n → (Steady.loopExplicit threshold solve k it s).2.length = n := by
      intro k
      induction k with
      | zero => exact fun _ s hs => hs
      | succ k ih =>
        intro it s hs
        unfold Steady.loopExplicit
        dsimp only
        split
        · exact hv _ _ hs
        · exact ih _ _ (hv _ _ hs)
    exact key _ _ _ hl

theorem filled_scale (h : Ready J lo hi side) (m : Fin J.I.G.nc → K) (hm : ∀ c, 0 < m c) (s : K) (hs : 0 < s) : ∃ E, (∀ b, upscaleEffectivePerm (filled J.I m) b = some E) ∧
    ∀ b, upscaleEffectivePerm (filled J.I fun c => s * m c) b = some fun i j => s * E i j :=
  C92_scaling (I := filled J.I m) (sound_filled h m hm) h.tiling h.box h.suited J.I.perm (fun c => [s * m c, 0]) (fun _ => [1, 0]) (sound_filled h _ fun c => mul_pos hs (hm c)) s
    fun c i j => by simp [mul_assoc]

/-- The relative permeability used in a cell. -/
def krUsed (J : Job K) (ph : Fin 2) (sat : List K) (c : Nat) : K := J.visc ph * used J ph sat c

theorem krUsed_pos (hv : Valid J) (ph : Fin 2) (sat : List K) (c : Nat) : 0 < krUsed J ph sat c := mul_pos (hv.visc ph) (used_pos hv ph sat c)

theorem krUsed_thresh (hv : Valid J) (ph : Fin 2) (sat : List K) (c : Nat) : J.relThresh ≤ krUsed J ph sat c := by
  have := used_thresh hv ph sat c
  rw [div_le_iff₀ (hv.visc ph)] at this
  rw [krUsed, mul_comm]
  exact this

theorem krUsed_between (h : Ready J lo hi side) (hv : Valid J) (ph : Fin 2) {sat : List K} (hl : sat.length = J.I.G.nc) {a b : K} (hab : Between J ph sat a b) (hb : J.relThresh ≤ b)
    (c : Fin J.I.G.nc) : a ≤ krUsed J ph sat c ∧ krUsed J ph sat c ≤ b := by
  have := used_between h hv ph hl hab hb c
  rw [div_le_iff₀ (hv.visc ph), le_div_iff₀ (hv.visc ph)] at this
  rw [krUsed, mul_comm]
  exact this

theorem krUsed_sum (h : Ready J lo hi side) (hv : Valid J) {sat : List K} (hl : sat.length = J.I.G.nc) {u : K} (hu : SumBelow J sat u) (c : Fin J.I.G.nc) :
    krUsed J 0 sat c + krUsed J 1 sat c ≤ u + 2 * max J.relThresh (u / J.contrast) := by
  have key : ∀ c : Fin J.I.G.nc, 0 ≤ mobOf J 0 sat c * J.visc 0 ∧ 0 ≤ mobOf J 1 sat c * J.visc 1 ∧ mobOf J 0 sat c * J.visc 0 + mobOf J 1 sat c * J.visc 1 ≤ u := fun c => by
    obtain ⟨s, hs, e⟩ := relperm_eq 0 hl c
    obtain ⟨s', hs', e'⟩ := relperm_eq 1 hl c
    have : s' = s := Option.some.inj (hs'.symm.trans hs)
    subst this
    rw [← e, ← e']
    exact hu c _ hs
  have h0 : 0 ≤ u := by
    obtain ⟨h1, h2, h3⟩ := key c
    linarith
  have one : ∀ ph : Fin 2, (∀ c : Fin J.I.G.nc, 0 ≤ mobOf J ph sat c * J.visc ph ∧ mobOf J ph sat c * J.visc ph ≤ u) →
      krUsed J ph sat c ≤ mobOf J ph sat c * J.visc ph + max J.relThresh (u / J.contrast) := fun ph hp => by
    have hm : 0 ≤ max J.relThresh (u / J.contrast) := hv.relThresh.le.trans (le_max_left _ _)
    have hf := floor_le h hv ph sat u (fun c => (hp c).2) h0
    rw [le_div_iff₀ (hv.visc ph)] at hf
    rw [krUsed, used, mul_comm, max_mul_of_nonneg _ _ (hv.visc ph).le]
    refine max_le (by linarith) ?_
    have := (hp c).1
    linarith
  have e0 := one 0 fun c => ⟨(key c).1, by have := key c; linarith⟩
  have e1 := one 1 fun c => ⟨(key c).2.1, by have := key c; linarith⟩
  have := (key c).2.2
  linarith

/-- What the upscaler returns. -/
theorem upscale_run (h : Ready J lo hi side) (hv : Valid J) {init : List K} (hl : init.length = J.I.G.nc) (K0 : Fin 3 → Fin 3 → K) (hz : K0 2 2 ≠ 0)
    (hdet : (Matrix.of K0).det ≠ 0) : ∃ R, (∀ b b', upscale J init K0 b b' = some R) ∧ R.sat = (ends J.U init).2 ∧ R.sat.length = J.I.G.nc ∧
      ∀ ph, ∀ b, upscaleEffectivePerm (filled J.I fun c => krUsed J ph R.sat c) b = some (prod (R.kr ph) K0) := by
  have hlen := ends_length J.U _ hv.keeps hl
  have hx : ∀ ph : Fin 2, ∃ E kr, (∀ b, effective J ph (ends J.U init).2 b = some E) ∧ Steady.phaseRelperm E K0 (J.visc ph) = some kr ∧
      ∀ b, upscaleEffectivePerm (filled J.I fun c => krUsed J ph (ends J.U init).2 c) b = some (prod kr K0) := fun ph => by
    obtain ⟨E, h1, h2⟩ := filled_scale h (fun c => used J ph (ends J.U init).2 c) (fun c => used_pos hv ph _ c) (J.visc ph) (hv.visc ph)
    obtain ⟨kr, h3, h4⟩ := Steady.C71_relperm_partial E K0 (J.visc ph) hz hdet
    refine ⟨E, kr, fun b => by rw [effective_eq ph _ hlen]; exact h1 b, h3, fun b => ?_⟩
    have : prod kr K0 = fun i j => J.visc ph * E i j := by
      funext i j
      exact congrFun (congrFun h4 i) j
    rw [this]
    exact h2 b
  obtain ⟨E0, k0, a0, a1, a2⟩ := hx 0
  obtain ⟨E1, k1, c0, c1, c2⟩ := hx 1
  refine ⟨⟨(ends J.U init).1, (ends J.U init).2, fun ph => if ph = 0 then k0 else k1⟩, fun b b' => ?_, rfl, hlen, ?_⟩
  · unfold upscale
    simp only [a0 b, c0 b', Option.bind_some, a1, c1, Option.map_some]
  · intro ph
    fin_cases ph
    · exact a2
    · exact c2

theorem det_posdef (T : Fin 3 → Fin 3 → K) (h : Mimetic.PosDef T) : T 2 2 ≠ 0 ∧ (Matrix.of T).det ≠ 0 := by
  constructor
  · have := h (fun i => if i = 2 then 1 else 0) ⟨2, by simp⟩
    intro e
    simp [Mimetic.quadForm, e] at this
  · exact ((Matrix.isUnit_iff_isUnit_det _).mp (RelPermChain.unit_posdef T h)).ne_zero

/-- **C71** For every positive definite single phase permeability the reported relative permeability exists, and times the single phase permeability it is viscosity times the effective permeability of
the phase. -/
theorem C71_relperm (eff up : Matrix (Fin 3) (Fin 3) K) (visc : K) (h : Mimetic.PosDef fun i j => up i j) :
    ∃ kr, Steady.phaseRelperm eff up visc = some kr ∧ Matrix.of kr * up = visc • eff :=
  Steady.C71_relperm_partial eff up visc (det_posdef _ h).1 (det_posdef _ h).2

/-- **C71** Violated: for an invertible tensor that is not positive definite, with a zero as its zz element, there is no result (the inverse is computed with a division by that element). -/
theorem C71_violated_zz : ∃ up : Matrix (Fin 3) (Fin 3) ℚ, up.det = 1 ∧ ∀ eff visc, Steady.phaseRelperm eff up visc = none := by
  refine ⟨!![0, 1, 0; 0, 0, 1; 1, 0, 0], by simp [Matrix.det_fin_three], fun eff visc => ?_⟩
  have : Dense.inverse3x3 (!![0, 1, 0; 0, 0, 1; 1, 0, 0] : Matrix (Fin 3) (Fin 3) ℚ) = none := by decide +kernel
  unfold Steady.phaseRelperm
  rw [this]
  rfl

example : Mimetic.PosDef fun i j => (!![2, 1, 0; 1, 2, 0; 0, 0, 1] : Matrix (Fin 3) (Fin 3) ℚ) i j := by
  intro x hx
  have e : Mimetic.quadForm (fun i j => (!![2, 1, 0; 1, 2, 0; 0, 0, 1] : Matrix (Fin 3) (Fin 3) ℚ) i j) x = x 0 ^ 2 + x 1 ^ 2 + (x 0 + x 1) ^ 2 + x 2 ^ 2 := by
    simp [Mimetic.quadForm, Fin.sum_univ_three]; ring
  rw [e]
  obtain ⟨i, hi⟩ := hx
  have := sq_pos_of_ne_zero hi
  fin_cases i <;> simp at this <;> nlinarith [sq_nonneg (x 0), sq_nonneg (x 1), sq_nonneg (x 2), sq_nonneg (x 0 + x 1)]

end lemmas

section main
variable {J : Job K} {lo hi : Fin 3 → K} {side : Boundary.Face K → Nat}

/-- C149: with fixed boundary conditions, and the result of the single phase upscaling as upscaled permeability, the upscaled relative permeabilities are
diagonal; on the diagonal they are at least the threshold, they keep within bounds of the relative permeabilities of the cells at the saturations the upscaler
ends with, and their sum is at most that of the cells, save for what the limits on the mobilities add. -/
theorem C149_fixed (h : Ready J lo hi side) (hv : Valid J) (hbc : J.I.bct = .fixed) : ∃ K0, (∀ b, upscaleSinglePhase J.I b = some K0) ∧
    ∀ init : List K, init.length = J.I.G.nc → ∃ R, (∀ b b', upscale J init K0 b b' = some R) ∧ R.sat.length = J.I.G.nc ∧
      (∀ ph i j, i ≠ j → R.kr ph i j = 0) ∧ (∀ ph d, J.relThresh ≤ R.kr ph d d) ∧
      (∀ ph a b, Between J ph R.sat a b → J.relThresh ≤ b → ∀ d, a ≤ R.kr ph d d ∧ R.kr ph d d ≤ b) ∧
      ∀ u, SumBelow J R.sat u → ∀ d, R.kr 0 d d + R.kr 1 d d ≤ u + 2 * max J.relThresh (u / J.contrast) := by
  obtain ⟨K0, hK, hoff, hpos, hE⟩ := filled_fixed h hbc
  refine ⟨K0, hK, fun init hl => ?_⟩
  obtain ⟨hz, hdet⟩ := det_posdef K0 (RelPermChain.posdef_diag K0 hoff hpos)
  obtain ⟨R, hR, -, hlen, hkr⟩ := upscale_run h hv hl K0 hz hdet
  have b0 : Boundary.BCs K := ⟨⟨[], []⟩, [], []⟩
  have hp : ∀ (A : Fin 3 → Fin 3 → K) i j, prod A K0 i j = A i j * K0 j j := fun A i j => by
    unfold prod
    rw [Finset.sum_eq_single j]
    · intro k _ hk; rw [hoff k j hk, mul_zero]
    · intro hj; exact absurd (Finset.mem_univ j) hj
  have key : ∀ ph, (∀ i j, i ≠ j → R.kr ph i j = 0) ∧ ∀ d a b, (∀ c : Fin J.I.G.nc, a ≤ krUsed J ph R.sat c) → (∀ c : Fin J.I.G.nc, krUsed J ph R.sat c ≤ b) →
      a ≤ R.kr ph d d ∧ R.kr ph d d ≤ b := fun ph => by
    obtain ⟨E, h1, h2, h3⟩ := hE (fun c => krUsed J ph R.sat c) fun c => krUsed_pos hv ph _ c
    have e : E = prod (R.kr ph) K0 := Option.some.inj ((h1 b0).symm.trans (hkr ph b0))
    subst e
    refine ⟨fun i j hij => ?_, fun d a b ha hb => ?_⟩
    · have := h2 i j hij
      rw [hp] at this
      exact (mul_eq_zero.mp this).resolve_right (hpos j).ne'
    · have := h3 d a b ha hb
      rw [hp] at this
      exact ⟨le_of_mul_le_mul_right this.1 (hpos d), le_of_mul_le_mul_right this.2 (hpos d)⟩
  refine ⟨R, hR, hlen, fun ph => (key ph).1, fun ph d => ?_, fun ph a b hab hb d => ?_, fun u hu d => ?_⟩
  · have hx : ∃ b, ∀ c : Fin J.I.G.nc, krUsed J ph R.sat c ≤ b := ⟨∑ c : Fin J.I.G.nc, krUsed J ph R.sat c, fun c =>
      Finset.single_le_sum (f := fun c : Fin J.I.G.nc => krUsed J ph R.sat c) (fun c _ => (krUsed_pos hv ph R.sat c).le) (Finset.mem_univ c)⟩
    obtain ⟨b, hb⟩ := hx
    exact ((key ph).2 d _ b (fun c => krUsed_thresh hv ph R.sat c) hb).1
  · exact (key ph).2 d a b (fun c => (krUsed_between h hv ph hlen hab hb c).1) fun c => (krUsed_between h hv ph hlen hab hb c).2
  · set s := u + 2 * max J.relThresh (u / J.contrast) with hsdef
    have hsum := krUsed_sum h hv hlen hu
    obtain ⟨c0, -⟩ := cell_exists h
    have hs : 0 < s := by
      have := hsum c0
      have := krUsed_pos hv 0 R.sat c0
      have := krUsed_pos hv 1 R.sat c0
      linarith
    obtain ⟨T, T1, T2, e0, e1, e2, hle⟩ := C92_parts_fixed (I := filled J.I fun _ => s) (p1 := J.I.perm) (p2 := J.I.perm) (m1 := fun c => [krUsed J 0 R.sat c, 0]) (m2 := fun c => [krUsed J 1 R.sat c, 0])
      (r1 := fun _ => [1, 0]) (r2 := fun _ => [1, 0]) (sound_filled h _ fun _ => hs) h.tiling h.box h.suited hbc
      (sound_filled h _ fun c => krUsed_pos hv 0 R.sat c) (sound_filled h _ fun c => krUsed_pos hv 1 R.sat c)
      (parts_cond h (fun c => krUsed J 0 R.sat c) (fun c => krUsed J 1 R.sat c) s hsum)
    obtain ⟨K1, g1, g2⟩ := filled_const h s hs
    have q : K1 = K0 := Option.some.inj ((g1 b0).symm.trans (hK b0))
    have q0 : T = fun i j => s * K0 i j := by rw [← q]; exact Option.some.inj ((e0 b0).symm.trans (g2 b0))
    have q1 : T1 = prod (R.kr 0) K0 := Option.some.inj ((e1 b0).symm.trans (hkr 0 b0))
    have q2 : T2 = prod (R.kr 1) K0 := Option.some.inj ((e2 b0).symm.trans (hkr 1 b0))
    have := hle d
    rw [q0, q1, q2, hp, hp, ← add_mul] at this
    exact le_of_mul_le_mul_right this (hpos d)

/-- C149: with periodic boundary conditions the product of upscaled relative permeability and upscaled permeability is symmetric, and as a quadratic form keeps
within the same bounds relative to the upscaled permeability. -/
theorem C149_periodic (h : Ready J lo hi side) (hv : Valid J) (hbc : J.I.bct = .periodic) : ∃ K0, (∀ b, upscaleSinglePhase J.I b = some K0) ∧ Mimetic.PosDef K0 ∧
    ∀ init : List K, init.length = J.I.G.nc → ∃ R, (∀ b b', upscale J init K0 b b' = some R) ∧ R.sat.length = J.I.G.nc ∧
      (∀ ph, Mimetic.Symm (prod (R.kr ph) K0)) ∧ (∀ ph x, J.relThresh * Mimetic.quadForm K0 x ≤ Mimetic.quadForm (prod (R.kr ph) K0) x) ∧
      (∀ ph a b, Between J ph R.sat a b → J.relThresh ≤ b → ∀ x,
        a * Mimetic.quadForm K0 x ≤ Mimetic.quadForm (prod (R.kr ph) K0) x ∧ Mimetic.quadForm (prod (R.kr ph) K0) x ≤ b * Mimetic.quadForm K0 x) ∧
      ∀ u, SumBelow J R.sat u → ∀ x, Mimetic.quadForm (prod (R.kr 0) K0) x + Mimetic.quadForm (prod (R.kr 1) K0) x ≤
        (u + 2 * max J.relThresh (u / J.contrast)) * Mimetic.quadForm K0 x := by
  obtain ⟨K0, hK, hsym, hpos, hE⟩ := filled_periodic h hbc
  refine ⟨K0, hK, hpos, fun init hl => ?_⟩
  obtain ⟨hz, hdet⟩ := det_posdef K0 hpos
  obtain ⟨R, hR, -, hlen, hkr⟩ := upscale_run h hv hl K0 hz hdet
  have b0 : Boundary.BCs K := ⟨⟨[], []⟩, [], []⟩
  have key : ∀ ph, Mimetic.Symm (prod (R.kr ph) K0) ∧ ∀ x a b, (∀ c : Fin J.I.G.nc, a ≤ krUsed J ph R.sat c) → (∀ c : Fin J.I.G.nc, krUsed J ph R.sat c ≤ b) →
      a * Mimetic.quadForm K0 x ≤ Mimetic.quadForm (prod (R.kr ph) K0) x ∧ Mimetic.quadForm (prod (R.kr ph) K0) x ≤ b * Mimetic.quadForm K0 x := fun ph => by
    obtain ⟨E, h1, h2, h3⟩ := hE (fun c => krUsed J ph R.sat c) fun c => krUsed_pos hv ph _ c
    have e : E = prod (R.kr ph) K0 := Option.some.inj ((h1 b0).symm.trans (hkr ph b0))
    subst e
    exact ⟨h2, h3⟩
  refine ⟨R, hR, hlen, fun ph => (key ph).1, fun ph x => ?_, fun ph a b hab hb x => ?_, fun u hu x => ?_⟩
  · have hx : ∃ b, ∀ c : Fin J.I.G.nc, krUsed J ph R.sat c ≤ b := ⟨∑ c : Fin J.I.G.nc, krUsed J ph R.sat c, fun c =>
      Finset.single_le_sum (f := fun c : Fin J.I.G.nc => krUsed J ph R.sat c) (fun c _ => (krUsed_pos hv ph R.sat c).le) (Finset.mem_univ c)⟩
    obtain ⟨b, hb⟩ := hx
    exact ((key ph).2 x _ b (fun c => krUsed_thresh hv ph R.sat c) hb).1
  · exact (key ph).2 x a b (fun c => (krUsed_between h hv ph hlen hab hb c).1) fun c => (krUsed_between h hv ph hlen hab hb c).2
  · set s := u + 2 * max J.relThresh (u / J.contrast) with hsdef
    have hsum := krUsed_sum h hv hlen hu
    obtain ⟨c0, -⟩ := cell_exists h
    have hs : 0 < s := by
      have := hsum c0
      have := krUsed_pos hv 0 R.sat c0
      have := krUsed_pos hv 1 R.sat c0
      linarith
    obtain ⟨T, T1, T2, e0, e1, e2, hle⟩ := C92_parts_periodic (I := filled J.I fun _ => s) (p1 := J.I.perm) (p2 := J.I.perm) (m1 := fun c => [krUsed J 0 R.sat c, 0]) (m2 := fun c => [krUsed J 1 R.sat c, 0])
      (r1 := fun _ => [1, 0]) (r2 := fun _ => [1, 0]) (sound_filled h _ fun _ => hs) h.tiling h.box h.suited hbc
      (sound_filled h _ fun c => krUsed_pos hv 0 R.sat c) (sound_filled h _ fun c => krUsed_pos hv 1 R.sat c)
      (parts_cond h (fun c => krUsed J 0 R.sat c) (fun c => krUsed J 1 R.sat c) s hsum)
    obtain ⟨K1, g1, g2⟩ := filled_const h s hs
    have q : K1 = K0 := Option.some.inj ((g1 b0).symm.trans (hK b0))
    have q0 : T = fun i j => s * K0 i j := by rw [← q]; exact Option.some.inj ((e0 b0).symm.trans (g2 b0))
    have q1 : T1 = prod (R.kr 0) K0 := Option.some.inj ((e1 b0).symm.trans (hkr 0 b0))
    have q2 : T2 = prod (R.kr 1) K0 := Option.some.inj ((e2 b0).symm.trans (hkr 1 b0))
    have := hle x
    rw [q0, q1, q2, quad_mul] at this
    exact this

/-- C149: where a phase ends with the same relative permeability in all cells, at least the threshold, the upscaled relative permeability is that number times
the identity, for all types of boundary conditions (for linear ones the upscaled permeability must have an inverse that the code can compute). -/
theorem C149_uniform (h : Ready J lo hi side) (hv : Valid J) : ∃ K0, (∀ b, upscaleSinglePhase J.I b = some K0) ∧
    ((J.I.bct = .linear → K0 2 2 ≠ 0 ∧ (Matrix.of K0).det ≠ 0) → ∀ init : List K, init.length = J.I.G.nc →
      ∃ R, (∀ b b', upscale J init K0 b b' = some R) ∧ ∀ ph v, Between J ph R.sat v v → J.relThresh ≤ v → ∀ i j, R.kr ph i j = if i = j then v else 0) := by
  obtain ⟨K0, hK, -⟩ := filled_const h 1 one_pos
  have b0 : Boundary.BCs K := ⟨⟨[], []⟩, [], []⟩
  refine ⟨K0, hK, fun hlin init hl => ?_⟩
  have hinv : K0 2 2 ≠ 0 ∧ (Matrix.of K0).det ≠ 0 := by
    cases hbc : J.I.bct with
    | fixed =>
      obtain ⟨K1, h1, hoff, hpos, -⟩ := filled_fixed h hbc
      have : K1 = K0 := Option.some.inj ((h1 b0).symm.trans (hK b0))
      exact det_posdef K0 (RelPermChain.posdef_diag K0 (this ▸ hoff) (this ▸ hpos))
    | linear => exact hlin hbc
    | periodic =>
      obtain ⟨K1, h1, -, hpos, -⟩ := filled_periodic h hbc
      have : K1 = K0 := Option.some.inj ((h1 b0).symm.trans (hK b0))
      exact det_posdef K0 (this ▸ hpos)
  obtain ⟨R, hR, -, hlen, hkr⟩ := upscale_run h hv hl K0 hinv.1 hinv.2
  refine ⟨R, hR, fun ph v hv' hb i j => ?_⟩
  have hc : (fun c : Fin J.I.G.nc => krUsed J ph R.sat c) = fun _ => v := by
    funext c
    have := krUsed_between h hv ph hlen hv' hb c
    exact le_antisymm this.2 this.1
  obtain ⟨K1, g1, g2⟩ := filled_const h v (hv.relThresh.trans_le hb)
  have q : K1 = K0 := Option.some.inj ((g1 b0).symm.trans (hK b0))
  have e := hkr ph b0
  rw [hc, g2 b0, q] at e
  have e : prod (R.kr ph) K0 = fun i j => v * K0 i j := (Option.some.inj e).symm
  have hm : Matrix.of (R.kr ph) * Matrix.of K0 = (v • (1 : Matrix (Fin 3) (Fin 3) K)) * Matrix.of K0 := by
    ext i j
    rw [Matrix.smul_mul, Matrix.one_mul]
    exact congrFun (congrFun e i) j
  have hu : IsUnit (Matrix.of K0) := (Matrix.isUnit_iff_isUnit_det _).mpr (isUnit_iff_ne_zero.mpr hinv.2)
  have := congrFun (congrFun (hu.mul_left_inj.mp hm) i) j
  simpa [Matrix.one_apply] using this

/-- C149: the saturations of the result are those the steady state loop (C70, C71) ends with, and the implicit upscaler reports success exactly if the loop ended
stationary. -/
theorem C149_state (J : Job K) (init : List K) (up : Fin 3 → Fin 3 → K) (b b' : Boundary.BCs K) (R : Result K) (h : upscale J init up b b' = some R) :
    (∀ P pv transport, J.U = .implicit P pv transport → R.sat = (Steady.run P pv transport init).2.sat ∧ R.success = (Steady.run P pv transport init).2.stationary) ∧
    ∀ steps threshold solve, J.U = .explicit steps threshold solve → R.sat = (Steady.loopExplicit threshold solve steps 0 init).2 := by
  simp only [upscale, Option.bind_eq_some_iff, Option.map_eq_some_iff] at h
  obtain ⟨_, _, _, _, _, _, _, _, rfl⟩ := h
  exact ⟨fun P pv t e => by rw [e]; exact ⟨rfl, rfl⟩, fun n t f e => by rw [e]; rfl⟩

end main

/-! ### examples -/

/-- Saturation between 0 and 1. -/
def exClip (s : ℚ) : ℚ := max 0 (min 1 s)

/-- Two cells of different rock, squares as relative permeabilities, viscosities 1/2 and 2, a transport solver that halves the distance to saturation 1/2. -/
noncomputable def exJob (bct : Upscale.BCType) : Job ℚ where
  I := exInput bct 0 exPerm
  U := .implicit ⟨20, 1, 100, 1 / 100, 1, 365, true, id⟩ [100, 100] fun _ s _ => (true, s.map fun x => (x + 1 / 2) / 2)
  mob ph _ s := if ph = 0 then exClip s ^ 2 / (1 / 2) else (1 - exClip s) ^ 2 / 2
  relThresh := 1 / 10
  contrast := 100
  visc ph := if ph = 0 then 1 / 2 else 2

theorem ex_ready (bct : Upscale.BCType) : Ready (exJob bct) exLo exHi exSide where
  tiling := ex_tiling _
  box := ex_box _
  suited := ex_suited _ _ _
  symm := exPerm_symm
  posdef := exPerm_posdef
  basis := (ex_regular bct 0 exPerm exPerm_symm exPerm_posdef).basis
  sort := (ex_regular bct 0 exPerm exPerm_symm exPerm_posdef).sort
  solver := (ex_regular bct 0 exPerm exPerm_symm exPerm_posdef).solver
  gravity := rfl

theorem ex_valid (bct : Upscale.BCType) : Valid (exJob bct) where
  relThresh := by change (0 : ℚ) < 1 / 10; norm_num
  contrast := by change (1 : ℚ) ≤ 100; norm_num
  visc ph := by change (0 : ℚ) < if ph = 0 then 1 / 2 else 2; split <;> norm_num
  keeps _ s _ h := by change (s.map _).length = _; rw [List.length_map]; exact h

theorem ex_relperm (bct : Upscale.BCType) (c : Nat) (s : ℚ) :
    relperm (exJob bct) 0 c s = exClip s ^ 2 ∧ relperm (exJob bct) 1 c s = (1 - exClip s) ^ 2 := by
  constructor
  · change exClip s ^ 2 / (1 / 2) * (1 / 2) = _
    ring
  · change (1 - exClip s) ^ 2 / 2 * 2 = _
    ring

theorem exClip_mem (s : ℚ) : 0 ≤ exClip s ∧ exClip s ≤ 1 := ⟨le_max_left _ _, max_le zero_le_one (min_le_left _ _)⟩

theorem ex_between (bct : Upscale.BCType) (ph : Fin 2) (sat : List ℚ) : Between (exJob bct) ph sat 0 1 := fun c s _ => by
  obtain ⟨h0, h1⟩ := exClip_mem s
  fin_cases ph
  · change 0 ≤ relperm (exJob bct) 0 c s ∧ relperm (exJob bct) 0 c s ≤ 1
    rw [(ex_relperm bct c s).1]
    exact ⟨by positivity, by nlinarith⟩
  · change 0 ≤ relperm (exJob bct) 1 c s ∧ relperm (exJob bct) 1 c s ≤ 1
    rw [(ex_relperm bct c s).2]
    exact ⟨by positivity, by nlinarith⟩

theorem ex_sum (bct : Upscale.BCType) (sat : List ℚ) : SumBelow (exJob bct) sat 1 := fun c s _ => by
  obtain ⟨h0, h1⟩ := exClip_mem s
  rw [(ex_relperm bct c s).1, (ex_relperm bct c s).2]
  exact ⟨by positivity, by positivity, by nlinarith⟩

/-- Relative permeabilities between the threshold and 1, with sum at most 6/5. -/
example (init : List ℚ) (h : init.length = 2) : ∃ K0, (∀ b, upscaleSinglePhase (exJob .fixed).I b = some K0) ∧ ∃ R, (∀ b b', upscale (exJob .fixed) init K0 b b' = some R) ∧
    (∀ ph d, 1 / 10 ≤ R.kr ph d d ∧ R.kr ph d d ≤ 1) ∧ ∀ d, R.kr 0 d d + R.kr 1 d d ≤ 6 / 5 := by
  obtain ⟨K0, hK, hall⟩ := C149_fixed (ex_ready .fixed) (ex_valid .fixed) rfl
  obtain ⟨R, hR, _, _, h1, h2, h3⟩ := hall init h
  refine ⟨K0, hK, R, hR, fun ph d => ⟨h1 ph d, (h2 ph 0 1 (ex_between .fixed ph R.sat) (by change (1 / 10 : ℚ) ≤ 1; norm_num) d).2⟩, fun d => (h3 1 (ex_sum _ _) d).trans ?_⟩
  change (1 : ℚ) + 2 * max (1 / 10) (1 / 100) ≤ 6 / 5
  rw [max_eq_left (by norm_num)]
  norm_num

/-- The explicit upscaler. -/
example (init : List ℚ) (h : init.length = 2) : ∃ K0, ∃ R, (∀ b b', upscale { exJob .fixed with U := .explicit 5 (1 / 10) fun _ s => s.map fun x => (x + 1 / 2) / 2 } init K0 b b' = some R) ∧
    ∀ ph d, 1 / 10 ≤ R.kr ph d d := by
  obtain ⟨K0, hK, hall⟩ := C149_fixed (J := { exJob .fixed with U := .explicit 5 (1 / 10) fun _ s => s.map fun x => (x + 1 / 2) / 2 })
    { ex_ready .fixed with } { ex_valid .fixed with keeps := fun _ s h => by change (s.map _).length = _; rw [List.length_map]; exact h } rfl
  obtain ⟨R, hR, _, _, h1, _⟩ := hall init h
  exact ⟨K0, R, hR, h1⟩

/-- The same with periodic conditions. -/
example (init : List ℚ) (h : init.length = 2) : ∃ K0, (∀ b, upscaleSinglePhase (exJob .periodic).I b = some K0) ∧ ∃ R, (∀ b b', upscale (exJob .periodic) init K0 b b' = some R) ∧
    ∀ ph x, Mimetic.quadForm (prod (R.kr ph) K0) x ≤ 1 * Mimetic.quadForm K0 x := by
  obtain ⟨K0, hK, _, hall⟩ := C149_periodic (ex_ready .periodic) (ex_valid .periodic) rfl
  obtain ⟨R, hR, _, _, _, h2, _⟩ := hall init h
  exact ⟨K0, hK, R, hR, fun ph x => (h2 ph 0 1 (ex_between .periodic ph R.sat) (by change (1 / 10 : ℚ) ≤ 1; norm_num) x).2⟩

/-- Saturation 1/2 everywhere is kept by this transport solver: relative permeability 1/4 for both phases. -/
example (bct : Upscale.BCType) (hb : bct ≠ .linear) : ∃ K0, (∀ b, upscaleSinglePhase (exJob bct).I b = some K0) ∧ ∃ R, (∀ b b', upscale (exJob bct) [1 / 2, 1 / 2] K0 b b' = some R) ∧
    ∀ ph i j, R.kr ph i j = if i = j then 1 / 4 else 0 := by
  obtain ⟨K0, hK, hall⟩ := C149_uniform (ex_ready bct) (ex_valid bct)
  obtain ⟨R, hR, h⟩ := hall (fun hl => absurd hl hb) [1 / 2, 1 / 2] rfl
  refine ⟨K0, hK, R, hR, fun ph => h ph _ ?_ (by change (1 / 10 : ℚ) ≤ 1 / 4; norm_num)⟩
  have hsat : R.sat = [1 / 2, 1 / 2] := by
    rw [(C149_state _ _ _ ⟨⟨[], []⟩, [], []⟩ ⟨⟨[], []⟩, [], []⟩ R (hR _ _)).1 _ _ _ rfl |>.1]
    change (Steady.run (⟨20, 1, 100, 1 / 100, 1, 365, true, id⟩ : Steady.Params ℚ) [100, 100] (fun _ s _ => (true, s.map fun x => (x + 1 / 2) / 2)) [1 / 2, 1 / 2]).2.sat = _
    decide +kernel
  intro c s hs
  have : s = 1 / 2 := by
    rw [hsat] at hs
    match c, hs with
    | 0, hs => exact (Option.some.inj hs).symm
    | 1, hs => exact (Option.some.inj hs).symm
  subst this
  have e : exClip (1 / 2) = 1 / 2 := by decide +kernel
  fin_cases ph
  · change 1 / 4 ≤ relperm (exJob bct) 0 c (1 / 2) ∧ relperm (exJob bct) 0 c (1 / 2) ≤ 1 / 4
    rw [(ex_relperm bct c _).1, e]
    norm_num
  · change 1 / 4 ≤ relperm (exJob bct) 1 c (1 / 2) ∧ relperm (exJob bct) 1 c (1 / 2) ≤ 1 / 4
    rw [(ex_relperm bct c _).2, e]
    norm_num

end Verif.SteadyChain
