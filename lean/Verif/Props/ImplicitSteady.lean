import Verif.Props.ImplicitStep
import Verif.Props.SteadyChain

/-!
C150: the steady state upscaler with the implicit transport solver inside, from a state in which nothing has to change.
-/

namespace Verif.ImplicitStep

open Verif.Implicit
open Verif.ImplicitStep.Spec
open Verif.SinglePhase (upscaleSinglePhase)

variable {K : Type} [Field K] [LinearOrder K] [IsStrictOrderedRing K]

theorem maxdiff_self (s : List K) : Steady.maxdiff s s = 0 := by
  unfold Steady.maxdiff
  have : ∀ l : List (K × K), (∀ p ∈ l, p.1 = p.2) → l.foldl (fun m p => max m |p.1 - p.2|) 0 = 0 := by
    intro l
    induction l with
    | nil => intro _; rfl
    | cons p l ih =>
      intro h
      rw [List.foldl_cons, h p (List.mem_cons_self ..), sub_self, abs_zero, max_self]
      exact ih fun q hq => h q (List.mem_cons_of_mem _ hq)
  refine this _ fun p hp => ?_
  rw [List.zip_eq_zipWith, List.zipWith_self, List.mem_map] at hp
  obtain ⟨a, -, rfl⟩ := hp
  rfl

theorem sqdiff_self (pv s : List K) : Steady.sqdiff pv s s = 0 := by
  unfold Steady.sqdiff
  have : ∀ l : List ((K × K) × K), (∀ p ∈ l, p.1.1 = p.1.2) → l.foldl (fun a p => a + (p.1.1 - p.1.2) * (p.1.1 - p.1.2) * p.2) 0 = 0 := by
    intro l
    induction l with
    | nil => intro _; rfl
    | cons p l ih =>
      intro h
      rw [List.foldl_cons, h p (List.mem_cons_self ..), sub_self, zero_mul, zero_mul, add_zero]
      exact ih fun q hq => h q (List.mem_cons_of_mem _ hq)
  refine this _ fun p hp => ?_
  have hp := (List.of_mem_zip (a := p.1) (b := p.2) hp).1
  rw [List.zip_eq_zipWith, List.zipWith_self, List.mem_map] at hp
  obtain ⟨a, -, e⟩ := hp
  rw [← e]

/-- **C150** Steady state upscaling from a state in which nothing has to change: success after one call of the transport solver, the state is the initial one, and a phase whose relative
permeability is the same in all cells gets it as upscaled relative permeability in every direction. -/
theorem C150_steady {J : SteadyChain.Job K} {lo hi : Fin 3 → K} {side : Boundary.Face K → Nat} (h : SteadyChain.Ready J lo hi side) (hv : SteadyChain.Valid J)
    {P : Steady.Params K} {pv : List K} {M : Medium K} {lin : (Nat → Nat → K) → List K → List K → List K} {big : K} {c : Newton.Ctrl K} {mem : NewtonVec.Mem K} {maxRepeats : Nat}
    (hU : J.U = .implicit P pv (asSolver M lin big c mem maxRepeats)) (hnc : M.grid.nc = J.I.G.nc) (hM : Sound M) {init : List K} (hs : Within M init)
    (hlin : ∀ A b g, (lin A b g).length = g.length) (hm : 1 ≤ c.maxIt) (ha : 0 < c.atol) {F : K} (hu : Uniform M init F)
    (hP : 1 ≤ P.maxIt) (hch : 0 < P.satChangeYear) (hsq : P.sqrt 0 = 0) :
    (Steady.run P pv (asSolver M lin big c mem maxRepeats) init).1.length = 1 ∧
    ∃ K0, (∀ b, upscaleSinglePhase J.I b = some K0) ∧ ((J.I.bct = .linear → K0 2 2 ≠ 0 ∧ (Matrix.of K0).det ≠ 0) →
      ∃ R, (∀ b b', SteadyChain.upscale J init K0 b b' = some R) ∧ R.success = true ∧ R.sat = init ∧
        ∀ ph v, SteadyChain.Between J ph init v v → J.relThresh ≤ v → ∀ i j, R.kr ph i j = if i = j then v else 0) := by
  have hrun : (Steady.run P pv (asSolver M lin big c mem maxRepeats) init).1.length = 1 ∧ (Steady.run P pv (asSolver M lin big c mem maxRepeats) init).2.sat = init ∧
      (Steady.run P pv (asSolver M lin big c mem maxRepeats) init).2.stationary = true := by
    obtain ⟨h1, h2, -⟩ := C150_transport_stationary (lin := lin) (big := big) hM hs hlin hm ha hu mem maxRepeats P.initStep
    obtain ⟨n, hn⟩ : ∃ n, P.maxIt = n + 1 := ⟨P.maxIt - 1, by omega⟩
    have hd : Steady.change P pv init init = 0 := by
      unfold Steady.change Steady.euclid
      rw [maxdiff_self, sqdiff_self, zero_div, hsq, ite_self]
    unfold Steady.run
    rw [hn, Steady.loop, if_neg (show ¬ (false = true) by decide)]
    have hb : (Steady.body P pv (asSolver M lin big c mem maxRepeats) 0 ⟨init, init, P.initStep, false⟩).2.stationary = true ∧
        (Steady.body P pv (asSolver M lin big c mem maxRepeats) 0 ⟨init, init, P.initStep, false⟩).2.sat = init := by
      simp only [Steady.body, asSolver, h1, h2, if_true, hd, zero_mul, zero_div, hch, decide_true, and_self]
    have hst : ∀ (n it : Nat) (st : Steady.LoopSt K), st.stationary = true → Steady.loop P pv (asSolver M lin big c mem maxRepeats) n it st = ([], st) := by
      intro n it st hst
      cases n with
      | zero => rfl
      | succ n => rw [Steady.loop, if_pos hst]
    simp only [hst _ _ _ hb.1]
    exact ⟨rfl, hb.2, hb.1⟩
  obtain ⟨K0, hK, hmain⟩ := SteadyChain.C149_uniform h hv
  refine ⟨hrun.1, K0, hK, fun hl => ?_⟩
  obtain ⟨R, hR, hkr⟩ := hmain hl init (hs.length.trans hnc)
  have b0 : Boundary.BCs K := ⟨⟨[], []⟩, [], []⟩
  obtain ⟨e1, e2⟩ := (SteadyChain.C149_state J init K0 b0 b0 R (hR b0 b0)).1 P pv _ hU
  have e1 : R.sat = init := e1.trans hrun.2.1
  exact ⟨R, hR, e2.trans hrun.2.2, e1, fun ph v hb hv' => hkr ph v (e1 ▸ hb) hv'⟩

/-! ### example -/

/-- Two cells with flow from the first to the second, squares as relative permeabilities, viscosities 1/2 and 2, injection of water fraction 4/5. -/
def exPair : Medium ℚ where
  grid := ⟨2, 1, fun c => if c < 2 then [0] else [], fun f => if f = 0 then (0, 1) else (-1, -1)⟩
  mob _ s := (SteadyChain.exClip s ^ 2 / (1 / 2), (1 - SteadyChain.exClip s) ^ 2 / 2)
  dmob _ s := (4 * s, 1 - s)
  pc _ s := 1 - s
  dpc _ _ := -1
  smin _ := 0
  smax _ := 1
  porevol _ := 100
  trans _ := 1
  faceflux _ := 1
  src := [(0, 1, 4 / 5), (1, -1, 0)]
  tol := 1 / 10 ^ 5

theorem exPair_sound : Sound exPair where
  grid := by
    have faces : ∀ f, f = 0 ∨ exPair.grid.faceCells f = (-1, -1) := fun f => by
      by_cases h : f = 0
      · exact Or.inl h
      · exact Or.inr (if_neg h)
    have cf : ∀ c, c < 2 → exPair.grid.cellFaces c = [0] := fun c hc => if_pos hc
    refine ⟨fun c f hc hf => ?_, fun f => ?_⟩
    · rw [cf c hc, List.mem_singleton] at hf
      subst hf
      have : c = 0 ∨ c = 1 := by have : c < 2 := hc; omega
      rcases this with rfl | rfl <;> decide
    · rcases faces f with rfl | h
      · decide
      · rw [h]; decide
  distinct f := by
    by_cases h : f = 0
    · subst h; decide
    · intro h0
      have : exPair.grid.faceCells f = (-1, -1) := if_neg h
      rw [this] at h0
      exact absurd h0 (by decide)
  limits _ := (by decide : (0 : ℚ) ≤ 1)
  mob c s h1 h2 := by
    have h1 : (0 : ℚ) ≤ s := h1
    have h2 : s ≤ 1 := h2
    have e : SteadyChain.exClip s = s := by unfold SteadyChain.exClip; rw [min_eq_right h2, max_eq_right h1]
    change 0 ≤ SteadyChain.exClip s ^ 2 / (1 / 2) ∧ 0 ≤ (1 - SteadyChain.exClip s) ^ 2 / 2 ∧ 0 < SteadyChain.exClip s ^ 2 / (1 / 2) + (1 - SteadyChain.exClip s) ^ 2 / 2
    rw [e]
    exact ⟨by positivity, by positivity, by nlinarith [sq_nonneg (s - 1 / 2)]⟩
  porevol _ := (by decide : (0 : ℚ) ≤ 100)
  src q hq := by
    change q.1 < 2
    simp only [exPair, List.mem_cons, List.not_mem_nil, or_false] at hq
    rcases hq with rfl | rfl <;> decide
  tol := by decide +kernel
  still f a b _ h := absurd h (by decide : (1 : ℚ) ≠ 0)

/-- The job of C149 with the implicit transport solver inside. -/
noncomputable def exImplicit (bct : Upscale.BCType) : SteadyChain.Job ℚ :=
  { SteadyChain.exJob bct with
    U := .implicit ⟨20, 1, 100, 1 / 100, 1, 365, true, id⟩ [100, 100] (asSolver exPair exLower (10 ^ 99) exCtrl exMem 10) }

theorem exImplicit_valid (bct : Upscale.BCType) : SteadyChain.Valid (exImplicit bct) :=
  { SteadyChain.ex_valid bct with
    keeps := fun _ s _ h => (C150_within (M := exPair) exPair_sound h exLower_length (by decide) exMem 10 _).length }

/-- Saturation 1/2 in both cells is steady: both relative permeabilities are 1/4. -/
example (bct : Upscale.BCType) (hb : bct ≠ .linear) : ∃ K0 R, (∀ b b', SteadyChain.upscale (exImplicit bct) [1 / 2, 1 / 2] K0 b b' = some R) ∧ R.success = true ∧
    ∀ ph i j, R.kr ph i j = if i = j then 1 / 4 else 0 := by
  have two : ∀ c, c < 2 → c = 0 ∨ c = 1 := fun c hc => by omega
  obtain ⟨-, K0, -, h⟩ := C150_steady (J := exImplicit bct) (M := exPair) (init := [1 / 2, 1 / 2]) (F := 4 / 5) { SteadyChain.ex_ready bct with } (exImplicit_valid bct) rfl rfl exPair_sound
    ⟨rfl, fun c hc => by rcases two c hc with rfl | rfl <;> decide +kernel⟩ exLower_length (by decide) (by decide +kernel)
    ⟨fun c hc => by rcases two c hc with rfl | rfl <;> decide +kernel, fun q hq h => by
        simp only [exPair, List.mem_cons, List.not_mem_nil, or_false] at hq
        rcases hq with rfl | rfl
        · rfl
        · exact absurd h (by decide),
      fun f a b hI => by
        have ha : a < 2 := hI.2.1
        have hb : b < 2 := hI.2.2.1
        rcases two a ha with rfl | rfl <;> rcases two b hb with rfl | rfl <;> rfl,
      fun c hc => by rcases two c hc with rfl | rfl <;> decide +kernel⟩
    (by decide) (by decide) rfl
  obtain ⟨R, hR, h1, -, h3⟩ := h (fun hl => absurd hl hb)
  refine ⟨K0, R, hR, h1, fun ph => h3 ph _ (fun c s hs => ?_) (by change (1 / 10 : ℚ) ≤ 1 / 4; norm_num)⟩
  have : s = 1 / 2 := by
    match c, hs with
    | 0, hs => exact (Option.some.inj hs).symm
    | 1, hs => exact (Option.some.inj hs).symm
  subst this
  have e : SteadyChain.exClip (1 / 2) = 1 / 2 := by decide +kernel
  have hr := SteadyChain.ex_relperm bct c (1 / 2)
  rw [e] at hr
  match ph with
  | 0 =>
    change 1 / 4 ≤ SteadyChain.relperm (SteadyChain.exJob bct) 0 c (1 / 2) ∧ SteadyChain.relperm (SteadyChain.exJob bct) 0 c (1 / 2) ≤ 1 / 4
    rw [hr.1]; norm_num
  | 1 =>
    change 1 / 4 ≤ SteadyChain.relperm (SteadyChain.exJob bct) 1 c (1 / 2) ∧ SteadyChain.relperm (SteadyChain.exJob bct) 1 c (1 / 2) ≤ 1 / 4
    rw [hr.2]; norm_num

end Verif.ImplicitStep
