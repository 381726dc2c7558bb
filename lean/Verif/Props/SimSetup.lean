import Verif.Model.SimSetup
import Verif.Props.Linear
import Mathlib.Data.Rat.Defs
import Mathlib.Algebra.Field.Rat
import Mathlib.Algebra.Order.Ring.Rat
import Mathlib.Tactic.NormNum

/-!
C124: set-up of a simulator from parameters.
-/

namespace Verif.SimSetup

open Verif.Boundary

variable {K : Type} [Field K] [LinearOrder K]

/-- A table of conditions that has not been used. -/
def fresh : BCs K := ⟨⟨[], []⟩, [], []⟩

/-- The table after setting ids 1 and 2, on an unused table. -/
theorem leftRight_fresh (t : BCType) (l r : K) : ((fresh : BCs K).resize 7).setFlow 1 ⟨t, l⟩ >>= (fun b => b.setFlow 2 ⟨t, r⟩) =
    .ok ⟨Handler.mkN 7, [⟨.neumann, 0⟩, ⟨t, l⟩, ⟨t, r⟩, ⟨.neumann, 0⟩, ⟨.neumann, 0⟩, ⟨.neumann, 0⟩, ⟨.neumann, 0⟩], List.replicate 7 ⟨.dirichlet, 1⟩⟩ := rfl

/-- C124. Without further switches the pressure is 1 bar or the given one on the left (id 1), 0 or the given one on the right (id 2), no flow through the other
sides, and water enters everywhere. -/
theorem C124_pressures (sort : List (BFI K) → List (BFI K)) (p : Params K) (faces : List (Face K)) (h1 : p.upscaling ≠ some true) (h2 : p.region ≠ some true)
    (h3 : p.flowType = none ∨ p.flowType = some "dirichlet") : ∃ b, boundary sort p faces fresh = .ok b ∧
      b.flow = [⟨.neumann, 0⟩, ⟨.dirichlet, p.leftP.getD 100000⟩, ⟨.dirichlet, p.rightP.getD 0⟩, ⟨.neumann, 0⟩, ⟨.neumann, 0⟩, ⟨.neumann, 0⟩, ⟨.neumann, 0⟩] ∧
      b.sat = List.replicate 7 ⟨.dirichlet, 1⟩ := by
  have e1 : p.upscaling.getD false = false := by
    rcases h : p.upscaling with _ | _ | _ <;> simp_all
  have e2 : p.region.getD false = false := by
    rcases h : p.region with _ | _ | _ <;> simp_all
  have e3 : p.flowType.getD "dirichlet" = "dirichlet" := by rcases h3 with h | h <;> rw [h] <;> rfl
  have hn : ¬ ("dirichlet" = "neumann") := by decide
  have e4 : leftRight p = some (.dirichlet, p.leftP.getD (10 ^ 5), p.rightP.getD 0) := by
    simp only [leftRight, e3, if_neg hn, if_true]
  have e5 : (10 : K) ^ 5 = 100000 := by norm_num
  unfold boundary
  simp only [e1, e2, e4, Bool.false_eq_true, if_false]
  rw [e5]
  exact ⟨_, leftRight_fresh _ _ _, rfl, rfl⟩

/-- C124. With given fluxes the flux on the left is the given one and the one on the right is the given one or balances it. -/
theorem C124_fluxes (sort : List (BFI K) → List (BFI K)) (p : Params K) (faces : List (Face K)) (h1 : p.upscaling ≠ some true) (h2 : p.region ≠ some true)
    (h3 : p.flowType = some "neumann") (l : K) (h4 : p.leftFlux = some l) : ∃ b r, boundary sort p faces fresh = .ok b ∧
      b.flow = [⟨.neumann, 0⟩, ⟨.neumann, l⟩, ⟨.neumann, r⟩, ⟨.neumann, 0⟩, ⟨.neumann, 0⟩, ⟨.neumann, 0⟩, ⟨.neumann, 0⟩] ∧
      (∀ x, p.rightFlux = some x → r = x) ∧ (p.rightFlux = none → l + r = 0) := by
  have e1 : p.upscaling.getD false = false := by
    rcases h : p.upscaling with _ | _ | _ <;> simp_all
  have e2 : p.region.getD false = false := by
    rcases h : p.region with _ | _ | _ <;> simp_all
  have e4 : leftRight p = some (.neumann, l, p.rightFlux.getD (-l)) := by
    simp [leftRight, h3, h4]
  unfold boundary
  simp only [e1, e2, e4, Bool.false_eq_true, if_false]
  exact ⟨_, _, leftRight_fresh _ _ _, rfl, fun x hx => by rw [hx]; rfl, fun hx => by rw [hx]; simp⟩

/-- C124. With `upscaling` the conditions are those of the upscaler of the given type, with a pressure drop of 1 bar along x and saturation 1 unless
given otherwise. -/
theorem C124_upscaling (sort : List (BFI K) → List (BFI K)) (p : Params K) (faces : List (Face K)) (b : BCs K) (h1 : p.upscaling = some true) (t : Int)
    (h2 : p.bct = some t) (d : Fin 3) (h3 : p.pddir = some (d : Int) ∨ (p.pddir = none ∧ d = 0)) :
    boundary sort p faces b = setupUpscalingConditions sort faces t d (p.pdrop.getD 100000) (p.bdySat.getD 1) (p.twodim.getD false) b := by
  have e5 : (10 : K) ^ 5 = 100000 := by norm_num
  have e3 : p.pddir.getD 0 = (d : Int) := by
    rcases h3 with h | ⟨h, rfl⟩ <;> rw [h] <;> rfl
  unfold boundary
  simp only [h1, h2, e3, e5, Option.getD_some, if_true]
  fin_cases d <;> rfl

/-- C124. With `upscaling` the type of the conditions must be given; if the direction is not 0, 1 or 2, an unknown type (other than 0, 1, 2) is reported by an exception, a known one runs into the assertion on the direction. -/
theorem C124_upscaling_refused (sort : List (BFI K) → List (BFI K)) (p : Params K) (faces : List (Face K)) (b : BCs K) (h1 : p.upscaling = some true) :
    (p.bct = none → boundary sort p faces b = .error (.thrown, b)) ∧
    ∀ (t d : Int), p.bct = some t → p.pddir = some d → d ≠ 0 → d ≠ 1 → d ≠ 2 →
      boundary sort p faces b = .error (if t = 0 ∨ t = 1 ∨ t = 2 then .ub else .thrown, b) := by
  refine ⟨fun h => by unfold boundary; simp only [h1, h, Option.getD_some, if_true], fun t d ht hd h0 h2 h3 => ?_⟩
  unfold boundary
  simp only [h1, ht, hd, Option.getD_some, if_true, h0, h2, h3, if_false]
  by_cases h : t < 0 ∨ t > 2
  · rw [if_pos h, if_neg (by omega)]
  · rw [if_neg h, if_pos (by omega)]

/-- C124. With `region_based_bcs` exactly the sides (ids) with a face inside the block get the given pressure; the block is the unit cube unless
given otherwise. -/
theorem C124_region [IsStrictOrderedRing K] (sort : List (BFI K) → List (BFI K)) (p : Params K) (faces : List (Face K)) (h1 : p.upscaling ≠ some true) (h2 : p.region = some true)
    (pr : K) (h3 : p.blockP = some pr) : ∃ b, boundary sort p faces fresh = .ok b ∧ (∀ f ∈ faces, f.bid < b.flow.length) ∧
      ∀ i < b.flow.length, ∃ c, b.flow[i]? = some c ∧
        ((∃ f ∈ faces, f.bid = i ∧ i ≠ 0 ∧ (p.lowX.getD 0 < f.centroid 0 ∧ f.centroid 0 < p.highX.getD 1) ∧ (p.lowY.getD 0 < f.centroid 1 ∧ f.centroid 1 < p.highY.getD 1) ∧
          (p.lowZ.getD 0 < f.centroid 2 ∧ f.centroid 2 < p.highZ.getD 1)) → c = ⟨.dirichlet, pr⟩) ∧
        ((¬ ∃ f ∈ faces, f.bid = i ∧ i ≠ 0 ∧ (p.lowX.getD 0 < f.centroid 0 ∧ f.centroid 0 < p.highX.getD 1) ∧ (p.lowY.getD 0 < f.centroid 1 ∧ f.centroid 1 < p.highY.getD 1) ∧
          (p.lowZ.getD 0 < f.centroid 2 ∧ f.centroid 2 < p.highZ.getD 1)) → c = ⟨.neumann, 0⟩) := by
  classical
  have e1 : p.upscaling.getD false = false := by
    rcases h : p.upscaling with _ | _ | _ <;> simp_all
  obtain ⟨b, hb, hl, -, hc⟩ := C57_region_based_exact (fresh : BCs K) faces (vec3 (p.lowX.getD 0) (p.lowY.getD 0) (p.lowZ.getD 0))
    (vec3 (p.highX.getD 1) (p.highY.getD 1) (p.highZ.getD 1)) pr
  refine ⟨b, by unfold boundary; simp only [e1, h2, h3, Bool.false_eq_true, if_false, Option.getD_some, if_true]; exact hb, hl, fun i hi => ?_⟩
  have hv : ∀ f : Face K, (∀ d, vec3 (p.lowX.getD 0) (p.lowY.getD 0) (p.lowZ.getD 0) d < f.centroid d ∧
      f.centroid d < vec3 (p.highX.getD 1) (p.highY.getD 1) (p.highZ.getD 1) d) ↔
      ((p.lowX.getD 0 < f.centroid 0 ∧ f.centroid 0 < p.highX.getD 1) ∧ (p.lowY.getD 0 < f.centroid 1 ∧ f.centroid 1 < p.highY.getD 1) ∧
          (p.lowZ.getD 0 < f.centroid 2 ∧ f.centroid 2 < p.highZ.getD 1)) := by
    intro f
    constructor
    · intro h
      exact ⟨h 0, h 1, h 2⟩
    · rintro ⟨a, b, c⟩ d
      fin_cases d
      · exact a
      · exact b
      · exact c
  have := hc i hi
  simp only [hv] at this
  refine ⟨_, this, fun h => if_pos h, fun h => ?_⟩
  rw [if_neg h]; rfl

/-- C124. Which inputs are refused by the boundary set-up when neither upscaling nor regions are asked for: a flux without value and unknown types. -/
theorem C124_refused (sort : List (BFI K) → List (BFI K)) (p : Params K) (faces : List (Face K)) (h1 : p.upscaling ≠ some true) (h2 : p.region ≠ some true) :
    (∃ e, boundary sort p faces fresh = .error e) ↔
      (p.flowType = some "neumann" ∧ p.leftFlux = none) ∨ ∃ t, p.flowType = some t ∧ t ≠ "neumann" ∧ t ≠ "dirichlet" := by
  by_cases h3 : p.flowType = none ∨ p.flowType = some "dirichlet"
  · obtain ⟨b, hb, -⟩ := C124_pressures sort p faces h1 h2 h3
    rw [hb]
    constructor
    · rintro ⟨e, he⟩; cases he
    · rintro (⟨h, -⟩ | ⟨t, h, h', h''⟩) <;> rcases h3 with h3 | h3 <;> rw [h3] at h
      · cases h
      · exact absurd (Option.some.inj h) (by decide)
      · cases h
      · exact absurd (Option.some.inj h).symm h''
  · obtain ⟨t, ht⟩ : ∃ t, p.flowType = some t := by
      rcases h : p.flowType with _ | t
      · exact absurd (Or.inl h) h3
      · exact ⟨t, rfl⟩
    have htd : t ≠ "dirichlet" := fun h => h3 (Or.inr (by rw [ht, h]))
    have e1 : p.upscaling.getD false = false := by
      rcases h : p.upscaling with _ | _ | _ <;> simp_all
    have e2 : p.region.getD false = false := by
      rcases h : p.region with _ | _ | _ <;> simp_all
    by_cases htn : t = "neumann"
    · subst htn
      rcases hl : p.leftFlux with _ | l
      · have e4 : leftRight p = none := by simp [leftRight, ht, hl]
        refine ⟨fun _ => Or.inl ⟨ht, rfl⟩, fun _ => ⟨_, by unfold boundary; simp only [e1, e2, e4, Bool.false_eq_true, if_false]; rfl⟩⟩
      · obtain ⟨b, r, hb, -⟩ := C124_fluxes sort p faces h1 h2 ht l hl
        rw [hb]
        constructor
        · rintro ⟨e, he⟩; cases he
        · rintro (⟨-, h⟩ | ⟨t, h, h', -⟩)
          · cases h
          · rw [ht] at h; exact absurd (Option.some.inj h).symm h'
    · have e4 : leftRight p = none := by simp [leftRight, ht, htn, htd]
      refine ⟨fun _ => Or.inr ⟨t, ht, htn, htd⟩, fun _ => ⟨_, by unfold boundary; simp only [e1, e2, e4, Bool.false_eq_true, if_false]; rfl⟩⟩

/-- C124. Initial saturations: the given value (0 by default) in every cell, or the numbers of the file, which are accepted exactly if the count at the
start of the file, the number of values and the number of cells agree. -/
theorem C124_saturation (read : String → Option (Option Int × List K)) (p : Params K) (n : Nat) :
    (p.fromFile ≠ some true → saturation read p n = some (List.replicate n (p.sat.getD 0))) ∧
    (p.fromFile = some true → ∀ s, saturation read p n = some s ↔
      ∃ f, p.file = some f ∧ s.length = n ∧ (read f = some (some (n : Int), s) ∨ (read f = some (none, s) ∧ n = 0))) := by
  constructor
  · intro h
    have : p.fromFile.getD false = false := by
      rcases h' : p.fromFile with _ | _ | _ <;> simp_all
    simp [saturation, this]
  · intro h s
    unfold saturation
    simp only [h, Option.getD_some, if_true]
    rcases hf : p.file with _ | f
    · simp
    · rcases hr : read f with _ | ⟨c, v⟩
      · simp [hr]
      · simp only [Option.bind_eq_bind, Option.bind_some, hr, Option.some.injEq, Prod.mk.injEq, exists_eq_left']
        constructor
        · intro hh
          by_cases h1 : c.getD 0 = (n : Int)
          · rw [if_neg (by simpa using h1)] at hh
            by_cases h2 : (v.length : Int) = c.getD 0
            · rw [if_neg (by simpa using h2)] at hh
              cases hh
              refine ⟨by omega, ?_⟩
              rcases c with _ | c
              · right
                exact ⟨⟨rfl, rfl⟩, by simp only [Option.getD_none] at h1; omega⟩
              · left
                exact ⟨by simp only [Option.getD_some] at h1; rw [h1], rfl⟩
            · rw [if_pos (by simpa using h2)] at hh; cases hh
          · rw [if_pos (by simpa using h1)] at hh; cases hh
        · rintro ⟨hl, ⟨rfl, rfl⟩ | ⟨⟨rfl, rfl⟩, rfl⟩⟩
          · simp [hl]
          · simp [hl]

/-- C124. A simulator that is set up for the first time: number and length of the steps (days to seconds), gravity, saturations, conditions and no sources. -/
theorem C124_init (sort : List (BFI K) → List (BFI K)) (read : String → Option (Option Int × List K)) (p : Params K) (faces : List (Face K)) (n : Nat) (s : Sim K)
    (h : init sort read p faces n Sim.new = .ok s) :
    s.steps = p.steps.getD 1 ∧ s.stepsize = p.stepsize.getD 1 * 86400 ∧ s.gravity 0 = p.gx.getD 0 ∧ s.gravity 1 = p.gy.getD 0 ∧ s.gravity 2 = p.gz.getD 0 ∧
    s.rates = List.replicate n 0 ∧ saturation read p n = some s.sat ∧ boundary sort p faces fresh = .ok s.bcs := by
  unfold init at h
  rcases hs : saturation read p n with _ | sat
  · simp [hs] at h
  · simp only [hs] at h
    rcases hb : boundary sort p faces Sim.new.bcs with ⟨e, _⟩ | b
    · cases e <;> simp [hb] at h
    · simp only [hb] at h
      cases h
      refine ⟨rfl, rfl, rfl, rfl, rfl, ?_, rfl, hb⟩
      simp [resizeList, Sim.new]

/-! ### Violations -/

/-- C124, violated: a second set-up with the same parameters multiplies a step length that is not given by 86400. -/
theorem C124_violated_again (sort : List (BFI K) → List (BFI K)) (read : String → Option (Option Int × List K)) (p : Params K) (faces : List (Face K)) (n : Nat)
    (s s' : Sim K) (hp : p.stepsize = none) (h : init sort read p faces n s = .ok s') : s'.stepsize = s.stepsize * 86400 := by
  unfold init at h
  rcases hs : saturation read p n with _ | sat
  · simp [hs] at h
  · simp only [hs] at h
    rcases hb : boundary sort p faces s.bcs with ⟨e, _⟩ | b
    · cases e <;> simp [hb] at h
    · simp only [hb] at h
      cases h
      simp [hp]

/-- Parameters without entries. -/
def noParams : Params ℚ :=
  ⟨none, none, none, none, none, none, none, none, none, none, none, none, none, none, none, none, none, none, none, none, none, none, none, none, none, none, none⟩

/-- C124, violated: any number is accepted as saturation. -/
theorem C124_violated_range : saturation (fun _ => none) { noParams with sat := some (-3) } 2 = some [-3, -3] := by decide +kernel

/-- A boundary face of side 3 at the centre of the unit cube's lower y-side, slightly inside. -/
def sideFace : Face ℚ := ⟨3, 1, fun _ => 1 / 2⟩

/-- C124, violated: conditions of an earlier set-up stay. After conditions for a region, the set-up for flow from left to right still has a pressure on side 3,
where a fresh simulator has no flow. -/
theorem C124_violated_stale : ∃ b b', boundary id { noParams with region := some true, blockP := some 7 } [sideFace] fresh = .ok b ∧
    boundary id noParams [sideFace] b = .ok b' ∧ b'.flow[3]? = some ⟨.dirichlet, 7⟩ ∧
    ∃ c, boundary id noParams [sideFace] fresh = .ok c ∧ c.flow[3]? = some ⟨.neumann, 0⟩ :=
  ⟨⟨⟨[0, 0, 0, 0], [0, 0, 0, 0]⟩, [⟨.neumann, 0⟩, ⟨.neumann, 0⟩, ⟨.neumann, 0⟩, ⟨.dirichlet, 7⟩], [⟨.dirichlet, 1⟩, ⟨.dirichlet, 1⟩, ⟨.dirichlet, 1⟩, ⟨.dirichlet, 1⟩]⟩,
   _, by decide +kernel, rfl, by decide +kernel, _, rfl, by decide +kernel⟩

/-! ### The hypotheses are met -/

example : (noParams.upscaling ≠ some true) ∧ noParams.region ≠ some true ∧ (noParams.flowType = none ∨ noParams.flowType = some "dirichlet") :=
  ⟨by simp [noParams], by simp [noParams], Or.inl rfl⟩

example : ∃ s, init id (fun _ => none) { noParams with stepsize := some 2, sat := some (1 / 2) } [sideFace] 3 Sim.new = .ok s ∧ s.stepsize = 172800 :=
  ⟨_, rfl, by decide +kernel⟩

example : saturation (fun _ => some (some 2, [1 / 4, 3 / 4])) { noParams with fromFile := some true, file := some "s" } 2 = some [(1 : ℚ) / 4, 3 / 4] := by decide +kernel

example : boundary (K := ℚ) id { noParams with upscaling := some true, bct := some 3, pddir := some 5 } [] fresh = .error (.thrown, fresh) :=
  ((C124_upscaling_refused id _ [] fresh rfl).2 3 5 rfl rfl (by decide) (by decide) (by decide)).trans rfl

end Verif.SimSetup
