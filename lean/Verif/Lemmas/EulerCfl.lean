import Verif.Lemmas.EulerRange
import Mathlib.Tactic.Positivity
import Mathlib.Tactic.LinearCombination
import Mathlib.Algebra.Order.Group.MinMax

/-! Upstream flux in the viscous case, CFL limit and maximum principle. -/

namespace Verif.Euler

open Spec
open scoped BigOperators

variable {K M : Type} [Field K] [LinearOrder K] [IsStrictOrderedRing K]

/-- Viscous transport only, scalar mobilities, no gravity influence, unit normals, positive total mobility. -/
structure Viscous (S : Setup K K) : Prop where
  ops : S.ops = scalarMob
  method : S.method = ⟨true, false, false⟩
  grav : S.rock.deltaRho = 0 ∨ S.gravity = 0
  normal : ∀ c, ∀ f ∈ facesOf S.grid c, inner f.normal f.normal = 1

theorem gravInfluence_zero (S : Setup K M) (h : S.rock.deltaRho = 0 ∨ S.gravity = 0) (c0 c1 : Nat) :
    gravInfluence S c0 c1 = fun _ => 0 := by
  funext i
  unfold gravInfluence scale matVec
  rcases h with h | h
  · simp [h]
  · simp [h]

theorem upstreamMobs_zero (S : Setup K K) (h : S.rock.deltaRho = 0 ∨ S.gravity = 0) (ho : S.ops = scalarMob)
    (hg : S.method.gravity = false)
    (s0 : K) (c : Nat) (f : Face K) (o : Other K) :
    upstreamMobs S s0 c f o =
      if 0 ≤ f.flux then (S.rock.mob false c s0, S.rock.mob true c s0)
      else (S.rock.mob false o.cell o.sat, S.rock.mob true o.cell o.sat) := by
  unfold upstreamMobs
  rw [gravInfluence_zero S h, ho]
  by_cases hf : 0 ≤ f.flux
  · simp [hg, scalarMob, scale, inner, hf]
  · simp [hg, scalarMob, scale, inner, hf]

theorem waterFlux_viscous (S : Setup K K) (h : S.rock.deltaRho = 0 ∨ S.gravity = 0) (ho : S.ops = scalarMob)
    (hm : S.method = ⟨true, false, false⟩) (sat : Nat → K) (c : Nat) (f : Face K) (o : Other K)
    (hn : inner f.normal f.normal = 1)
    (hp : (if 0 ≤ f.flux then S.rock.mob false c (sat c) + S.rock.mob true c (sat c)
      else S.rock.mob false o.cell o.sat + S.rock.mob true o.cell o.sat) ≠ 0) :
    waterFlux S sat c f o =
      .ok (f.flux * (if 0 ≤ f.flux then fw S c (sat c) else fw S o.cell o.sat)) := by
  unfold waterFlux
  rw [upstreamMobs_zero S h ho (by rw [hm]), hm]
  simp only [optTerm, viscTerm, ho]
  have key : ∀ m0 m1 : K, m0 + m1 ≠ 0 →
      inner f.normal (scale m0 (scale (1 / (m0 + m1)) (scale f.flux f.normal))) = f.flux * (m0 / (m0 + m1)) := by
    intro m0 m1 hne
    unfold inner at hn
    unfold inner scale
    have : ∑ i, f.normal i * (m0 * (1 / (m0 + m1) * (f.flux * f.normal i))) =
        (f.flux * (m0 / (m0 + m1))) * ∑ i, f.normal i * f.normal i := by
      rw [Finset.mul_sum]
      apply Finset.sum_congr rfl
      intro i _; ring
    rw [this, hn, mul_one]
  by_cases hf : 0 ≤ f.flux
  · simp only [hf, if_true] at hp ⊢
    simp only [scalarMob, hp, if_false, bind, Except.bind, pure, Except.pure]
    simp only [Bool.false_eq_true, if_false, add_zero]
    rw [key _ _ hp]; rfl
  · simp only [hf, if_false] at hp ⊢
    simp only [scalarMob, hp, if_false, bind, Except.bind, pure, Except.pure]
    simp only [Bool.false_eq_true, if_true, if_false, add_zero]
    rw [key _ _ hp]; rfl

/-! ### CFL -/

theorem fluxPN_aux (l : List (Face K)) (a b : K) :
    l.foldl (fun a f => if f.flux > 0 then (a.1 + f.flux, a.2) else (a.1, a.2 - f.flux)) (a, b) =
      (a + ((l.filter fun f => 0 < f.flux).map (·.flux)).sum,
       b + ((l.filter fun f => ¬ 0 < f.flux).map (fun f => - f.flux)).sum) := by
  induction l generalizing a b with
  | nil => simp
  | cons f l ih =>
    rw [List.foldl_cons]
    by_cases h : 0 < f.flux
    · simp only [gt_iff_lt, h, if_true]
      rw [ih, List.filter_cons_of_pos (by simp [h]), List.filter_cons_of_neg (by simp [h])]
      simp [add_assoc]
    · simp only [gt_iff_lt, h, if_false]
      rw [ih, List.filter_cons_of_neg (by simp [h]), List.filter_cons_of_pos (by simp [h])]
      simp only [List.map_cons, List.sum_cons]
      congr 1; ring

theorem fluxPN_eq (l : List (Face K)) :
    fluxPN l = (((l.filter fun f => 0 < f.flux).map (·.flux)).sum,
      ((l.filter fun f => ¬ 0 < f.flux).map (fun f => - f.flux)).sum) := by
  unfold fluxPN
  rw [fluxPN_aux]; simp

/-- Larger of total inflow and total outflow of a list of faces. -/
def maxFlux (l : List (Face K)) : K := max (fluxPN l).2 (fluxPN l).1

theorem cflVelocity_fold (factor : K) (poro : Nat → K) (l : List (Cell K × Nat)) (big dt : K)
    (h : l.foldlM (cflVelocityStep factor poro) big = .ok dt) :
    dt ≤ big ∧
    (∀ c ∈ l, maxFlux c.1.faces ≠ 0 → dt ≤ factor * c.1.volume * poro c.2 / maxFlux c.1.faces) ∧
    (dt = big ∨ ∃ c ∈ l, maxFlux c.1.faces ≠ 0 ∧ dt = factor * c.1.volume * poro c.2 / maxFlux c.1.faces) := by
  induction l generalizing big with
  | nil =>
    simp [List.foldlM, pure, Except.pure] at h
    subst h; simp
  | cons c l ih =>
    rw [List.foldlM_cons] at h
    unfold cflVelocityStep at h
    change (do
      let b ← (if maxFlux c.1.faces = 0 then Except.ok big else
        if factor * c.1.volume * poro c.2 / maxFlux c.1.faces = 0 then Except.error Err.thrown else
        if factor * c.1.volume * poro c.2 / maxFlux c.1.faces < big then
          Except.ok (factor * c.1.volume * poro c.2 / maxFlux c.1.faces) else Except.ok big)
      l.foldlM (cflVelocityStep factor poro) b) = _ at h
    by_cases h0 : maxFlux c.1.faces = 0
    · rw [if_pos h0] at h
      obtain ⟨i1, i2, i3⟩ := ih big h
      refine ⟨i1, ?_, ?_⟩
      · intro d hd
        rw [List.mem_cons] at hd
        rcases hd with rfl | hd
        · exact fun hne => absurd h0 hne
        · exact i2 d hd
      · rcases i3 with i3 | ⟨d, hd, hh⟩
        · exact Or.inl i3
        · exact Or.inr ⟨d, List.mem_cons_of_mem _ hd, hh⟩
    · rw [if_neg h0] at h
      by_cases h1 : factor * c.1.volume * poro c.2 / maxFlux c.1.faces = 0
      · rw [if_pos h1] at h; cases h
      · rw [if_neg h1] at h
        by_cases h2 : factor * c.1.volume * poro c.2 / maxFlux c.1.faces < big
        · rw [if_pos h2] at h
          obtain ⟨i1, i2, i3⟩ := ih _ h
          refine ⟨i1.trans h2.le, ?_, ?_⟩
          · intro d hd
            rw [List.mem_cons] at hd
            rcases hd with rfl | hd
            · exact fun _ => i1
            · exact i2 d hd
          · rcases i3 with i3 | ⟨d, hd, hh⟩
            · exact Or.inr ⟨c, List.mem_cons_self, h0, i3⟩
            · exact Or.inr ⟨d, List.mem_cons_of_mem _ hd, hh⟩
        · rw [if_neg h2] at h
          obtain ⟨i1, i2, i3⟩ := ih _ h
          refine ⟨i1, ?_, ?_⟩
          · intro d hd
            rw [List.mem_cons] at hd
            rcases hd with rfl | hd
            · exact fun _ => i1.trans (not_lt.1 h2)
            · exact i2 d hd
          · rcases i3 with i3 | ⟨d, hd, hh⟩
            · exact Or.inl i3
            · exact Or.inr ⟨d, List.mem_cons_of_mem _ hd, hh⟩

theorem cflVelocity_ok (factor : K) (poro : Nat → K) (l : List (Cell K × Nat)) (big : K)
    (h : ∀ c ∈ l, factor * c.1.volume * poro c.2 ≠ 0) :
    ∃ dt, l.foldlM (cflVelocityStep factor poro) big = .ok dt := by
  induction l generalizing big with
  | nil => exact ⟨big, rfl⟩
  | cons c l ih =>
    have hl : ∀ c ∈ l, factor * c.1.volume * poro c.2 ≠ 0 := fun d hd => h d (List.mem_cons_of_mem _ hd)
    have hc := h c List.mem_cons_self
    rw [List.foldlM_cons]
    have : ∃ b, cflVelocityStep factor poro big c = .ok b := by
      unfold cflVelocityStep
      simp only
      by_cases h0 : max (fluxPN c.1.faces).2 (fluxPN c.1.faces).1 = 0
      · exact ⟨big, by rw [if_pos h0]⟩
      · rw [if_neg h0, if_neg (div_ne_zero hc h0)]
        split
        · exact ⟨_, rfl⟩
        · exact ⟨_, rfl⟩
    obtain ⟨b, hb⟩ := this
    rw [hb]
    exact ih b hl

/-! ### Maximum principle -/

/-- Physical range: saturations and boundary saturations in `[0,1]`. -/
structure InRange (S : Setup K K) (sat : Nat → K) : Prop where
  sat : ∀ i < S.grid.length, 0 ≤ sat i ∧ sat i ≤ 1
  bc : ∀ bid s, S.bcs.cond bid = .dirichlet s → 0 ≤ s ∧ s ≤ 1

/-- Non-negative mobilities with positive total for saturations in `[0,1]`. -/
structure GoodMob (S : Setup K K) : Prop where
  nonneg : ∀ p c s, 0 ≤ s → s ≤ 1 → 0 ≤ S.rock.mob p c s
  pos : ∀ c s, 0 ≤ s → s ≤ 1 → 0 < S.rock.mob false c s + S.rock.mob true c s

theorem fw_range (S : Setup K K) (h : GoodMob S) (c : Nat) (s : K) (h0 : 0 ≤ s) (h1 : s ≤ 1) :
    0 ≤ fw S c s ∧ fw S c s ≤ 1 := by
  have a := h.nonneg false c s h0 h1
  have b := h.nonneg true c s h0 h1
  have p := h.pos c s h0 h1
  unfold fw
  constructor
  · positivity
  · rw [div_le_one p]; linarith

theorem outside_range (S : Setup K K) (sat : Nat → K) (hc : Connected S) (hr : InRange S sat) (c : Nat)
    (hcl : c < S.grid.length) (f : Face K) (hf : f ∈ facesOf S.grid c) :
    0 ≤ outsideSat S sat f ∧ outsideSat S sat f ≤ 1 := by
  have h := hc c hcl f hf
  unfold outsideSat
  cases hk : f.kind with
  | interior nb =>
    simp only [hk] at h ⊢
    exact hr.sat nb h.2
  | boundary bid =>
    simp only [hk] at h ⊢
    cases hb : S.bcs.cond bid with
    | periodic =>
      simp only [hb] at h ⊢
      obtain ⟨e, he, _, h2⟩ := h
      simp only [he]
      exact hr.sat _ h2
    | dirichlet s => exact hr.bc bid s hb

/-- The fractional flow of the upstream side of a face. -/
def upFw (S : Setup K K) (sat : Nat → K) (c : Nat) (f : Face K) : K :=
  if 0 ≤ f.flux then fw S c (sat c) else fw S ((neighbour S f).getD c) (outsideSat S sat f)

theorem waterFlux_ok (S : Setup K K) (hv : Viscous S) (hg : GoodMob S) (sat : Nat → K) (hc : Connected S)
    (hr : InRange S sat) (c : Nat) (hcl : c < S.grid.length) (f : Face K) (hf : f ∈ facesOf S.grid c) :
    waterFlux S sat c f ⟨(neighbour S f).getD c, outsideSat S sat f, outsideFace S f⟩ =
      .ok (f.flux * upFw S sat c f) := by
  rw [waterFlux_viscous S hv.grav hv.ops hv.method sat c f _ (hv.normal c f hf)]
  · rfl
  · by_cases h : 0 ≤ f.flux
    · rw [if_pos h]
      exact (hg.pos c _ (hr.sat c hcl).1 (hr.sat c hcl).2).ne'
    · rw [if_neg h]
      have := outside_range S sat hc hr c hcl f hf
      exact (hg.pos _ _ this.1 this.2).ne'

theorem outFlux_viscous (S : Setup K K) (hv : Viscous S) (hg : GoodMob S) (sat : Nat → K) (hc : Connected S)
    (hr : InRange S sat) (c : Nat) (hcl : c < S.grid.length) (f : Face K) (hf : f ∈ facesOf S.grid c) :
    outFlux S sat c f = f.flux * upFw S sat c f := by
  unfold outFlux
  rw [waterFlux_ok S hv hg sat hc hr c hcl f hf]

/-- The residual computation succeeds. -/
theorem computeResidual_ok (S : Setup K K) (hv : Viscous S) (hg : GoodMob S) (sat : Nat → K) (hc : Connected S)
    (hr : InRange S sat) (k : Nat) (hn : 0 < S.grid.length) :
    ∃ res, computeResidual S (itersAfter S.grid.length (k + 1)) sat = .ok res := by
  rw [computeResidual_eq S sat k hn]
  refine ⟨_, (foldlM_additive (updateCell_additive S sat) _ _ _).2 ⟨?_, fun i => rfl⟩⟩
  intro c hcl
  rw [List.mem_range] at hcl
  unfold cellDelta updateCell
  have hce : S.grid[c]? = some S.grid[c] := List.getElem?_eq_getElem hcl
  rw [hce]
  simp only
  have hfac : facesOf S.grid c = S.grid[c].faces := by unfold facesOf; rw [hce]
  have hfold := (foldlM_additive (faceStep_additive S sat c) S.grid[c].faces.zipIdx (fun _ => 0) _).2
    ⟨?_, fun i => rfl⟩
  · rw [hfold]
    simp only [bind, Except.bind, addAt, hcl, if_true]
    exact ⟨_, rfl⟩
  · intro e he
    have hem : e.1 ∈ facesOf S.grid c := by
      rw [hfac]
      obtain ⟨f, k⟩ := e
      rw [List.mem_zipIdx_iff_getElem?] at he
      exact List.mem_of_getElem? he
    have hw := waterFlux_ok S hv hg sat hc hr c hcl e.1 hem
    have hcon := hc c hcl e.1 hem
    unfold faceDelta otherSide
    unfold neighbour outsideSat outsideFace at hw
    cases hk : e.1.kind with
    | interior nb =>
      simp only [hk] at hcon hw ⊢
      rw [if_neg (fun h => hcon.1 h.symm)]
      by_cases h2 : c > nb
      · rw [if_pos h2]; exact ⟨_, rfl⟩
      · rw [if_neg h2]
        simp only [Option.getD_some] at hw ⊢
        simp only [hw, fluxDelta, hcl, hcon.2, and_self, if_true]
        exact ⟨_, rfl⟩
    | boundary bid =>
      simp only [hk] at hcon hw ⊢
      cases hb : S.bcs.cond bid with
      | dirichlet s =>
        simp only [hb, Option.getD_none] at hcon hw ⊢
        simp only [hw, fluxDelta, hcl, and_self, if_true]
        exact ⟨_, rfl⟩
      | periodic =>
        simp only [hb] at hcon hw ⊢
        obtain ⟨⟨c1, lf1, nbf⟩, he1, he2, he3⟩ := hcon
        simp only at he2 he3
        simp only [he1, Option.map_some, Option.getD_some] at hw ⊢
        rw [if_neg (fun h => he2 h.1), if_neg (fun h => he2 h.symm)]
        by_cases h2 : c > c1
        · rw [if_pos h2]; exact ⟨_, rfl⟩
        · rw [if_neg h2]
          simp only [hw, fluxDelta, hcl, he3, and_self, if_true]
          exact ⟨_, rfl⟩

theorem neighbour_ne (S : Setup K M) (hc : Connected S) (c : Nat) (hcl : c < S.grid.length) (f : Face K)
    (hf : f ∈ facesOf S.grid c) (j : Nat) (hj : neighbour S f = some j) : j ≠ c ∧ j < S.grid.length := by
  have h := hc c hcl f hf
  unfold neighbour at hj
  cases hk : f.kind with
  | interior nb =>
    simp only [hk, Option.some.injEq] at h hj
    subst hj; exact h
  | boundary bid =>
    simp only [hk] at h hj
    cases hb : S.bcs.cond bid with
    | dirichlet s => simp [hb] at hj
    | periodic =>
      simp only [hb] at h hj
      obtain ⟨e, he, h1, h2⟩ := h
      simp only [he, Option.map_some, Option.some.injEq] at hj
      subst hj; exact ⟨h1, h2⟩

theorem outsideSat_nb (S : Setup K M) (sat : Nat → K) (f : Face K) (j : Nat) (hj : neighbour S f = some j) :
    outsideSat S sat f = sat j := by
  unfold neighbour at hj
  unfold outsideSat
  cases hk : f.kind with
  | interior nb =>
    simp only [hk, Option.some.injEq] at hj ⊢
    rw [hj]
  | boundary bid =>
    simp only [hk] at hj ⊢
    cases hb : S.bcs.cond bid with
    | dirichlet s => simp [hb] at hj
    | periodic =>
      simp only [hb] at hj ⊢
      cases hp : bidToFace S.grid S.bcs (S.bcs.partner bid) with
      | none => simp [hp] at hj
      | some e =>
        simp only [hp, Option.map_some, Option.some.injEq] at hj ⊢
        rw [hj]

theorem sum_flatMap' {α : Type} (l : List α) (φ : α → List K) :
    (l.flatMap φ).sum = (l.map fun a => (φ a).sum).sum := by
  induction l with
  | nil => rfl
  | cons a l ih => simp [ih]

/-- With consistent fluxes the net inflow of a cell is minus the sum of upstream fluxes over its own faces. -/
theorem netInflow_viscous (S : Setup K K) (hv : Viscous S) (hg : GoodMob S) (sat : Nat → K) (hc : Connected S)
    (hr : InRange S sat) (hcons : Consistent S) (hsrc : ∀ c, S.rate c = 0) (i : Nat) (hi : i < S.grid.length) :
    netInflow S sat i = - ((facesOf S.grid i).map fun f => f.flux * upFw S sat i f).sum := by
  unfold netInflow
  rw [hsrc i, if_neg (lt_irrefl _)]
  -- contributions of lower neighbours
  let ψ : Nat × K → K := fun e => e.2 * (if 0 ≤ e.2 then fw S e.1 (sat e.1) else fw S i (sat i))
  have hlow : ∑ c ∈ Finset.range i, (((facesOf S.grid c).filter fun f => neighbour S f = some i).map (outFlux S sat c)).sum
      = (((List.range i).flatMap fun c =>
        ((facesOf S.grid c).filter fun f => neighbour S f = some i).map fun f => (c, f.flux)).map ψ).sum := by
    rw [← sum_range_map, List.map_flatMap, sum_flatMap']
    congr 1
    apply List.map_congr_left
    intro c hcr
    rw [List.mem_range] at hcr
    rw [List.map_map]
    congr 1
    apply List.map_congr_left
    intro f hf
    rw [List.mem_filter] at hf
    obtain ⟨hf1, hf2⟩ := hf
    simp only [decide_eq_true_eq] at hf2
    rw [outFlux_viscous S hv hg sat hc hr c (by omega) f hf1]
    unfold upFw
    rw [hf2, outsideSat_nb S sat f i hf2]
    rfl
  rw [hlow, ((hcons i hi).map ψ).sum_eq]
  -- own faces
  have hown : ∀ l : List (Face K), (∀ f ∈ l, f ∈ facesOf S.grid i) →
      (0 : K) - ((l.filter fun f => (neighbour S f).isNone).map (outFlux S sat i)).sum
      - ((l.filter fun f => (neighbour S f).any (fun j => decide (i < j))).map (outFlux S sat i)).sum
      + ((l.filterMap (lowerConn S i)).map ψ).sum
      = - (l.map fun f => f.flux * upFw S sat i f).sum := by
    intro l
    induction l with
    | nil => simp
    | cons f l ih =>
      intro hl
      have ih' := ih (fun g hg => hl g (List.mem_cons_of_mem _ hg))
      have hfm := hl f List.mem_cons_self
      have hq := outFlux_viscous S hv hg sat hc hr i hi f hfm
      cases hf : neighbour S f with
      | none =>
        rw [List.filter_cons_of_pos (by simp [hf]), List.filter_cons_of_neg (by simp [hf]),
          List.filterMap_cons_none (by simp [lowerConn, hf])]
        simp only [List.map_cons, List.sum_cons]
        rw [hq]
        linear_combination ih'
      | some j =>
        have hne := neighbour_ne S hc i hi f hfm j hf
        rw [List.filter_cons_of_neg (by simp [hf])]
        by_cases hj : i < j
        · rw [List.filter_cons_of_pos (by simp [hf, hj]),
            List.filterMap_cons_none (by simp only [lowerConn, hf]; rw [if_neg (by omega)])]
          simp only [List.map_cons, List.sum_cons]
          rw [hq]
          linear_combination ih'
        · rw [List.filter_cons_of_neg (by simp [hf, hj]),
            List.filterMap_cons_some (b := (j, - f.flux)) (by simp only [lowerConn, hf]; rw [if_pos (by omega)])]
          simp only [List.map_cons, List.sum_cons]
          have hpsi : ψ (j, - f.flux) = - (f.flux * upFw S sat i f) := by
            simp only [ψ, upFw, hf, Option.getD_some]
            rw [outsideSat_nb S sat f j hf]
            rcases lt_trichotomy f.flux 0 with h | h | h
            · rw [if_pos (by linarith), if_neg (by linarith)]; ring
            · simp [h]
            · rw [if_neg (by linarith), if_pos h.le]; ring
          rw [hpsi]
          linear_combination ih'
  exact hown _ (fun _ h => h)

theorem flux_bounds (S : Setup K K) (hg : GoodMob S) (sat : Nat → K) (hc : Connected S)
    (hr : InRange S sat) (i : Nat) (hi : i < S.grid.length) (l : List (Face K)) (hl : ∀ f ∈ l, f ∈ facesOf S.grid i) :
    - ((l.filter fun f => 0 < f.flux).map (·.flux)).sum * fw S i (sat i) ≤
        - (l.map fun f => f.flux * upFw S sat i f).sum ∧
    - (l.map fun f => f.flux * upFw S sat i f).sum ≤
      - ((l.filter fun f => 0 < f.flux).map (·.flux)).sum * fw S i (sat i)
        + ((l.filter fun f => ¬ 0 < f.flux).map (fun f => - f.flux)).sum := by
  induction l with
  | nil => simp
  | cons f l ih =>
    obtain ⟨i1, i2⟩ := ih (fun g hg => hl g (List.mem_cons_of_mem _ hg))
    have ho := outside_range S sat hc hr i hi f (hl f List.mem_cons_self)
    have hw := fw_range S hg ((neighbour S f).getD i) _ ho.1 ho.2
    by_cases h : 0 < f.flux
    · rw [List.filter_cons_of_pos (by simp [h]), List.filter_cons_of_neg (by simp [h])]
      simp only [List.map_cons, List.sum_cons]
      have : upFw S sat i f = fw S i (sat i) := by unfold upFw; rw [if_pos h.le]
      rw [this]
      constructor <;> linarith
    · rw [List.filter_cons_of_neg (by simp [h]), List.filter_cons_of_pos (by simp [h])]
      simp only [List.map_cons, List.sum_cons]
      have hle : f.flux ≤ 0 := not_lt.1 h
      have hb : 0 ≤ - (f.flux * upFw S sat i f) ∧ - (f.flux * upFw S sat i f) ≤ - f.flux := by
        unfold upFw
        rcases hle.lt_or_eq with h' | h'
        · rw [if_neg (not_le.2 h')]
          constructor
          · nlinarith [hw.1]
          · nlinarith [hw.2]
        · simp [h']
      constructor <;> linarith [hb.1, hb.2]

end Verif.Euler
