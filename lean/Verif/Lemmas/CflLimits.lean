import Verif.Lemmas.EulerCfl
import Verif.Model.CflLimits
import Verif.Spec.CflLimits
import Mathlib.Tactic.FieldSimp
import Mathlib.Tactic.FinCases

/-! Lemmas for C106: the gravity step limit, the flux function with gravity, and the bounds behind the maximum principle. -/

namespace Verif.Euler

open Verif.Euler.Spec
open scoped BigOperators

variable {K M : Type} [Field K] [LinearOrder K] [IsStrictOrderedRing K]

/-! ### The flux function -/

/-- Mobilities of the two phases for a non-negative total flux `V`: `a`, `b` in the cell, `a'`, `b'` in the other one. -/
def pairMobs (a b a' b' V G : K) : K × K :=
  if 0 ≤ G then (a, if 0 ≤ V - a * G then b else b') else (if 0 ≤ V + b * G then a else a', b)

def phi (a b a' b' V G : K) : K :=
  (pairMobs a b a' b' V G).1 / ((pairMobs a b a' b' V G).1 + (pairMobs a b a' b' V G).2) * (V + (pairMobs a b a' b' V G).2 * G)

theorem pairMobs_pos (a b a' b' V G : K) (ha : 0 ≤ a) (hb : 0 ≤ b) (ha' : 0 ≤ a') (hb' : 0 ≤ b') (hab : 0 < a + b) (hV : 0 ≤ V) :
    0 ≤ (pairMobs a b a' b' V G).1 ∧ 0 ≤ (pairMobs a b a' b' V G).2 ∧
      0 < (pairMobs a b a' b' V G).1 + (pairMobs a b a' b' V G).2 := by
  unfold pairMobs
  by_cases hG : 0 ≤ G
  · rw [if_pos hG]
    by_cases h : 0 ≤ V - a * G
    · simp only [if_pos h]; exact ⟨ha, hb, hab⟩
    · simp only [if_neg h]
      refine ⟨ha, hb', ?_⟩
      rcases ha.lt_or_eq with h0 | h0
      · linarith
      · exact absurd (by rw [← h0]; linarith) h
  · rw [if_neg hG]
    by_cases h : 0 ≤ V + b * G
    · simp only [if_pos h]; exact ⟨ha, hb, hab⟩
    · simp only [if_neg h]
      refine ⟨ha', hb, ?_⟩
      rcases hb.lt_or_eq with h0 | h0
      · linarith
      · exact absurd (by rw [← h0]; linarith) h

/-- The case of gravity along the flux. -/
theorem phi_up (a b b' V G : K) (ha : 0 ≤ a) (hb : 0 ≤ b) (hb' : 0 ≤ b') (hab : 0 < a + b) (hV : 0 ≤ V) (hG : 0 ≤ G) :
    let m := if 0 ≤ V - a * G then b else b'
    let W := a / (a + m) * (V + m * G)
    0 ≤ W ∧ W ≤ a / (a + b) * V + a * G ∧ V - W ≤ b / (a + b) * V ∧ - (b' * G) ≤ V - W := by
  intro m W
  by_cases h : 0 ≤ V - a * G
  · have hm : m = b := if_pos h
    have e : V - W = b / (a + b) * (V - a * G) := by
      simp only [W, hm]; field_simp; ring
    have e2 : W = a / (a + b) * V + a * G * (b / (a + b)) := by simp only [W, hm]; ring
    have h1 : 0 ≤ a / (a + b) := by positivity
    have h2 : 0 ≤ b / (a + b) := by positivity
    have h3 : b / (a + b) ≤ 1 := by rw [div_le_one hab]; linarith
    have haG : 0 ≤ a * G := mul_nonneg ha hG
    refine ⟨?_, ?_, ?_, ?_⟩
    · rw [e2]; positivity
    · rw [e2]; nlinarith
    · rw [e]; nlinarith
    · rw [e]
      have := mul_nonneg h2 h
      have := mul_nonneg hb' hG
      linarith
  · have hm : m = b' := if_neg h
    rw [not_le] at h
    have ha0 : 0 < a := by
      rcases ha.lt_or_eq with h0 | h0
      · exact h0
      · rw [← h0] at h; linarith
    have hs : 0 < a + b' := by linarith
    have e : V - W = b' / (a + b') * (V - a * G) := by
      simp only [W, hm]; field_simp; ring
    have e2 : W = a * G + a / (a + b') * (V - a * G) := by
      simp only [W, hm]; field_simp; ring
    have h1 : 0 ≤ a / (a + b') := by positivity
    have h2 : 0 ≤ b' / (a + b') := by positivity
    have h4 : 0 ≤ b / (a + b) := by positivity
    have h5 : 0 ≤ a / (a + b) := by positivity
    refine ⟨?_, ?_, ?_, ?_⟩
    · simp only [W, hm]
      have := mul_nonneg hb' hG
      exact mul_nonneg h1 (by linarith)
    · rw [e2]
      have := mul_nonneg h5 hV
      have := mul_nonpos_of_nonneg_of_nonpos h1 h.le
      linarith
    · rw [e]
      have := mul_nonneg h4 hV
      have := mul_nonpos_of_nonneg_of_nonpos h2 h.le
      linarith
    · rw [e]
      have h6 : b' / (a + b') * a ≤ b' := by
        rw [div_mul_eq_mul_div, div_le_iff₀ hs]; nlinarith
      have := mul_nonneg h2 hV
      nlinarith

/-- Bounds of the water flux `phi` and of the oil flux `V - phi`, seen from both cells. -/
theorem phi_bounds (a b a' b' V G : K) (ha : 0 ≤ a) (hb : 0 ≤ b) (ha' : 0 ≤ a') (hb' : 0 ≤ b') (hab : 0 < a + b) (hV : 0 ≤ V) :
    phi a b a' b' V G ≤ a / (a + b) * V + a * max G 0 ∧ - phi a b a' b' V G ≤ a' * max (-G) 0 ∧
      V - phi a b a' b' V G ≤ b / (a + b) * V + b * max (-G) 0 ∧ -(V - phi a b a' b' V G) ≤ b' * max G 0 := by
  by_cases hG : 0 ≤ G
  · have e : phi a b a' b' V G = a / (a + (if 0 ≤ V - a * G then b else b')) * (V + (if 0 ≤ V - a * G then b else b') * G) := by
      unfold phi pairMobs; rw [if_pos hG]
    obtain ⟨h1, h2, h3, h4⟩ := phi_up a b b' V G ha hb hb' hab hV hG
    rw [← e] at h1 h2 h3 h4
    rw [max_eq_left hG, max_eq_right (by linarith : -G ≤ 0), mul_zero, mul_zero, add_zero]
    exact ⟨h2, by linarith, h3, by linarith⟩
  · rw [not_le] at hG
    have hG' : 0 ≤ -G := by linarith
    obtain ⟨h1, h2, h3, h4⟩ := phi_up b a a' V (-G) hb ha ha' (by linarith) hV hG'
    have hpos := pairMobs_pos a b a' b' V G ha hb ha' hb' hab hV
    have ec : (0 ≤ V - b * -G) ↔ (0 ≤ V + b * G) := by constructor <;> intro h <;> linarith
    have e : V - phi a b a' b' V G =
        b / (b + (if 0 ≤ V - b * -G then a else a')) * (V + (if 0 ≤ V - b * -G then a else a') * -G) := by
      unfold phi
      have hp : pairMobs a b a' b' V G = ((if 0 ≤ V - b * -G then a else a'), b) := by
        unfold pairMobs
        rw [if_neg (not_le.2 hG)]
        by_cases h : 0 ≤ V + b * G
        · rw [if_pos h, if_pos (ec.2 h)]
        · rw [if_neg h, if_neg (fun h' => h (ec.1 h'))]
      rw [hp] at hpos ⊢
      obtain ⟨_, _, hs⟩ := hpos
      simp only at hs ⊢
      generalize (if 0 ≤ V - b * -G then a else a') = m at hs ⊢
      have hs' : b + m ≠ 0 := by rw [add_comm]; exact hs.ne'
      have hs2 : m + b ≠ 0 := hs.ne'
      rw [add_comm b m]
      field_simp
      ring
    rw [← e] at h1 h2 h3 h4
    have e3 : V - (V - phi a b a' b' V G) = phi a b a' b' V G := by ring
    rw [e3] at h3 h4
    rw [max_eq_right hG.le, max_eq_left hG', mul_zero, mul_zero, add_zero]
    rw [add_comm b a] at h2 h3
    exact ⟨h3, by linarith, h2, by linarith⟩

/-! ### The model's water flux -/

/-- Gravity flux in terms of the vectors used by the residual. -/
theorem gravityFlux_eq (S : Setup K M) (c : Nat) (f : Face K) :
    f.area * inner f.normal (gravInfluence S c ((neighbour S f).getD c)) = gravityFlux S c f := by
  unfold gravityFlux inner gravInfluence scale matVec averMat meanPerm
  rfl

theorem inner_scale (n v : Vec K) (a : K) : inner n (scale a v) = a * inner n v := by
  unfold inner scale; rw [Finset.mul_sum]; apply Finset.sum_congr rfl; intro i _; ring

theorem upstreamMobs_pair (S : Setup K K) (ho : S.ops = scalarMob) (hm : S.method = ⟨true, true, false⟩) (s0 : K) (c : Nat) (f : Face K)
    (o : Other K) (hV : 0 ≤ f.flux) :
    upstreamMobs S s0 c f o = pairMobs (S.rock.mob false c s0) (S.rock.mob true c s0) (S.rock.mob false o.cell o.sat)
      (S.rock.mob true o.cell o.sat) f.flux (f.area * inner f.normal (gravInfluence S c o.cell)) := by
  set gi := gravInfluence S c o.cell with hgi
  set G := f.area * inner f.normal gi with hG
  have hq' : decide (¬ 0 ≤ f.flux) = false := by simpa using hV
  unfold upstreamMobs pairMobs
  rw [hm, ho]
  by_cases hGs : 0 ≤ G
  · simp only [← hgi, ← hG, hGs, hq', if_true, scalarMob, inner_scale, not_true_eq_false, decide_false, Bool.false_eq_true, if_false,
      Bool.not_false]
    have ec : f.flux + -1 * f.area * (S.rock.mob false c s0 * inner f.normal gi) = f.flux - S.rock.mob false c s0 * G := by rw [hG]; ring
    rw [ec]
    by_cases h : 0 ≤ f.flux - S.rock.mob false c s0 * G
    · rw [if_pos h]; simp only [h, not_true_eq_false, decide_false, Bool.false_eq_true, if_false]
    · rw [if_neg h]; simp only [h, not_false_eq_true, decide_true, if_true]
  · simp only [← hgi, ← hG, hGs, hq', if_true, scalarMob, inner_scale, not_false_eq_true, decide_true, Bool.false_eq_true, if_false,
      Bool.not_true]
    have ec : f.flux + 1 * f.area * (S.rock.mob true c s0 * inner f.normal gi) = f.flux + S.rock.mob true c s0 * G := by rw [hG]; ring
    rw [ec]
    by_cases h : 0 ≤ f.flux + S.rock.mob true c s0 * G
    · rw [if_pos h]; simp only [h, not_true_eq_false, decide_false, Bool.false_eq_true, if_false]
    · rw [if_neg h]; simp only [h, not_false_eq_true, decide_true, if_true]

theorem waterFlux_pair (S : Setup K K) (ho : S.ops = scalarMob) (hm : S.method = ⟨true, true, false⟩) (sat : Nat → K) (c : Nat) (f : Face K)
    (o : Other K) (m : K × K) (hu : upstreamMobs S (sat c) c f o = m) (hne : m.1 + m.2 ≠ 0) (hn : inner f.normal f.normal = 1) :
    waterFlux S sat c f o =
      .ok (m.1 / (m.1 + m.2) * (f.flux + m.2 * (if c ≠ o.cell then f.area * inner f.normal (gravInfluence S c o.cell) else 0))) := by
  obtain ⟨mw, mo⟩ := m
  simp only at hne ⊢
  unfold waterFlux
  rw [hu, hm]
  have e1 : inner f.normal (scale mw (scale (1 / (mw + mo)) (scale f.flux f.normal))) = f.flux * (mw / (mw + mo)) := by
    rw [inner_scale, inner_scale, inner_scale, hn]; ring
  by_cases hco : c ≠ o.cell
  · simp only [optTerm, viscTerm, gravTerm, ho, scalarMob, hne, if_false, bind, Except.bind, pure, Except.pure, hco, ne_eq,
      not_false_eq_true, if_true, Bool.false_eq_true, add_zero]
    congr 1
    rw [e1, inner_scale, inner_scale, inner_scale]
    ring
  · simp only [optTerm, viscTerm, gravTerm, ho, scalarMob, hne, if_false, bind, Except.bind, pure, Except.pure, hco, ne_eq,
      if_true, Bool.false_eq_true, add_zero]
    congr 1
    rw [e1]; ring

/-- The flux of a connection with non-negative total flux. -/
theorem waterFlux_conn (S : Setup K K) (hw : WithGravity S) (hg : GoodMob S) (sat : Nat → K) (hc : Connected S) (hr : InRange S sat) (c : Nat)
    (hcl : c < S.grid.length) (f : Face K) (hf : f ∈ facesOf S.grid c) (j : Nat) (hj : neighbour S f = some j) (hV : 0 ≤ f.flux) :
    waterFlux S sat c f ⟨(neighbour S f).getD c, outsideSat S sat f, outsideFace S f⟩ =
      .ok (phi (S.rock.mob false c (sat c)) (S.rock.mob true c (sat c)) (S.rock.mob false j (sat j)) (S.rock.mob true j (sat j)) f.flux
        (gravityFlux S c f)) := by
  obtain ⟨hjc, hjl⟩ := neighbour_ne S hc c hcl f hf j hj
  have s1 := hr.sat c hcl
  have s2 := hr.sat j hjl
  have hG := gravityFlux_eq S c f
  rw [hj] at hG
  have hu := upstreamMobs_pair S hw.ops hw.method (sat c) c f ⟨(neighbour S f).getD c, outsideSat S sat f, outsideFace S f⟩ hV
  rw [outsideSat_nb S sat f j hj] at hu ⊢
  rw [hj] at hu ⊢
  simp only [Option.getD_some] at hu hG ⊢
  rw [hG] at hu
  have hp := pairMobs_pos (S.rock.mob false c (sat c)) (S.rock.mob true c (sat c)) (S.rock.mob false j (sat j)) (S.rock.mob true j (sat j)) f.flux
    (gravityFlux S c f) (hg.nonneg _ _ _ s1.1 s1.2) (hg.nonneg _ _ _ s1.1 s1.2) (hg.nonneg _ _ _ s2.1 s2.2) (hg.nonneg _ _ _ s2.1 s2.2)
    (hg.pos _ _ s1.1 s1.2) hV
  rw [waterFlux_pair S hw.ops hw.method sat c f _ _ hu hp.2.2.ne' (hw.normal c f hf)]
  rw [if_pos (show c ≠ j from fun h => hjc h.symm), hG]
  rfl

/-- The flux through an outer face. -/
theorem waterFlux_outer (S : Setup K K) (hw : WithGravity S) (hg : GoodMob S) (sat : Nat → K) (hc : Connected S) (hr : InRange S sat) (c : Nat)
    (hcl : c < S.grid.length) (f : Face K) (hf : f ∈ facesOf S.grid c) (hj : neighbour S f = none)
    (h0 : f.flux = 0 ∨ gravityFlux S c f = 0) :
    waterFlux S sat c f ⟨(neighbour S f).getD c, outsideSat S sat f, outsideFace S f⟩ = .ok (f.flux * upFw S sat c f) := by
  have s1 := hr.sat c hcl
  have s2 := outside_range S sat hc hr c hcl f hf
  have hG := gravityFlux_eq S c f
  unfold upFw
  rw [hj] at hG ⊢
  simp only [Option.getD_none] at hG ⊢
  by_cases hV : 0 ≤ f.flux
  · have hu := upstreamMobs_pair S hw.ops hw.method (sat c) c f ⟨c, outsideSat S sat f, outsideFace S f⟩ hV
    simp only [hG] at hu
    have hp := pairMobs_pos (S.rock.mob false c (sat c)) (S.rock.mob true c (sat c)) (S.rock.mob false c (outsideSat S sat f))
      (S.rock.mob true c (outsideSat S sat f)) f.flux
      (gravityFlux S c f) (hg.nonneg _ _ _ s1.1 s1.2) (hg.nonneg _ _ _ s1.1 s1.2) (hg.nonneg _ _ _ s2.1 s2.2) (hg.nonneg _ _ _ s2.1 s2.2)
      (hg.pos _ _ s1.1 s1.2) hV
    rw [waterFlux_pair S hw.ops hw.method sat c f _ _ hu hp.2.2.ne' (hw.normal c f hf)]
    rw [if_neg (by simp), mul_zero, add_zero, if_pos hV]
    rcases h0 with h0 | h0
    · rw [h0, mul_zero, zero_mul]
    · have : pairMobs (S.rock.mob false c (sat c)) (S.rock.mob true c (sat c)) (S.rock.mob false c (outsideSat S sat f))
          (S.rock.mob true c (outsideSat S sat f)) f.flux (gravityFlux S c f) = (S.rock.mob false c (sat c), S.rock.mob true c (sat c)) := by
        rw [h0]; unfold pairMobs; rw [if_pos le_rfl, if_pos (by rw [mul_zero, sub_zero]; exact hV)]
      rw [this]
      unfold fw
      rw [mul_comm]
  · have h0 : gravityFlux S c f = 0 := by
      rcases h0 with h | h
      · exact absurd (le_of_eq h.symm) hV
      · exact h
    rw [h0] at hG
    have hq' : decide (¬ 0 ≤ f.flux) = true := by simpa using hV
    have hu : upstreamMobs S (sat c) c f ⟨c, outsideSat S sat f, outsideFace S f⟩ =
        (S.rock.mob false c (outsideSat S sat f), S.rock.mob true c (outsideSat S sat f)) := by
      unfold upstreamMobs
      rw [hw.method, hw.ops]
      simp only [if_true, hG, le_refl, not_true_eq_false, decide_false, Bool.false_eq_true, if_false, hq', scalarMob, inner_scale, Bool.not_false]
      have ec : f.flux + -1 * f.area * (S.rock.mob false c (outsideSat S sat f) * inner f.normal (gravInfluence S c c)) = f.flux := by
        linear_combination (-S.rock.mob false c (outsideSat S sat f)) * hG
      rw [ec]
      simp only [hq', if_true]
    rw [waterFlux_pair S hw.ops hw.method sat c f _ _ hu (hg.pos _ _ s2.1 s2.2).ne' (hw.normal c f hf)]
    rw [if_neg (by simp), mul_zero, add_zero, if_neg hV]
    unfold fw
    rw [mul_comm]

/-! ### Residual and net inflow -/

/-- The residual computation succeeds when the flux of every visited face does. -/
theorem computeResidual_total (S : Setup K M) (sat : Nat → K) (hc : Connected S)
    (hw : ∀ c < S.grid.length, ∀ f ∈ facesOf S.grid c, (∀ j, neighbour S f = some j → c < j) →
      ∃ q, waterFlux S sat c f ⟨(neighbour S f).getD c, outsideSat S sat f, outsideFace S f⟩ = .ok q)
    (k : Nat) (hn : 0 < S.grid.length) :
    ∃ res, computeResidual S (itersAfter S.grid.length (k + 1)) sat = .ok res := by
  rw [computeResidual_eq S sat k hn]
  refine ⟨_, (foldlM_additive (updateCell_additive S sat) _ _ _).2 ⟨?_, fun i => rfl⟩⟩
  intro c hcl
  rw [List.mem_range] at hcl
  unfold cellDelta updateCell
  have hce : S.grid[c]? = some S.grid[c] := List.getElem?_eq_getElem hcl
  rw [hce]
  simp only
  have hfac : facesOf S.grid c = S.grid[c].faces := by unfold facesOf; rw [hce]
  have hfold := (foldlM_additive (faceStep_additive S sat c) S.grid[c].faces.zipIdx (fun _ => 0) _).2
    ⟨?_, fun i => rfl⟩
  · rw [hfold]
    simp only [bind, Except.bind, addAt, hcl, if_true]
    exact ⟨_, rfl⟩
  · intro e he
    have hem : e.1 ∈ facesOf S.grid c := by
      rw [hfac]
      obtain ⟨f, k⟩ := e
      rw [List.mem_zipIdx_iff_getElem?] at he
      exact List.mem_of_getElem? he
    have hw := hw c hcl e.1 hem
    have hcon := hc c hcl e.1 hem
    unfold faceDelta otherSide
    unfold neighbour outsideSat outsideFace at hw
    cases hk : e.1.kind with
    | interior nb =>
      simp only [hk] at hcon hw ⊢
      rw [if_neg (fun h => hcon.1 h.symm)]
      by_cases h2 : c > nb
      · rw [if_pos h2]; exact ⟨_, rfl⟩
      · rw [if_neg h2]
        simp only [Option.getD_some, Option.some.injEq, forall_eq'] at hw ⊢
        obtain ⟨q, hw⟩ := hw (by have := hcon.1; omega)
        simp only [hw, fluxDelta, hcl, hcon.2, and_self, if_true]
        exact ⟨_, rfl⟩
    | boundary bid =>
      simp only [hk] at hcon hw ⊢
      cases hb : S.bcs.cond bid with
      | dirichlet s =>
        simp only [hb, Option.getD_none] at hcon hw ⊢
        obtain ⟨q, hw⟩ := hw (fun j hj => by cases hj)
        simp only [hw, fluxDelta, hcl, and_self, if_true]
        exact ⟨_, rfl⟩
      | periodic =>
        simp only [hb] at hcon hw ⊢
        obtain ⟨⟨c1, lf1, nbf⟩, he1, he2, he3⟩ := hcon
        simp only at he2 he3
        simp only [he1, Option.map_some, Option.getD_some, Option.some.injEq, forall_eq'] at hw ⊢
        rw [if_neg (fun h => he2 h.1), if_neg (fun h => he2 h.symm)]
        by_cases h2 : c > c1
        · rw [if_pos h2]; exact ⟨_, rfl⟩
        · rw [if_neg h2]
          obtain ⟨q, hw⟩ := hw (by omega)
          simp only [hw, fluxDelta, hcl, he3, and_self, if_true]
          exact ⟨_, rfl⟩

/-- The net inflow of a cell from the fluxes `q` through its own faces. -/
theorem netInflow_conn (S : Setup K M) (sat : Nat → K) (hc : Connected S) (hcons : ConsistentG S) (hsrc : ∀ c, S.rate c = 0) (i : Nat)
    (hi : i < S.grid.length) (ψ : Nat × K × K → K) (q : Face K → K)
    (hlow : ∀ c < i, ∀ f ∈ facesOf S.grid c, neighbour S f = some i → outFlux S sat c f = ψ (c, f.flux, gravityFlux S c f))
    (hup : ∀ f ∈ facesOf S.grid i, (∀ j, neighbour S f = some j → i < j) → outFlux S sat i f = q f)
    (hq : ∀ f ∈ facesOf S.grid i, ∀ j < i, neighbour S f = some j → ψ (j, - f.flux, - gravityFlux S i f) = - q f) :
    netInflow S sat i = - ((facesOf S.grid i).map q).sum := by
  unfold netInflow
  rw [hsrc i, if_neg (lt_irrefl _)]
  have hlow' : ∑ c ∈ Finset.range i, (((facesOf S.grid c).filter fun f => neighbour S f = some i).map (outFlux S sat c)).sum
      = (((List.range i).flatMap fun c =>
        ((facesOf S.grid c).filter fun f => neighbour S f = some i).map fun f => (c, f.flux, gravityFlux S c f)).map ψ).sum := by
    rw [← sum_range_map, List.map_flatMap, sum_flatMap']
    congr 1
    apply List.map_congr_left
    intro c hcr
    rw [List.mem_range] at hcr
    rw [List.map_map]
    congr 1
    apply List.map_congr_left
    intro f hf
    rw [List.mem_filter] at hf
    obtain ⟨hf1, hf2⟩ := hf
    simp only [decide_eq_true_eq] at hf2
    exact hlow c hcr f hf1 hf2
  rw [hlow', ((hcons i hi).map ψ).sum_eq]
  have hown : ∀ l : List (Face K), (∀ f ∈ l, f ∈ facesOf S.grid i) →
      (0 : K) - ((l.filter fun f => (neighbour S f).isNone).map (outFlux S sat i)).sum
      - ((l.filter fun f => (neighbour S f).any (fun j => decide (i < j))).map (outFlux S sat i)).sum
      + ((l.filterMap (lowerConnG S i)).map ψ).sum
      = - (l.map q).sum := by
    intro l
    induction l with
    | nil => simp
    | cons f l ih =>
      intro hl
      have ih' := ih (fun g hg => hl g (List.mem_cons_of_mem _ hg))
      have hfm := hl f List.mem_cons_self
      cases hf : neighbour S f with
      | none =>
        rw [List.filter_cons_of_pos (by simp [hf]), List.filter_cons_of_neg (by simp [hf]),
          List.filterMap_cons_none (by simp [lowerConnG, hf])]
        simp only [List.map_cons, List.sum_cons]
        rw [hup f hfm (fun j hj => by rw [hf] at hj; cases hj)]
        linear_combination ih'
      | some j =>
        have hne := neighbour_ne S hc i hi f hfm j hf
        rw [List.filter_cons_of_neg (by simp [hf])]
        by_cases hj : i < j
        · rw [List.filter_cons_of_pos (by simp [hf, hj]),
            List.filterMap_cons_none (by simp only [lowerConnG, hf]; rw [if_neg (by omega)])]
          simp only [List.map_cons, List.sum_cons]
          rw [hup f hfm (fun j' hj' => by rw [hf] at hj'; cases hj'; exact hj)]
          linear_combination ih'
        · rw [List.filter_cons_of_neg (by simp [hf, hj]),
            List.filterMap_cons_some (b := (j, - f.flux, - gravityFlux S i f)) (by simp only [lowerConnG, hf]; rw [if_pos (by omega)])]
          simp only [List.map_cons, List.sum_cons]
          rw [hq f hfm j (by have := hne.1; omega) hf]
          linear_combination ih'
  exact hown _ (fun _ h => h)

/-! ### Flux through a face seen from its cell -/

/-- The flux of the connection from `c` to `o`. -/
def connFlux (S : Setup K K) (sat : Nat → K) (c o : Nat) (V G : K) : K :=
  phi (S.rock.mob false c (sat c)) (S.rock.mob true c (sat c)) (S.rock.mob false o (sat o)) (S.rock.mob true o (sat o)) V G

/-- Water flux out of cell `i` through its face `f`. -/
def ownFlux (S : Setup K K) (sat : Nat → K) (i : Nat) (f : Face K) : K :=
  match neighbour S f with
  | none => f.flux * upFw S sat i f
  | some j => if i < j then connFlux S sat i j f.flux (gravityFlux S i f) else - connFlux S sat j i (- f.flux) (- gravityFlux S i f)

/-- Consistency: the lower cell of a connection sees the opposite flux. -/
theorem lower_flux (S : Setup K M) (hcons : ConsistentG S) (ho : Oriented S) (i : Nat) (hi : i < S.grid.length) (f : Face K)
    (hf : f ∈ facesOf S.grid i) (j : Nat) (hj : neighbour S f = some j) (hji : j < i) : 0 ≤ - f.flux := by
  have hm : (j, - f.flux, - gravityFlux S i f) ∈ (facesOf S.grid i).filterMap (lowerConnG S i) :=
    List.mem_filterMap.2 ⟨f, hf, by unfold lowerConnG; rw [hj]; simp only [if_pos hji]⟩
  have hm' := (hcons i hi).mem_iff.2 hm
  obtain ⟨c, hc, hm'⟩ := List.mem_flatMap.1 hm'
  obtain ⟨f', hf', e⟩ := List.mem_map.1 hm'
  rw [List.mem_filter] at hf'
  obtain ⟨hf1, hf2⟩ := hf'
  simp only [decide_eq_true_eq] at hf2
  rw [List.mem_range] at hc
  simp only [Prod.mk.injEq] at e
  have := ho c (by omega) f' hf1
  rw [hf2] at this
  simp only at this
  rw [← e.2.1]
  exact this hc

theorem netInflow_own (S : Setup K K) (hw : WithGravity S) (hg : GoodMob S) (sat : Nat → K) (hc : Connected S) (hr : InRange S sat)
    (hcons : ConsistentG S) (ho : Oriented S) (i : Nat) (hi : i < S.grid.length) :
    netInflow S sat i = - ((facesOf S.grid i).map (ownFlux S sat i)).sum := by
  refine netInflow_conn S sat hc hcons hw.source i hi (fun e => connFlux S sat e.1 i e.2.1 e.2.2) _ ?_ ?_ ?_
  · intro c hci f hf hn
    unfold outFlux
    have := ho c (by omega) f hf
    rw [hn] at this
    rw [waterFlux_conn S hw hg sat hc hr c (by omega) f hf i hn (this hci)]
    rfl
  · intro f hf hn
    have h0 := ho i hi f hf
    unfold outFlux ownFlux
    cases hj : neighbour S f with
    | none =>
      rw [hj] at h0
      have := waterFlux_outer S hw hg sat hc hr i hi f hf hj h0
      rw [hj] at this
      rw [this]
    | some j =>
      rw [hj] at h0
      have := waterFlux_conn S hw hg sat hc hr i hi f hf j hj (h0 (hn j hj))
      rw [hj] at this
      rw [this]
      simp only [if_pos (hn j hj)]
      rfl
  · intro f hf j hji hj
    unfold ownFlux
    rw [hj]
    simp only [if_neg (show ¬ i < j by omega), neg_neg]

theorem residual_gravity (S : Setup K K) (hw : WithGravity S) (hg : GoodMob S) (sat : Nat → K) (hc : Connected S) (hr : InRange S sat)
    (ho : Oriented S) (k : Nat) (hn : 0 < S.grid.length) :
    ∃ res, computeResidual S (itersAfter S.grid.length (k + 1)) sat = .ok res := by
  refine computeResidual_total S sat hc ?_ k hn
  intro c hcl f hf hj
  have h0 := ho c hcl f hf
  cases hn : neighbour S f with
  | none =>
    rw [hn] at h0
    have := waterFlux_outer S hw hg sat hc hr c hcl f hf hn h0
    rw [hn] at this
    exact ⟨_, this⟩
  | some j =>
    rw [hn] at h0
    have := waterFlux_conn S hw hg sat hc hr c hcl f hf j hn (h0 (hj j hn))
    rw [hn] at this
    exact ⟨_, this⟩

/-- Bounds of water and oil flux out of a cell through one of its faces. -/
theorem own_bounds (S : Setup K K) (hg : GoodMob S) (sat : Nat → K) (hc : Connected S) (hr : InRange S sat)
    (hcons : ConsistentG S) (ho : Oriented S) (i : Nat) (hi : i < S.grid.length) (f : Face K) (hf : f ∈ facesOf S.grid i) :
    ownFlux S sat i f ≤ fw S i (sat i) * max f.flux 0 + S.rock.mob false i (sat i) * max (gravityFlux S i f) 0 ∧
      f.flux - ownFlux S sat i f ≤
        (1 - fw S i (sat i)) * max f.flux 0 + S.rock.mob true i (sat i) * max (- gravityFlux S i f) 0 := by
  have s1 := hr.sat i hi
  have m1 := hg.nonneg false i _ s1.1 s1.2
  have m2 := hg.nonneg true i _ s1.1 s1.2
  have m3 := hg.pos i _ s1.1 s1.2
  have hfo : 1 - fw S i (sat i) = S.rock.mob true i (sat i) / (S.rock.mob false i (sat i) + S.rock.mob true i (sat i)) := by
    unfold fw; field_simp; ring
  have h0 := ho i hi f hf
  unfold ownFlux
  cases hj : neighbour S f with
  | none =>
    rw [hj] at h0
    simp only at h0 ⊢
    have s2 := outside_range S sat hc hr i hi f hf
    have hb := fw_range S hg ((neighbour S f).getD i) _ s2.1 s2.2
    have g1 : 0 ≤ S.rock.mob false i (sat i) * max (gravityFlux S i f) 0 := mul_nonneg m1 (le_max_right _ _)
    have g2 : 0 ≤ S.rock.mob true i (sat i) * max (-gravityFlux S i f) 0 := mul_nonneg m2 (le_max_right _ _)
    unfold upFw
    by_cases hV : 0 ≤ f.flux
    · rw [if_pos hV, max_eq_left hV]
      constructor <;> nlinarith
    · rw [if_neg hV]
      rw [not_le] at hV
      rw [max_eq_right hV.le, mul_zero, mul_zero, zero_add, zero_add]
      constructor
      · nlinarith [hb.1]
      · nlinarith [hb.2]
  | some j =>
    obtain ⟨hne, hjl⟩ := neighbour_ne S hc i hi f hf j hj
    have s2 := hr.sat j hjl
    have n1 := hg.nonneg false j _ s2.1 s2.2
    have n2 := hg.nonneg true j _ s2.1 s2.2
    have n3 := hg.pos j _ s2.1 s2.2
    simp only
    by_cases hij : i < j
    · rw [if_pos hij]
      rw [hj] at h0
      have hV : 0 ≤ f.flux := h0 hij
      obtain ⟨b1, _, b3, _⟩ := phi_bounds _ _ _ _ f.flux (gravityFlux S i f) m1 m2 n1 n2 m3 hV
      rw [max_eq_left hV, hfo]
      exact ⟨b1, b3⟩
    · rw [if_neg hij]
      have hV := lower_flux S hcons ho i hi f hf j hj (by omega)
      obtain ⟨_, b2, _, b4⟩ := phi_bounds _ _ _ _ (-f.flux) (-gravityFlux S i f) n1 n2 m1 m2 n3 hV
      rw [neg_neg] at b2
      rw [max_eq_right (by linarith : f.flux ≤ 0), mul_zero, mul_zero, zero_add, zero_add]
      refine ⟨b2, ?_⟩
      unfold connFlux
      linarith

/-! ### Sums over the faces of a cell -/

theorem sum_max (l : List (Face K)) (x : Face K → K) :
    (l.map fun f => max (x f) 0).sum = ((l.filter fun f => 0 < x f).map x).sum := by
  induction l with
  | nil => rfl
  | cons f l ih =>
    rw [List.map_cons, List.sum_cons, ih]
    by_cases h : 0 < x f
    · rw [List.filter_cons_of_pos (by simp [h]), List.map_cons, List.sum_cons, max_eq_left h.le]
    · rw [List.filter_cons_of_neg (by simp [h]), max_eq_right (not_lt.1 h), zero_add]

theorem sum_max_neg (l : List (Face K)) (x : Face K → K) :
    (l.map fun f => max (- x f) 0).sum = ((l.filter fun f => ¬ 0 < x f).map fun f => - x f).sum := by
  induction l with
  | nil => rfl
  | cons f l ih =>
    rw [List.map_cons, List.sum_cons, ih]
    by_cases h : 0 < x f
    · rw [List.filter_cons_of_neg (by simp [h]), max_eq_right (by linarith), zero_add]
    · rw [List.filter_cons_of_pos (by simp [h]), List.map_cons, List.sum_cons, max_eq_left (by linarith)]

theorem sum_le_lin (l : List (Face K)) (q x y : Face K → K) (a b : K) (h : ∀ f ∈ l, q f ≤ a * x f + b * y f) :
    (l.map q).sum ≤ a * (l.map x).sum + b * (l.map y).sum := by
  induction l with
  | nil => simp
  | cons f l ih =>
    simp only [List.map_cons, List.sum_cons]
    have h1 := h f List.mem_cons_self
    have h2 := ih fun g hg => h g (List.mem_cons_of_mem _ hg)
    nlinarith

theorem sum_sub_list (l : List (Face K)) (x y : Face K → K) : (l.map fun f => x f - y f).sum = (l.map x).sum - (l.map y).sum := by
  induction l with
  | nil => simp
  | cons f l ih => simp only [List.map_cons, List.sum_cons, ih]; ring

/-! ### The limits -/

theorem cflGravityFlux_eq (S : Setup K M) (hp : PeriodicPerm S) (c : Nat) (hc : c < S.grid.length) (f : Face K) (hf : f ∈ facesOf S.grid c) :
    cflGravityFlux S c f = gravityFlux S c f := by
  have hperm : ∀ k l, cflPerm S c f k l = meanPerm S c f k l := by
    intro k l
    unfold cflPerm meanPerm
    cases hk : f.kind with
    | interior nb =>
      have : neighbour S f = some nb := by unfold neighbour; rw [hk]
      rw [this]; rfl
    | boundary bid =>
      cases hj : neighbour S f with
      | none => simp only [Option.getD_none]; ring
      | some j =>
        simp only [Option.getD_some]
        rw [hp c hc f hf bid hk j hj]; ring
  unfold cflGravityFlux gravityFlux
  simp only [hperm, List.foldl_cons, List.foldl_nil, Fin.sum_univ_three]
  ring

theorem cflGravityOut_aux (S : Setup K M) (c : Nat) (l : List (Face K)) (a : K) :
    l.foldl (fun a f => if cflGravityFlux S c f > 0 then a + cflGravityFlux S c f else a) a =
      a + ((l.filter fun f => 0 < cflGravityFlux S c f).map (cflGravityFlux S c)).sum := by
  induction l generalizing a with
  | nil => simp
  | cons f l ih =>
    rw [List.foldl_cons, ih]
    by_cases h : 0 < cflGravityFlux S c f
    · rw [if_pos h, List.filter_cons_of_pos (by simp [h])]
      simp [add_assoc]
    · rw [if_neg h, List.filter_cons_of_neg (by simp [h])]

theorem cflGravityOut_eq (S : Setup K M) (hp : PeriodicPerm S) (c : Nat) (cell : Cell K) (hc : S.grid[c]? = some cell) :
    cflGravityOut S c cell.faces = gravityOut S c := by
  unfold cflGravityOut gravityOut
  rw [cflGravityOut_aux, zero_add]
  have hl : c < S.grid.length := (List.getElem?_eq_some_iff.1 hc).1
  have hf : facesOf S.grid c = cell.faces := by unfold facesOf; rw [hc]
  rw [hf]
  have : ∀ f ∈ cell.faces, cflGravityFlux S c f = gravityFlux S c f := fun f h => cflGravityFlux_eq S hp c hl f (hf ▸ h)
  rw [List.filter_congr (q := fun f => decide (0 < gravityFlux S c f)) (fun f h => by rw [this f h])]
  congr 1
  exact List.map_congr_left fun f h => this f (List.mem_of_mem_filter h)

theorem cflGravity_fold (S : Setup K M) (factor : K) (poro : Nat → K) (l : List (Cell K × Nat)) (big : K) :
    l.foldl (cflGravityStep S factor poro) big ≤ big ∧
    (∀ c ∈ l, cflGravityOut S c.2 c.1.faces ≠ 0 →
      l.foldl (cflGravityStep S factor poro) big ≤ factor * c.1.volume * poro c.2 / cflGravityOut S c.2 c.1.faces) ∧
    (l.foldl (cflGravityStep S factor poro) big = big ∨ ∃ c ∈ l, cflGravityOut S c.2 c.1.faces ≠ 0 ∧
      l.foldl (cflGravityStep S factor poro) big = factor * c.1.volume * poro c.2 / cflGravityOut S c.2 c.1.faces) := by
  induction l generalizing big with
  | nil => simp
  | cons c l ih =>
    rw [List.foldl_cons]
    have hstep : cflGravityStep S factor poro big c ≤ big ∧
        (cflGravityOut S c.2 c.1.faces ≠ 0 →
          cflGravityStep S factor poro big c ≤ factor * c.1.volume * poro c.2 / cflGravityOut S c.2 c.1.faces) ∧
        (cflGravityStep S factor poro big c = big ∨ (cflGravityOut S c.2 c.1.faces ≠ 0 ∧
          cflGravityStep S factor poro big c = factor * c.1.volume * poro c.2 / cflGravityOut S c.2 c.1.faces)) := by
      unfold cflGravityStep
      simp only
      by_cases h0 : cflGravityOut S c.2 c.1.faces = 0
      · rw [if_pos h0]; exact ⟨le_rfl, fun h => absurd h0 h, Or.inl rfl⟩
      · rw [if_neg h0]
        by_cases h1 : factor * c.1.volume * poro c.2 / cflGravityOut S c.2 c.1.faces < big
        · rw [if_pos h1]; exact ⟨h1.le, fun _ => le_rfl, Or.inr ⟨h0, rfl⟩⟩
        · rw [if_neg h1]; exact ⟨le_rfl, fun _ => not_lt.1 h1, Or.inl rfl⟩
    obtain ⟨i1, i2, i3⟩ := ih (cflGravityStep S factor poro big c)
    refine ⟨i1.trans hstep.1, ?_, ?_⟩
    · intro d hd
      rw [List.mem_cons] at hd
      rcases hd with rfl | hd
      · exact fun h => i1.trans (hstep.2.1 h)
      · exact i2 d hd
    · rcases i3 with i3 | ⟨d, hd, hh⟩
      · rcases hstep.2.2 with h | ⟨h1, h2⟩
        · left; rw [i3, h]
        · right; exact ⟨c, List.mem_cons_self, h1, by rw [i3, h2]⟩
      · exact Or.inr ⟨d, List.mem_cons_of_mem _ hd, hh⟩

end Verif.Euler
