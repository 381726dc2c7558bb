import Verif.Props.Transport
import Verif.Props.FracFlow
import Verif.Props.Dense
import Verif.Lemmas.CflLimits
import Mathlib.LinearAlgebra.Matrix.ToLinearEquiv

/-!
C106: time step limits for gravity and capillarity, and the maximum principle of explicit transport with gravity.
-/

namespace Verif.Euler

open Spec
open scoped BigOperators

variable {K : Type} [Field K] [LinearOrder K] [IsStrictOrderedRing K]

/-! ### The gravity limit -/

theorem gravityOut_nonneg {M : Type} (S : Setup K M) (c : Nat) : 0 ≤ gravityOut S c := by
  apply List.sum_nonneg
  intro x hx
  obtain ⟨f, hf, rfl⟩ := List.mem_map.1 hx
  exact (of_decide_eq_true (List.mem_filter.1 hf).2).le

theorem gravityIn_nonneg {M : Type} (S : Setup K M) (c : Nat) : 0 ≤ gravityIn S c := by
  apply List.sum_nonneg
  intro x hx
  obtain ⟨f, hf, rfl⟩ := List.mem_map.1 hx
  have := of_decide_eq_true (List.mem_filter.1 hf).2
  linarith [not_lt.1 this]

/-- **C106** (partial: see `C106_violated_periodic`) With equal permeabilities across periodic faces the gravity limit is the largest number that
is at most `big` and, for every cell that gravity makes water leave, at most the factor times the pore volume over the gravity flux out of the
cell; it is positive for positive data. -/
theorem C106_gravity_partial {M : Type} (S : Setup K M) (big factor : K) (poro : Nat → K) (hp : PeriodicPerm S) :
    cflGravity S big factor poro ≤ big ∧
    (∀ (i : Nat) (cell : Cell K), S.grid[i]? = some cell → gravityOut S i ≠ 0 →
      cflGravity S big factor poro ≤ factor * cell.volume * poro i / gravityOut S i) ∧
    (cflGravity S big factor poro = big ∨ ∃ (i : Nat) (cell : Cell K), S.grid[i]? = some cell ∧ gravityOut S i ≠ 0 ∧
      cflGravity S big factor poro = factor * cell.volume * poro i / gravityOut S i) ∧
    (0 < big → 0 < factor → (∀ (i : Nat) (cell : Cell K), S.grid[i]? = some cell → 0 < cell.volume * poro i) →
      0 < cflGravity S big factor poro) := by
  obtain ⟨h1, h2, h3⟩ := cflGravity_fold S factor poro S.grid.zipIdx big
  have hmem : ∀ c ∈ S.grid.zipIdx, S.grid[c.2]? = some c.1 := by
    rintro ⟨a, b⟩ hc
    exact List.mem_zipIdx_iff_getElem?.1 hc
  have h3' : cflGravity S big factor poro = big ∨ ∃ (i : Nat) (cell : Cell K), S.grid[i]? = some cell ∧ gravityOut S i ≠ 0 ∧
      cflGravity S big factor poro = factor * cell.volume * poro i / gravityOut S i := by
    rcases h3 with h | ⟨c, hc, ho, he⟩
    · exact Or.inl h
    · have := cflGravityOut_eq S hp c.2 c.1 (hmem c hc)
      rw [this] at ho he
      exact Or.inr ⟨c.2, c.1, hmem c hc, ho, he⟩
  refine ⟨h1, ?_, h3', ?_⟩
  · intro i cell hc ho
    have := h2 (cell, i) (List.mem_zipIdx_iff_getElem?.2 hc)
    simp only at this
    rw [cflGravityOut_eq S hp i cell hc] at this
    exact this ho
  · intro hb hf hv
    rcases h3' with h | ⟨i, cell, hc, ho, he⟩
    · rw [h]; exact hb
    · rw [he, mul_assoc]
      exact div_pos (mul_pos hf (hv i cell hc)) (lt_of_le_of_ne (gravityOut_nonneg S i) (Ne.symm ho))

/-! ### The capillary limit -/

theorem min_fold (T : List K) (big : K) :
    T.foldl min big ≤ big ∧ (∀ v ∈ T, T.foldl min big ≤ v) ∧ (T.foldl min big = big ∨ T.foldl min big ∈ T) := by
  induction T generalizing big with
  | nil => simp
  | cons v T ih =>
    rw [List.foldl_cons]
    obtain ⟨h1, h2, h3⟩ := ih (min big v)
    refine ⟨h1.trans (min_le_left _ _), ?_, ?_⟩
    · intro w hw
      rcases List.mem_cons.1 hw with rfl | hw
      · exact h1.trans (min_le_right _ _)
      · exact h2 w hw
    · rcases h3 with h | h
      · rcases min_choice big v with e | e
        · left; rw [h, e]
        · right; rw [h, e]; exact List.mem_cons_self
      · right; exact List.mem_cons_of_mem _ h

theorem foldlM_min {α : Type} (step : K → α → Except Err K) (Val : α → K → Prop) (l : List α)
    (h : ∀ x ∈ l, ∃ T : List K, (∀ v, v ∈ T ↔ Val x v) ∧ ∀ dt, step dt x = .ok (T.foldl min dt)) :
    ∃ T : List K, (∀ v, v ∈ T ↔ ∃ x ∈ l, Val x v) ∧ ∀ dt, l.foldlM step dt = .ok (T.foldl min dt) := by
  induction l with
  | nil => exact ⟨[], by simp, fun dt => rfl⟩
  | cons x l ih =>
    obtain ⟨T1, a1, b1⟩ := h x List.mem_cons_self
    obtain ⟨T2, a2, b2⟩ := ih fun y hy => h y (List.mem_cons_of_mem _ hy)
    refine ⟨T1 ++ T2, fun v => ?_, fun dt => ?_⟩
    · rw [List.mem_append, a1, a2]
      simp
    · rw [List.foldlM_cons, b1, List.foldl_append]
      exact b2 _

theorem capillary_face {M : Type} (S : Setup K M) (factor : K) (hf0 : 0 < factor) (hp : PeriodicPerm S) (c : Nat) (cell : Cell K)
    (hc : S.grid[c]? = some cell) (f : Face K) (hf : f ∈ cell.faces)
    (hpd : ∀ x : Fin 3 → K, x ≠ 0 → 0 < ∑ k, ∑ l, x k * meanPerm S c f k l * x l) :
    ∃ x : Fin 3 → K, (∀ y : Fin 3 → K, (∀ k, ∑ l, meanPerm S c f k l * y l = f.centroid k - cell.centroid k) ↔ y = x) ∧
      ∀ dt, cflCapillaryFace S factor cell c dt f =
        .ok (min dt ((∑ k, (f.centroid k - cell.centroid k) * x k) / factor)) := by
  have hl : c < S.grid.length := (List.getElem?_eq_some_iff.1 hc).1
  have hff : f ∈ facesOf S.grid c := by unfold facesOf; rw [hc]; exact hf
  have hperm : cflPerm S c f = meanPerm S c f := by
    funext k l
    unfold cflPerm meanPerm
    cases hk : f.kind with
    | interior nb =>
      have : neighbour S f = some nb := by unfold neighbour; rw [hk]
      rw [this]; rfl
    | boundary bid =>
      cases hj : neighbour S f with
      | none => simp only [Option.getD_none]; ring
      | some j => simp only [Option.getD_some]; rw [hp c hl f hff bid hk j hj]; ring
  set P : Matrix (Fin 3) (Fin 3) K := Matrix.of (meanPerm S c f) with hP
  have h22 : P 2 2 ≠ 0 := by
    have := hpd (![0, 0, 1]) (fun h => by have := congrFun h 2; simp at this)
    simp [Fin.sum_univ_three] at this
    exact this.ne'
  have hker : ∀ x : Fin 3 → K, (∀ k, ∑ l, meanPerm S c f k l * x l = 0) → x = 0 := by
    intro x hx
    by_contra hne
    have := hpd x hne
    have h0 : ∑ k, ∑ l, x k * meanPerm S c f k l * x l = 0 := by
      refine Finset.sum_eq_zero fun k _ => ?_
      rw [← mul_zero (x k), ← hx k, Finset.mul_sum]
      exact Finset.sum_congr rfl fun l _ => by ring
    linarith
  have hdet : P.det ≠ 0 := by
    intro h
    obtain ⟨v, hv, hv0⟩ := Matrix.exists_mulVec_eq_zero_iff.2 h
    exact hv (hker v fun k => congrFun hv0 k)
  obtain ⟨mi, hmi, e1, e2⟩ := (Dense.C03_inverse3x3_partial P h22).2 hdet
  set d : Fin 3 → K := fun k => f.centroid k - cell.centroid k with hd
  have hmi' : Dense.inverse3x3 (cflPerm S c f) = some mi := by rw [hperm]; exact hmi
  refine ⟨fun k => ∑ l, mi k l * d l, ?_, ?_⟩
  · intro y
    constructor
    · intro hy
      have h1 : P.mulVec y = d := funext hy
      have h2 : (Matrix.of mi).mulVec d = y := by rw [← h1, Matrix.mulVec_mulVec, e2, Matrix.one_mulVec]
      rw [← h2]; rfl
    · intro hy k
      have h2 : P.mulVec ((Matrix.of mi).mulVec d) = d := by rw [Matrix.mulVec_mulVec, e1, Matrix.one_mulVec]
      rw [hy]
      exact congrFun h2 k
  · intro dt
    unfold cflCapillaryFace
    rw [hmi']
    simp only [if_neg hf0.ne']
    congr 3

/-- **C106** The capillary limit, for permeabilities (averaged over the faces) that are positive definite and equal across periodic faces: with `d`
the vector from the cell to the face and `x` the solution of `P x = d`, the largest number that is at most `big` and at most `d · x / factor` for
every face. It is positive when no face is centred in the centre of its cell. -/
theorem C106_capillary {M : Type} (S : Setup K M) (big factor : K) (hf0 : 0 < factor) (hp : PeriodicPerm S)
    (hpd : ∀ (c : Nat) (cell : Cell K), S.grid[c]? = some cell → ∀ f ∈ cell.faces, ∀ x : Fin 3 → K, x ≠ 0 →
      0 < ∑ k, ∑ l, x k * meanPerm S c f k l * x l) :
    ∃ dt, cflCapillary S big factor = .ok dt ∧ dt ≤ big ∧
      (∀ (c : Nat) (cell : Cell K), S.grid[c]? = some cell → ∀ f ∈ cell.faces, ∃ x : Fin 3 → K,
        (∀ k, ∑ l, meanPerm S c f k l * x l = f.centroid k - cell.centroid k) ∧
          dt ≤ (∑ k, (f.centroid k - cell.centroid k) * x k) / factor) ∧
      (dt = big ∨ ∃ (c : Nat) (cell : Cell K), S.grid[c]? = some cell ∧ ∃ f ∈ cell.faces, ∃ x : Fin 3 → K,
        (∀ k, ∑ l, meanPerm S c f k l * x l = f.centroid k - cell.centroid k) ∧
          dt = (∑ k, (f.centroid k - cell.centroid k) * x k) / factor) ∧
      (0 < big → (∀ (c : Nat) (cell : Cell K), S.grid[c]? = some cell → ∀ f ∈ cell.faces, f.centroid ≠ cell.centroid) → 0 < dt) := by
  obtain ⟨T, hT, hfold⟩ := foldlM_min (fun dt (c : Cell K × Nat) => c.1.faces.foldlM (cflCapillaryFace S factor c.1 c.2) dt)
    (fun c v => ∃ f ∈ c.1.faces, ∃ x : Fin 3 → K, (∀ k, ∑ l, meanPerm S c.2 f k l * x l = f.centroid k - c.1.centroid k) ∧
      v = (∑ k, (f.centroid k - c.1.centroid k) * x k) / factor) S.grid.zipIdx (by
      rintro ⟨cell, c⟩ hc
      have hc' := List.mem_zipIdx_iff_getElem?.1 hc
      refine foldlM_min (cflCapillaryFace S factor cell c) (fun f v => ∃ x : Fin 3 → K,
        (∀ k, ∑ l, meanPerm S c f k l * x l = f.centroid k - cell.centroid k) ∧
          v = (∑ k, (f.centroid k - cell.centroid k) * x k) / factor) cell.faces ?_
      intro f hf
      obtain ⟨x, hx, hs⟩ := capillary_face S factor hf0 hp c cell hc' f hf (hpd c cell hc' f hf)
      refine ⟨[(∑ k, (f.centroid k - cell.centroid k) * x k) / factor], fun v => ?_, fun dt => hs dt⟩
      rw [List.mem_singleton]
      constructor
      · intro hv; exact ⟨x, (hx x).2 rfl, hv⟩
      · rintro ⟨y, hy, hv⟩; rw [hv, (hx y).1 hy])
  obtain ⟨m1, m2, m3⟩ := min_fold T big
  have hatt : T.foldl min big = big ∨ ∃ (c : Nat) (cell : Cell K), S.grid[c]? = some cell ∧ ∃ f ∈ cell.faces, ∃ x : Fin 3 → K,
        (∀ k, ∑ l, meanPerm S c f k l * x l = f.centroid k - cell.centroid k) ∧
          T.foldl min big = (∑ k, (f.centroid k - cell.centroid k) * x k) / factor := by
    rcases m3 with h | h
    · exact Or.inl h
    · obtain ⟨⟨cell, c⟩, hc, f, hf, x, hx, hv⟩ := (hT _).1 h
      exact Or.inr ⟨c, cell, List.mem_zipIdx_iff_getElem?.1 hc, f, hf, x, hx, hv⟩
  refine ⟨T.foldl min big, hfold big, m1, ?_, hatt, ?_⟩
  · intro c cell hc f hf
    obtain ⟨x, hx, _⟩ := capillary_face S factor hf0 hp c cell hc f hf (hpd c cell hc f hf)
    have hx' := (hx x).2 rfl
    exact ⟨x, hx', m2 _ ((hT _).2 ⟨(cell, c), List.mem_zipIdx_iff_getElem?.2 hc, f, hf, x, hx', rfl⟩)⟩
  · intro hb hne
    rcases hatt with h | ⟨c, cell, hc, f, hf, x, hx, hv⟩
    · rw [h]; exact hb
    · rw [hv]
      refine div_pos ?_ hf0
      have hx0 : x ≠ 0 := by
        rintro rfl
        apply hne c cell hc f hf
        funext k
        have := hx k
        simp at this
        linarith
      have := hpd c cell hc f hf x hx0
      refine lt_of_lt_of_eq this (Finset.sum_congr rfl fun k _ => ?_)
      rw [← hx k, Finset.sum_mul]
      exact Finset.sum_congr rfl fun l _ => by ring

/-! ### Maximum principle -/

/-- **C106** (partial: see the violations below) One explicit step with viscous and gravity forces keeps saturations in `[0, 1]`: the total fluxes
are divergence-free, both sides of every connection agree, no connection has its total flux towards the lower-numbered cell and no outer face has
both a flux and gravity; the curves satisfy the two slope bounds that the factors stand for; the step is at most the time the code computes, with a
Courant number of at most one half; and the gravity flux *into* every cell also obeys the limit. -/
theorem C106_maximum_principle_partial (E : Solver K K) (k : Nat) (big big' courant factorV factorG dt limV : K) (poro : Nat → K) (sat : Nat → K)
    (hn : 0 < E.setup.grid.length) (hit : E.iters = itersAfter E.setup.grid.length (k + 1))
    (hw : WithGravity E.setup) (hg : GoodMob E.setup) (hc : Connected E.setup) (hr : InRange E.setup sat)
    (hcons : ConsistentG E.setup) (ho : Oriented E.setup) (hper : PeriodicPerm E.setup)
    (hdiv : ∀ i < E.setup.grid.length, ((facesOf E.setup.grid i).map (·.flux)).sum = 0)
    (hpv : E.porevol = E.setup.grid.zipIdx.map fun c => c.1.volume * poro c.2)
    (hpos : ∀ p ∈ E.porevol, 0 < p)
    (hfV : 0 < factorV) (hfG : 0 < factorG)
    (hlow : ∀ c s, 0 ≤ s → s ≤ 1 → fw E.setup c s ≤ s / factorV)
    (hup : ∀ c s, 0 ≤ s → s ≤ 1 → 1 - fw E.setup c s ≤ (1 - s) / factorV)
    (hlowG : ∀ c s, 0 ≤ s → s ≤ 1 → E.setup.rock.mob false c s ≤ s / factorG)
    (hupG : ∀ c s, 0 ≤ s → s ≤ 1 → E.setup.rock.mob true c s ≤ (1 - s) / factorG)
    (hlim : cflVelocity big factorV poro E.setup.grid = .ok limV) (hcour : 0 ≤ courant) (hcour' : courant ≤ 1 / 2)
    (hdt0 : 0 ≤ dt) (hdt : dt ≤ cflTime big' courant (some limV) (some (cflGravity E.setup big factorG poro)) none)
    (hin : ∀ (i : Nat) (cell : Cell K), E.setup.grid[i]? = some cell →
      dt * gravityIn E.setup i ≤ 1 / 2 * (factorG * cell.volume * poro i)) :
    (smallTimeStep E dt sat).err = none ∧
      ∀ i < E.setup.grid.length, 0 ≤ (smallTimeStep E dt sat).val i ∧ (smallTimeStep E dt sat).val i ≤ 1 := by
  obtain ⟨res, hres⟩ := residual_gravity E.setup hw hg sat hc hr ho k hn
  have hpvi : ∀ (i : Nat) (cell : Cell K), E.setup.grid[i]? = some cell → E.porevol[i]? = some (cell.volume * poro i) := by
    intro i cell hcell
    rw [hpv, List.getElem?_map, List.getElem?_zipIdx, hcell]
    simp
  have hue : (updateSat E.porevol dt res (List.range E.setup.grid.length) sat).err = none := by
    apply updateSat_ok
    intro i hi
    rw [List.mem_range] at hi
    have h1 := hpvi i _ (List.getElem?_eq_getElem hi)
    exact ⟨_, h1, (hpos _ (List.mem_of_getElem? h1)).ne'⟩
  obtain ⟨s', hu⟩ : ∃ s', updateSat E.porevol dt res (List.range E.setup.grid.length) sat = ⟨s', none⟩ :=
    ⟨_, by rw [← hue]⟩
  have hsp := (updateSat_spec _ _ _ _ List.nodup_range _ _ hu).1
  have hdtV : dt ≤ limV * courant := by
    refine hdt.trans ?_
    unfold cflTime
    exact mul_le_mul_of_nonneg_right ((min_le_left _ _).trans (min_le_left _ _)) hcour
  have hdtG : dt ≤ cflGravity E.setup big factorG poro * courant := by
    refine hdt.trans ?_
    unfold cflTime
    exact mul_le_mul_of_nonneg_right ((min_le_left _ _).trans (min_le_right _ _)) hcour
  have hrange : ∀ i < E.setup.grid.length, 0 ≤ s' i ∧ s' i ≤ 1 := by
    intro i hi
    obtain ⟨p, hp, hp0, hs⟩ := hsp i (List.mem_range.2 hi)
    have hcell := List.getElem?_eq_getElem hi
    have hpe : p = E.setup.grid[i].volume * poro i := by
      have := hpvi i _ hcell
      rw [hp] at this
      exact (Option.some.inj this)
    have hppos : 0 < p := hpos p (List.mem_of_getElem? hp)
    obtain ⟨hs0, hs1⟩ := hr.sat i hi
    obtain ⟨hf0, hf1⟩ := fw_range E.setup hg i (sat i) hs0 hs1
    have hri : res i = - ((facesOf E.setup.grid i).map (ownFlux E.setup sat i)).sum := by
      rw [residual_eq E.setup sat k hn res hres i hi]
      exact netInflow_own E.setup hw hg sat hc hr hcons ho i hi
    have hb := fun f hf => own_bounds E.setup hg sat hc hr hcons ho i hi f hf
    have b1 := sum_le_lin (facesOf E.setup.grid i) _ _ _ _ _ fun f hf => (hb f hf).1
    have b2 := sum_le_lin (facesOf E.setup.grid i) _ _ _ _ _ fun f hf => (hb f hf).2
    rw [sum_max, sum_max (x := gravityFlux E.setup i)] at b1
    rw [sum_max, sum_max_neg (x := gravityFlux E.setup i), sum_sub_list, hdiv i hi] at b2
    change _ ≤ fw E.setup i (sat i) * totalOut E.setup.grid i + _ * gravityOut E.setup i at b1
    change _ ≤ (1 - fw E.setup i (sat i)) * totalOut E.setup.grid i + _ * gravityIn E.setup i at b2
    have hio : totalIn E.setup.grid i = totalOut E.setup.grid i := by
      have hd := hdiv i hi
      have e1 := sum_max (facesOf E.setup.grid i) (·.flux)
      have e2 := sum_max_neg (facesOf E.setup.grid i) (·.flux)
      have e3 := sum_sub_list (facesOf E.setup.grid i) (fun f => max f.flux 0) (fun f => max (- f.flux) 0)
      have e4 : (fun f : Face K => max f.flux 0 - max (- f.flux) 0) = (·.flux) := by
        funext f
        rcases le_total 0 f.flux with h | h
        · rw [max_eq_left h, max_eq_right (by linarith)]; ring
        · rw [max_eq_right h, max_eq_left (by linarith)]; ring
      rw [e4, hd, e1, e2] at e3
      unfold totalIn totalOut
      linarith
    set Q := totalOut E.setup.grid i with hQ
    have hQ0 : 0 ≤ Q := by
      apply List.sum_nonneg
      intro x hx
      rw [List.mem_map] at hx
      obtain ⟨f, hf, rfl⟩ := hx
      rw [List.mem_filter] at hf
      exact (of_decide_eq_true hf.2).le
    have hdq : dt * Q ≤ 1 / 2 * (factorV * p) := by
      rcases hQ0.lt_or_eq with h | h
      · have := (C14_limit big factorV poro E.setup.grid limV hlim).1 i _ hcell
        rw [hio, max_self] at this
        have := this h.ne'
        rw [← hpe, le_div_iff₀ h] at this
        have h1 : dt * Q ≤ limV * courant * Q := mul_le_mul_of_nonneg_right hdtV hQ0
        have h2 : courant * (limV * Q) ≤ courant * (factorV * p) := mul_le_mul_of_nonneg_left this hcour
        have h3 : courant * (factorV * p) ≤ 1 / 2 * (factorV * p) := mul_le_mul_of_nonneg_right hcour' (by positivity)
        nlinarith
      · rw [← h, mul_zero]; positivity
    have hG0 := gravityOut_nonneg E.setup i
    have hGi0 := gravityIn_nonneg E.setup i
    set G := gravityOut E.setup i with hG
    set Gi := gravityIn E.setup i with hGi
    have hdg : dt * G ≤ 1 / 2 * (factorG * p) := by
      rcases hG0.lt_or_eq with h | h
      · have := (C106_gravity_partial E.setup big factorG poro hper).2.1 i _ hcell h.ne'
        rw [mul_assoc, ← hpe, le_div_iff₀ h] at this
        have h1 : dt * G ≤ cflGravity E.setup big factorG poro * courant * G := mul_le_mul_of_nonneg_right hdtG hG0
        have h2 : courant * (cflGravity E.setup big factorG poro * G) ≤ courant * (factorG * p) := mul_le_mul_of_nonneg_left this hcour
        have h3 : courant * (factorG * p) ≤ 1 / 2 * (factorG * p) := mul_le_mul_of_nonneg_right hcour' (by positivity)
        nlinarith
      · rw [← h, mul_zero]; positivity
    have hdgi : dt * Gi ≤ 1 / 2 * (factorG * p) := by
      have := hin i _ hcell
      rwa [mul_assoc factorG, ← hpe] at this
    have m1 := hg.nonneg false i _ hs0 hs1
    have m2 := hg.nonneg true i _ hs0 hs1
    have hQ' : 0 ≤ dt * Q := mul_nonneg hdt0 hQ0
    have hG' : 0 ≤ dt * G := mul_nonneg hdt0 hG0
    have hGi' : 0 ≤ dt * Gi := mul_nonneg hdt0 hGi0
    rw [hs]
    constructor
    · have h1 : dt * res i ≥ - (p * sat i) := by
        have h0 := mul_le_mul_of_nonneg_left b1 hdt0
        have h2 : dt * Q * fw E.setup i (sat i) ≤ 1 / 2 * (factorV * p) * (sat i / factorV) :=
          mul_le_mul hdq (hlow i _ hs0 hs1) hf0 (by positivity)
        have h3 : 1 / 2 * (factorV * p) * (sat i / factorV) = p * sat i / 2 := by field_simp
        have h4 : dt * G * E.setup.rock.mob false i (sat i) ≤ 1 / 2 * (factorG * p) * (sat i / factorG) :=
          mul_le_mul hdg (hlowG i _ hs0 hs1) m1 (by positivity)
        have h5 : 1 / 2 * (factorG * p) * (sat i / factorG) = p * sat i / 2 := by field_simp
        rw [hri]
        linarith
      have : dt * res i / p ≥ - sat i := by
        rw [ge_iff_le, le_div_iff₀ hppos]; linarith
      linarith
    · have h1 : dt * res i ≤ p * (1 - sat i) := by
        have h0 := mul_le_mul_of_nonneg_left b2 hdt0
        have h2 : dt * Q * (1 - fw E.setup i (sat i)) ≤ 1 / 2 * (factorV * p) * ((1 - sat i) / factorV) :=
          mul_le_mul hdq (hup i _ hs0 hs1) (by linarith) (by positivity)
        have h3 : 1 / 2 * (factorV * p) * ((1 - sat i) / factorV) = p * (1 - sat i) / 2 := by field_simp
        have h4 : dt * Gi * E.setup.rock.mob true i (sat i) ≤ 1 / 2 * (factorG * p) * ((1 - sat i) / factorG) :=
          mul_le_mul hdgi (hupG i _ hs0 hs1) m2 (by positivity)
        have h5 : 1 / 2 * (factorG * p) * ((1 - sat i) / factorG) = p * (1 - sat i) / 2 := by field_simp
        rw [hri]
        linarith
      have : dt * res i / p ≤ 1 - sat i := by
        rw [div_le_iff₀ hppos]; linarith
      linarith
  have hstep : smallTimeStep E dt sat = ⟨s', none⟩ ∨ ((smallTimeStep E dt sat) = checkAndClamp E.clampSat E.setup.grid.length s') := by
    unfold smallTimeStep
    rw [hit, hres]
    simp only [hu]
    by_cases h : (E.checkSat || E.clampSat) = true
    · rw [if_pos h]; exact Or.inr rfl
    · rw [if_neg h]; exact Or.inl rfl
  rcases hstep with h | h
  · rw [h]; exact ⟨rfl, hrange⟩
  · rw [h]
    cases hcl : E.clampSat with
    | true =>
      obtain ⟨c1, c2⟩ := C13_clamp E.setup.grid.length s'
      exact ⟨c1, fun i hi => ⟨(c2 i hi).1, (c2 i hi).2.1⟩⟩
    | false =>
      obtain ⟨c1, c2, _⟩ := C13_noclamp E.setup.grid.length s'
      refine ⟨c2.2 (fun i hi => ?_), ?_⟩
      · have := hrange i hi
        have h0 : (0 : K) < 1 / 1000 := by positivity
        constructor <;> linarith
      · rw [c1]; exact hrange

/-- **C106** When the gravity fluxes of every cell add up to zero (equal permeabilities; the area vectors of a closed cell do), the limit needs no
addition: the gravity flux into a cell is the one out of it. -/
theorem C106_maximum_principle_balanced_partial (E : Solver K K) (k : Nat) (big big' courant factorV factorG dt limV : K) (poro : Nat → K)
    (sat : Nat → K)
    (hn : 0 < E.setup.grid.length) (hit : E.iters = itersAfter E.setup.grid.length (k + 1))
    (hw : WithGravity E.setup) (hg : GoodMob E.setup) (hc : Connected E.setup) (hr : InRange E.setup sat)
    (hcons : ConsistentG E.setup) (ho : Oriented E.setup) (hper : PeriodicPerm E.setup)
    (hdiv : ∀ i < E.setup.grid.length, ((facesOf E.setup.grid i).map (·.flux)).sum = 0)
    (hbal : ∀ i < E.setup.grid.length, ((facesOf E.setup.grid i).map (gravityFlux E.setup i)).sum = 0)
    (hpv : E.porevol = E.setup.grid.zipIdx.map fun c => c.1.volume * poro c.2)
    (hpos : ∀ p ∈ E.porevol, 0 < p)
    (hfV : 0 < factorV) (hfG : 0 < factorG)
    (hlow : ∀ c s, 0 ≤ s → s ≤ 1 → fw E.setup c s ≤ s / factorV)
    (hup : ∀ c s, 0 ≤ s → s ≤ 1 → 1 - fw E.setup c s ≤ (1 - s) / factorV)
    (hlowG : ∀ c s, 0 ≤ s → s ≤ 1 → E.setup.rock.mob false c s ≤ s / factorG)
    (hupG : ∀ c s, 0 ≤ s → s ≤ 1 → E.setup.rock.mob true c s ≤ (1 - s) / factorG)
    (hlim : cflVelocity big factorV poro E.setup.grid = .ok limV) (hcour : 0 ≤ courant) (hcour' : courant ≤ 1 / 2)
    (hdt0 : 0 ≤ dt) (hdt : dt ≤ cflTime big' courant (some limV) (some (cflGravity E.setup big factorG poro)) none) :
    (smallTimeStep E dt sat).err = none ∧
      ∀ i < E.setup.grid.length, 0 ≤ (smallTimeStep E dt sat).val i ∧ (smallTimeStep E dt sat).val i ≤ 1 := by
  refine C106_maximum_principle_partial E k big big' courant factorV factorG dt limV poro sat hn hit hw hg hc hr hcons ho hper hdiv hpv hpos hfV hfG
    hlow hup hlowG hupG hlim hcour hcour' hdt0 hdt ?_
  intro i cell hcell
  have hi : i < E.setup.grid.length := (List.getElem?_eq_some_iff.1 hcell).1
  have hio : gravityIn E.setup i = gravityOut E.setup i := by
    have e1 := sum_max (facesOf E.setup.grid i) (gravityFlux E.setup i)
    have e2 := sum_max_neg (facesOf E.setup.grid i) (gravityFlux E.setup i)
    have e3 := sum_sub_list (facesOf E.setup.grid i) (fun f => max (gravityFlux E.setup i f) 0) (fun f => max (- gravityFlux E.setup i f) 0)
    have e4 : (fun f : Face K => max (gravityFlux E.setup i f) 0 - max (- gravityFlux E.setup i f) 0) = gravityFlux E.setup i := by
      funext f
      rcases le_total 0 (gravityFlux E.setup i f) with h | h
      · rw [max_eq_left h, max_eq_right (by linarith)]; ring
      · rw [max_eq_right h, max_eq_left (by linarith)]; ring
    rw [e4, hbal i hi, e1, e2] at e3
    unfold gravityIn gravityOut
    linarith
  have hp : 0 < cell.volume * poro i := by
    refine hpos _ ?_
    rw [hpv]
    exact List.mem_map.2 ⟨(cell, i), List.mem_zipIdx_iff_getElem?.2 hcell, rfl⟩
  rw [hio]
  have hG0 := gravityOut_nonneg E.setup i
  rcases hG0.lt_or_eq with h | h
  · have h1 := (C106_gravity_partial E.setup big factorG poro hper).2.1 i _ hcell h.ne'
    rw [le_div_iff₀ h] at h1
    have hdtG : dt ≤ cflGravity E.setup big factorG poro * courant := by
      refine hdt.trans ?_
      unfold cflTime
      exact mul_le_mul_of_nonneg_right ((min_le_left _ _).trans (min_le_right _ _)) hcour
    have h2 := mul_le_mul_of_nonneg_right hdtG hG0
    have h3 := mul_le_mul_of_nonneg_left h1 hcour
    have h4 : courant * (factorG * cell.volume * poro i) ≤ 1 / 2 * (factorG * cell.volume * poro i) :=
      mul_le_mul_of_nonneg_right hcour' (by rw [mul_assoc]; positivity)
    nlinarith
  · rw [← h, mul_zero, mul_assoc]; positivity

/-! ### Examples -/

/-- A face of area 1. -/
def gFace (k : FaceKind) (n c : Vec ℚ) (q : ℚ) : Face ℚ := ⟨k, 1, n, c, q⟩

/-- A closed column of two cells of the given volumes and permeabilities, cell 0 above cell 1; gravity points along the first axis. Linear
relative permeabilities. -/
def exColumn (v0 v1 k0 k1 : ℚ) : Setup ℚ ℚ where
  grid := [⟨[gFace (.boundary 1) ![-1, 0, 0] ![0, 0, 0] 0, gFace (.interior 1) ![1, 0, 0] ![1, 0, 0] 0], ![1 / 2, 0, 0], v0⟩,
           ⟨[gFace (.interior 0) ![-1, 0, 0] ![1, 0, 0] 0, gFace (.boundary 1) ![1, 0, 0] ![2, 0, 0] 0], ![3 / 2, 0, 0], v1⟩]
  bcs := ⟨fun _ => .dirichlet 0, fun _ => 0⟩
  rock := ⟨fun c k l => if k = l then (if c = 0 then k0 else k1) else 0, fun p _ s => if p then 1 - s else s, fun _ s => s, fun _ _ => 0, 1⟩
  ops := scalarMob
  gravity := ![1, 0, 0]
  method := ⟨true, true, false⟩
  rate := fun _ => 0
  norm := fun v => v 0

/-- Water above oil. -/
def waterOnTop : Nat → ℚ := fun i => if i = 0 then 1 else 0

theorem exColumn_gravity (v0 v1 k0 k1 : ℚ) : WithGravity (exColumn v0 v1 k0 k1) := by
  refine ⟨rfl, rfl, ?_, fun _ => rfl⟩
  intro c f hf
  rcases c with _ | _ | c
  · simp [facesOf, exColumn] at hf; rcases hf with rfl | rfl <;> simp [gFace, Fin.sum_univ_three]
  · simp [facesOf, exColumn] at hf; rcases hf with rfl | rfl <;> simp [gFace, Fin.sum_univ_three]
  · simp [facesOf, exColumn] at hf

theorem exColumn_mob (v0 v1 k0 k1 : ℚ) : GoodMob (exColumn v0 v1 k0 k1) := by
  constructor
  · intro p c s h0 h1
    cases p <;> simp [exColumn] <;> linarith
  · intro c s h0 h1
    simp [exColumn]

theorem exColumn_connected (v0 v1 k0 k1 : ℚ) : Connected (exColumn v0 v1 k0 k1) := by
  intro c hc f hf
  have : c = 0 ∨ c = 1 := by simp [exColumn] at hc; omega
  rcases this with rfl | rfl
  · simp [facesOf, exColumn] at hf; rcases hf with rfl | rfl <;> simp [gFace, exColumn]
  · simp [facesOf, exColumn] at hf; rcases hf with rfl | rfl <;> simp [gFace, exColumn]

theorem exColumn_inRange (v0 v1 k0 k1 : ℚ) : InRange (exColumn v0 v1 k0 k1) waterOnTop := by
  constructor
  · intro i _; unfold waterOnTop; split <;> norm_num
  · intro b s h
    simp only [exColumn, SatBC.dirichlet.injEq] at h
    subst h
    norm_num

theorem exColumn_oriented (v0 v1 k0 k1 : ℚ) : Oriented (exColumn v0 v1 k0 k1) := by
  intro c hc f hf
  have : c = 0 ∨ c = 1 := by simp [exColumn] at hc; omega
  rcases this with rfl | rfl
  · simp [facesOf, exColumn] at hf; rcases hf with rfl | rfl <;> simp [gFace, exColumn, neighbour]
  · simp [facesOf, exColumn] at hf; rcases hf with rfl | rfl <;> simp [gFace, exColumn, neighbour]

theorem exColumn_periodic (v0 v1 k0 k1 : ℚ) : PeriodicPerm (exColumn v0 v1 k0 k1) := by
  intro c hc f hf bid hb j hj
  unfold neighbour at hj
  rw [hb] at hj
  simp [exColumn] at hj

/-- A solver for the column. -/
def exColumnSolver (v0 v1 k0 k1 : ℚ) : Solver ℚ ℚ := ⟨exColumn v0 v1 k0 k1, itersAfter 2 1, [v0, v1], false, false⟩

/-- Segregation in a column of equal cells: all hypotheses hold, the step is half of the gravity limit (which is 1), and a quarter of the water
has come down. -/
example : cflTime (100 : ℚ) (1 / 2) (some 100) (some (cflGravity (exColumn 1 1 1 1) 100 1 fun _ => 1)) none = 1 / 2 ∧
    (smallTimeStep (exColumnSolver 1 1 1 1) (1 / 2) waterOnTop).val 1 = 1 / 4 ∧
    ((smallTimeStep (exColumnSolver 1 1 1 1) (1 / 2) waterOnTop).err = none ∧
      ∀ i < 2, 0 ≤ (smallTimeStep (exColumnSolver 1 1 1 1) (1 / 2) waterOnTop).val i ∧
        (smallTimeStep (exColumnSolver 1 1 1 1) (1 / 2) waterOnTop).val i ≤ 1) := by
  refine ⟨by decide +kernel, by decide +kernel, ?_⟩
  refine C106_maximum_principle_balanced_partial (exColumnSolver 1 1 1 1) 0 100 100 (1 / 2) 1 1 (1 / 2) 100 (fun _ => 1) waterOnTop (by decide) rfl
    (exColumn_gravity _ _ _ _) (exColumn_mob _ _ _ _) (exColumn_connected _ _ _ _) (exColumn_inRange _ _ _ _) ?_ (exColumn_oriented _ _ _ _) (exColumn_periodic _ _ _ _)
    ?_ ?_ (by decide +kernel) (by decide +kernel) one_pos one_pos ?_ ?_ ?_ ?_ (by decide +kernel) (by norm_num) le_rfl (by norm_num)
    (by decide +kernel)
  · intro i hi
    have : i = 0 ∨ i = 1 := by simp [exColumnSolver, exColumn] at hi; omega
    rcases this with rfl | rfl <;> decide +kernel
  · intro i hi
    have : i = 0 ∨ i = 1 := by simp [exColumnSolver, exColumn] at hi; omega
    rcases this with rfl | rfl <;> decide +kernel
  · intro i hi
    have : i = 0 ∨ i = 1 := by simp [exColumnSolver, exColumn] at hi; omega
    rcases this with rfl | rfl <;> decide +kernel
  · intro c s h0 h1; simp [fw, exColumnSolver, exColumn]
  · intro c s h0 h1; simp [fw, exColumnSolver, exColumn]
  · intro c s h0 h1; simp [exColumnSolver, exColumn]
  · intro c s h0 h1; simp [exColumnSolver, exColumn]

/-- The capillary limit of the column: the faces are at distance 1/2, the permeabilities are 1 and 3 (2 at the common face); the limit is
`(1/4)/3` over the factor 2. -/
example : cflCapillary (exColumn 1 1 1 3) 100 2 = .ok (1 / 24) ∧ PeriodicPerm (exColumn 1 1 1 3) ∧
    (∀ (c : Nat) (cell : Cell ℚ), (exColumn 1 1 1 3).grid[c]? = some cell → ∀ f ∈ cell.faces, ∀ x : Fin 3 → ℚ, x ≠ 0 →
      0 < ∑ k, ∑ l, x k * meanPerm (exColumn 1 1 1 3) c f k l * x l) := by
  refine ⟨by decide +kernel, exColumn_periodic _ _ _ _, ?_⟩
  intro c cell hc f hf x hx
  have key : ∀ a : ℚ, 0 < a → (∀ k l, meanPerm (exColumn 1 1 1 3) c f k l = if k = l then a else 0) →
      0 < ∑ k, ∑ l, x k * meanPerm (exColumn 1 1 1 3) c f k l * x l := by
    intro a ha h
    simp only [h, Fin.sum_univ_three]
    simp
    have : x 0 ≠ 0 ∨ x 1 ≠ 0 ∨ x 2 ≠ 0 := by
      by_contra hh
      push_neg at hh
      apply hx
      funext i
      fin_cases i
      · exact hh.1
      · exact hh.2.1
      · exact hh.2.2
    have h0 := mul_self_nonneg (x 0)
    have h1 := mul_self_nonneg (x 1)
    have h2 := mul_self_nonneg (x 2)
    rcases this with h | h | h
    · have := mul_self_pos.2 h; nlinarith
    · have := mul_self_pos.2 h; nlinarith
    · have := mul_self_pos.2 h; nlinarith
  have hm : ∀ k l, meanPerm (exColumn 1 1 1 3) c f k l =
      if k = l then ((if c = 0 then 1 else 3) + (if (neighbour (exColumn 1 1 1 3) f).getD c = 0 then 1 else 3)) / 2 else 0 := by
    intro k l
    unfold meanPerm exColumn
    by_cases h : k = l
    · simp [h]
    · simp [h]
  exact key _ (by split <;> split <;> norm_num) hm

/-! ### Violations -/

/-- **C106** (violated) The limit counts only the gravity flux *out of* cells: water falls from a large cell into a small impermeable one, all
hypotheses of the maximum principle but the one on the flux into cells hold, and a step of half the limit fills the small cell to saturation 2. -/
theorem C106_violated_inflow :
    ∃ E : Solver ℚ ℚ, ∃ sat : Nat → ℚ, WithGravity E.setup ∧ GoodMob E.setup ∧ Connected E.setup ∧ InRange E.setup sat ∧ ConsistentG E.setup ∧
      Oriented E.setup ∧ PeriodicPerm E.setup ∧ (∀ c, ∀ f ∈ facesOf E.setup.grid c, f.flux = 0) ∧
      E.porevol = E.setup.grid.map (·.volume) ∧ (∀ c s, E.setup.rock.mob false c s = s ∧ E.setup.rock.mob true c s = 1 - s) ∧
      (smallTimeStep E (1 / 2 * cflGravity E.setup 100 1 fun _ => 1) sat).val 1 = 2 := by
  refine ⟨exColumnSolver 8 1 2 0, waterOnTop, exColumn_gravity _ _ _ _, exColumn_mob _ _ _ _, exColumn_connected _ _ _ _, exColumn_inRange _ _ _ _, ?_,
    exColumn_oriented _ _ _ _, exColumn_periodic _ _ _ _, ?_, by decide +kernel, fun _ _ => ⟨rfl, rfl⟩, by decide +kernel⟩
  · intro i hi
    have : i = 0 ∨ i = 1 := by simp [exColumnSolver, exColumn] at hi; omega
    rcases this with rfl | rfl <;> decide +kernel
  · intro c f hf
    rcases c with _ | _ | c
    · simp [facesOf, exColumn, exColumnSolver] at hf; rcases hf with rfl | rfl <;> simp [gFace]
    · simp [facesOf, exColumn, exColumnSolver] at hf; rcases hf with rfl | rfl <;> simp [gFace]
    · simp [facesOf, exColumn, exColumnSolver] at hf

/-- Fractional flow and gravity fractional flow for relative permeabilities `s⁴` and `(1-s)⁴`, sampled as in the code. -/
def quarticSamples : Nat → ℚ × ℚ := fun i =>
  let s : ℚ := i / 256
  let w := s * s * s * s
  let o := (1 - s) * (1 - s) * (1 - s) * (1 - s)
  (w / (w + o), w * o / (w + o))

/-- The column with relative permeabilities `s⁴` and `(1-s)⁴`. -/
def quarticSolver : Solver ℚ ℚ :=
  let S := exColumn 1 1 1 1
  { exColumnSolver 1 1 1 1 with
    setup := { S with rock := { S.rock with
      mob := fun p _ s => if p then (1 - s) * (1 - s) * (1 - s) * (1 - s) else s * s * s * s } } }

/-- **C106** (violated) The factor for gravity comes from the slope of `λw λo / (λw + λo)` at *one* saturation, but the flux between two cells
combines the water mobility of one with the oil mobility of the other. With relative permeabilities `s⁴` and `(1-s)⁴` and water above oil, in a
column of two equal cells, a step of half the limit brings the lower cell to a saturation above 3/2. -/
theorem C106_violated_curves :
    3 / 2 < (smallTimeStep quarticSolver
      (1 / 2 * cflGravity quarticSolver.setup (10 ^ 100) (FracFlow.cflFactors (10 ^ 100) [(quarticSamples, fun _ => 0)]).2.1 fun _ => 1)
      waterOnTop).val 1 := by
  decide +kernel

/-- **C106** (violated) On a periodic face the limit takes the permeability of the visited cell alone where the flux takes the mean of the two
sides: it then exceeds the bound for the cell. -/
theorem C106_violated_periodic :
    ∃ (S : Setup ℚ ℚ) (cell : Cell ℚ), S.grid[0]? = some cell ∧ Connected S ∧ ConsistentG S ∧ gravityOut S 0 = 1 ∧ cell.volume = 1 ∧
      cflGravity S 100 1 (fun _ => 1) = 50 := by
  refine ⟨{ exColumn 1 50 0 2 with
      bcs := ⟨fun _ => .periodic, fun b => if b = 1 then 2 else 1⟩
      gravity := ![-1, 0, 0]
      grid := [⟨[gFace (.boundary 1) ![-1, 0, 0] ![0, 0, 0] 0, gFace (.interior 1) ![1, 0, 0] ![1, 0, 0] 0], ![1 / 2, 0, 0], 1⟩,
        ⟨[gFace (.interior 0) ![-1, 0, 0] ![1, 0, 0] 0, gFace (.boundary 2) ![1, 0, 0] ![2, 0, 0] 0], ![3 / 2, 0, 0], 50⟩] },
    _, rfl, ?_, ?_, by decide +kernel, rfl, by decide +kernel⟩
  · intro c hc f hf
    have : c = 0 ∨ c = 1 := by simp at hc; omega
    rcases this with rfl | rfl
    · simp [facesOf] at hf
      rcases hf with rfl | rfl
      · exact ⟨_, rfl, by decide, by decide⟩
      · exact ⟨by decide, by decide⟩
    · simp [facesOf] at hf
      rcases hf with rfl | rfl
      · exact ⟨by decide, by decide⟩
      · exact ⟨_, rfl, by decide, by decide⟩
  · intro i hi
    have : i = 0 ∨ i = 1 := by simp at hi; omega
    rcases this with rfl | rfl <;> decide +kernel

/-- One cell with an inlet on its side and an outlet at the top, where the condition says saturation 1. -/
def exTop : Solver ℚ ℚ :=
  { exColumnSolver 1 1 2 2 with
    porevol := [1]
    iters := itersAfter 1 1
    setup := { exColumn 1 1 2 2 with
      grid := [⟨[gFace (.boundary 1) ![0, 1, 0] ![0, 0, 0] (-1), gFace (.boundary 2) ![-1, 0, 0] ![0, 0, 0] 1], ![1 / 2, 0, 0], 1⟩]
      bcs := ⟨fun b => .dirichlet (if b = 2 then 1 else 0), fun _ => 0⟩ } }

/-- **C106** (violated) At an outer face with a flux the gravity term is left out, but the upstream cells are still chosen with gravity: an outlet
at the top of a cell without water takes water from the boundary condition *out of* the cell. The step respects both limits (with Courant number
1/2), also for the gravity flux into the cell, and its result is negative. -/
theorem C106_violated_boundary :
    WithGravity exTop.setup ∧ ((facesOf exTop.setup.grid 0).map (·.flux)).sum = 0 ∧
    (1 : ℚ) / 4 ≤ cflTime 100 (1 / 2) (some 1) (some (cflGravity exTop.setup 100 1 fun _ => 1)) none ∧
    cflVelocity 100 1 (fun _ => 1) exTop.setup.grid = .ok 1 ∧ 1 / 4 * gravityIn exTop.setup 0 ≤ 1 / 2 ∧
    (smallTimeStep exTop (1 / 4) fun _ => 0).val 0 < 0 := by
  refine ⟨⟨rfl, rfl, ?_, fun _ => rfl⟩, by decide +kernel, by decide +kernel, by decide +kernel, by decide +kernel, by decide +kernel⟩
  intro c f hf
  rcases c with _ | c
  · simp [facesOf, exTop] at hf; rcases hf with rfl | rfl <;> simp [gFace, Fin.sum_univ_three]
  · simp [facesOf, exTop] at hf

/-- Two cells with a total flux from cell 1 up into cell 0. -/
def exUpwards : Solver ℚ ℚ :=
  { exColumnSolver 1 1 2 2 with
    setup := { exColumn 1 1 2 2 with
      grid := [⟨[gFace (.boundary 1) ![0, 1, 0] ![0, 0, 0] 1, gFace (.interior 1) ![1, 0, 0] ![1, 0, 0] (-1)], ![1 / 2, 0, 0], 1⟩,
           ⟨[gFace (.interior 0) ![-1, 0, 0] ![1, 0, 0] 1, gFace (.boundary 2) ![0, 1, 0] ![2, 0, 0] (-1)], ![3 / 2, 0, 0], 1⟩] } }

/-- **C106** (violated) A connection whose total flux is directed towards the lower-numbered cell (see C59): the total flux goes up, gravity pulls
the water down, the upper cell holds no water and the lower one a little; a step within the limits takes water out of the upper cell. -/
theorem C106_violated_orientation :
    WithGravity exUpwards.setup ∧ (∀ i < 2, ((facesOf exUpwards.setup.grid i).map (·.flux)).sum = 0) ∧
    cflVelocity 100 1 (fun _ => 1) exUpwards.setup.grid = .ok 1 ∧
    (1 : ℚ) / 4 ≤ cflTime 100 (1 / 2) (some 1) (some (cflGravity exUpwards.setup 100 1 fun _ => 1)) none ∧
    (∀ i < 2, 1 / 4 * gravityIn exUpwards.setup i ≤ 1 / 2) ∧
    (smallTimeStep exUpwards (1 / 4) fun i => if i = 0 then 0 else 1 / 4).val 0 < 0 := by
  refine ⟨⟨rfl, rfl, ?_, fun _ => rfl⟩, by decide +kernel, by decide +kernel, by decide +kernel, by decide +kernel, by decide +kernel⟩
  intro c f hf
  rcases c with _ | _ | c
  · simp [facesOf, exUpwards] at hf; rcases hf with rfl | rfl <;> simp [gFace, Fin.sum_univ_three]
  · simp [facesOf, exUpwards] at hf; rcases hf with rfl | rfl <;> simp [gFace, Fin.sum_univ_three]
  · simp [facesOf, exUpwards] at hf

end Verif.Euler
