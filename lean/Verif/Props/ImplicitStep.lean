import Verif.Spec.ImplicitStep
import Verif.Props.ImplicitAssembly
import Verif.Props.NewtonVectors
import Verif.Props.ImplicitDriver
import Mathlib.Tactic.Linarith
import Mathlib.Tactic.Positivity
import Mathlib.Tactic.NormNum

namespace Verif.ImplicitStep

open Verif.Implicit
open Verif.ImplicitStep.Spec
open Verif.Implicit.Spec (Interior Conforming waterVolume)

variable {K : Type} [Field K] [LinearOrder K] [IsStrictOrderedRing K]

section parts
variable {M : Medium K}

theorem newSat_length (s x : List K) : (newSat M s x).length = M.grid.nc := by simp [newSat, finishStep, cells]

theorem newSat_get (s x : List K) {c : Nat} (hc : c < M.grid.nc) :
    (newSat M s x).getD c 0 = min (M.smax c) (max (M.smin c) (s.getD c 0 + x.getD c 0)) := by
  rw [List.getD_eq_getElem?_getD, List.getElem?_eq_getElem (by rw [newSat_length]; exact hc)]
  simp [newSat, finishStep, cells]

theorem newSat_within (hM : Sound M) (s x : List K) : Within M (newSat M s x) where
  length := newSat_length s x
  limits c hc := by
    rw [newSat_get s x hc]
    exact ⟨le_min (hM.limits c) (le_max_left _ _), min_le_left _ _⟩

theorem store_mob (s x : List K) {c : Nat} (hc : c < M.grid.nc) : (storeAt M s x).mob c = M.mob c ((newSat M s x).getD c 0) := by
  rw [newSat_get s x hc]; rfl

theorem store_pc (s x : List K) {c : Nat} (hc : c < M.grid.nc) : (storeAt M s x).pc c = M.pc c ((newSat M s x).getD c 0) := by
  rw [newSat_get s x hc]; rfl

theorem store_pos (hM : Sound M) (s x : List K) {c : Nat} (hc : c < M.grid.nc) :
    0 ≤ ((storeAt M s x).mob c).1 ∧ 0 ≤ ((storeAt M s x).mob c).2 ∧ 0 < ((storeAt M s x).mob c).1 + ((storeAt M s x).mob c).2 := by
  rw [store_mob s x hc]
  have := (newSat_within hM s x).limits c hc
  exact hM.mob c _ this.1 this.2

/-- The total mobility used for a face does not vanish: if the phases come from different sides, the one that decided about the other is mobile, or there is no total flux. -/
theorem upwind_total (st : Store K) (q G : K) (a b : Nat)
    (hpos : ∀ c, c = a ∨ c = b → 0 ≤ (st.mob c).1 ∧ 0 ≤ (st.mob c).2 ∧ 0 < (st.mob c).1 + (st.mob c).2)
    (hst : q = 0 → G < 0 → 0 < (st.mob b).1 + (st.mob a).2) :
    0 < (st.mob (side a b (upwind st q G a b).1)).1 + (st.mob (side a b (upwind st q G a b).2)).2 := by
  obtain ⟨ha1, ha2, ha⟩ := hpos a (Or.inl rfl)
  obtain ⟨hb1, hb2, hb⟩ := hpos b (Or.inr rfl)
  by_cases h1 : 0 ≤ q ∧ 0 ≤ G
  · have e : upwind st q G a b = (false, decide (q - (st.mob a).1 * G < 0)) := by
      simp [upwind, side, not_lt.2 h1.1, not_lt.2 h1.2]
    rw [e]
    by_cases h : q - (st.mob a).1 * G < 0
    · have : 0 < (st.mob a).1 := by
        rcases ha1.lt_or_eq with h' | h'
        · exact h'
        · rw [← h', zero_mul, sub_zero] at h; exact absurd h1.1 (not_le.2 h)
      simp only [side, h, decide_true, if_true, Bool.false_eq_true, if_false]
      linarith
    · simpa [side, h] using ha
  · have hn : (decide (q < 0) || decide (G < 0)) = true := by
      by_contra hc
      simp only [Bool.or_eq_true, decide_eq_true_eq, not_or, not_lt] at hc
      exact h1 hc
    have hn' : (!decide (q < 0) && !decide (G < 0)) = false := by rw [← Bool.not_or, hn]; rfl
    by_cases h2 : q ≤ 0 ∧ G ≤ 0
    · have e : upwind st q G a b = (true, decide (q - (st.mob b).1 * G < 0)) := by
        simp only [upwind, side, hn']
        simp [not_lt.2 h2.1, not_lt.2 h2.2]
      rw [e]
      by_cases h : q - (st.mob b).1 * G < 0
      · simpa [side, h] using hb
      · simp only [side, h, decide_false, if_true, Bool.false_eq_true, if_false]
        rcases h2.1.lt_or_eq with hq | hq
        · have : 0 < (st.mob b).1 := by
            rcases hb1.lt_or_eq with h' | h'
            · exact h'
            · rw [← h', zero_mul, sub_zero] at h; exact absurd hq h
          linarith
        · refine hst hq ?_
          rcases h2.2.lt_or_eq with hG | hG
          · exact hG
          · exact absurd ⟨hq.ge, hG.ge⟩ h1
    · have hm : (!decide (q > 0) && !decide (G > 0)) = false := by
        by_contra hc
        simp only [Bool.not_eq_false, Bool.and_eq_true, Bool.not_eq_true', decide_eq_false_iff_not, gt_iff_lt, not_lt] at hc
        exact h2 hc
      by_cases h3 : 0 ≤ q ∧ G ≤ 0
      · have e : upwind st q G a b = (!decide (0 < q + (st.mob a).2 * G), false) := by
          simp only [upwind, side, hn', hm]
          simp [not_lt.2 h3.1, not_lt.2 h3.2]
        rw [e]
        by_cases h : 0 < q + (st.mob a).2 * G
        · simpa [side, h] using ha
        · have : 0 < (st.mob a).2 := by
            rcases ha2.lt_or_eq with h' | h'
            · exact h'
            · rw [← h', zero_mul, add_zero] at h
              exact absurd ⟨not_lt.1 h, h3.2⟩ h2
          simp only [side, h, decide_false, Bool.not_false, if_true, Bool.false_eq_true, if_false]
          linarith
      · have h4 : q ≤ 0 ∧ 0 ≤ G := by
          rcases le_total 0 q with hq | hq <;> rcases le_total 0 G with hG | hG
          · exact absurd ⟨hq, hG⟩ h1
          · exact absurd ⟨hq, hG⟩ h3
          · exact ⟨hq, hG⟩
          · exact absurd ⟨hq, hG⟩ h2
        have hk : (!decide (q < 0) && !decide (G > 0)) = false := by
          by_contra hc
          simp only [Bool.not_eq_false, Bool.and_eq_true, Bool.not_eq_true', decide_eq_false_iff_not, gt_iff_lt, not_lt] at hc
          exact h3 hc
        have e : upwind st q G a b = (!decide (0 < q + (st.mob b).2 * G), true) := by
          simp only [upwind, side, hn', hm, hk]
          simp
        rw [e]
        by_cases h : 0 < q + (st.mob b).2 * G
        · have : 0 < (st.mob b).2 := by
            rcases hb2.lt_or_eq with h' | h'
            · exact h'
            · rw [← h', zero_mul, add_zero] at h
              exact absurd h4.1 (not_le.2 h)
          simp only [side, h, decide_true, Bool.not_true, if_true, Bool.false_eq_true, if_false]
          linarith
        · simpa [side, h] using hb

/-- C20_flux with the total mobility. -/
theorem flux_spec (st : Store K) (dt q g0 : K) (c f a b : Nat) (hc : c = a ∨ c = b) (hab : a ≠ b)
    (hpos : ∀ c, c = a ∨ c = b → 0 ≤ (st.mob c).1 ∧ 0 ≤ (st.mob c).2 ∧ 0 < (st.mob c).1 + (st.mob c).2)
    (hst : q = 0 → g0 + st.trans f * (st.pc b - st.pc a) < 0 → 0 < (st.mob b).1 + (st.mob a).2) (x : Contrib K)
    (hx : fluxConnection st dt q g0 c f a b = some x) :
    ∃ cw co, (cw = a ∨ cw = b) ∧ (co = a ∨ co = b) ∧
      let G := g0 + st.trans f * (st.pc b - st.pc a)
      let mw := (st.mob cw).1
      let mo := (st.mob co).2
      0 < mw + mo ∧ x.F = (if c = a then 1 else -1) * waterVolume dt q G mw mo ∧
      (cw = a → 0 ≤ q + mo * G) ∧ (cw = b → q + mo * G ≤ 0) ∧ (co = a → 0 ≤ q - mw * G) ∧ (co = b → q - mw * G ≤ 0) := by
  have u := C20_upwind st q (g0 + st.trans f * (st.pc b - st.pc a)) a b fun c hc => ⟨(hpos c hc).1, (hpos c hc).2.1⟩
  have ht := upwind_total st q (g0 + st.trans f * (st.pc b - st.pc a)) a b hpos hst
  set G := g0 + st.trans f * (st.pc b - st.pc a) with hG
  set p := upwind st q G a b with hp
  refine ⟨if p.1 then b else a, if p.2 then b else a, by cases p.1 <;> simp, by cases p.2 <;> simp, ?_⟩
  simp only at u ⊢
  refine ⟨ht, ?_, ?_, ?_, ?_, ?_⟩
  · unfold fluxConnection at hx
    simp only [capFlux, ← hG, ← hp, side] at hx
    by_cases hm : (st.mob (if p.1 = true then b else a)).1 + (st.mob (if p.2 = true then b else a)).2 = 0
    · rw [if_pos hm] at hx; simp at hx
    · rw [if_neg hm, Option.some.injEq] at hx
      rw [← hx]
      simp only [waterVolume]
      by_cases h : c = a
      · simp [h]
      · simp only [if_neg h, if_neg (Ne.symm h)]; ring
  · intro h; apply u.1; revert h; cases p.1 <;> simp [hab.symm]
  · intro h; apply u.2.1; revert h; cases p.1 <;> simp [hab]
  · intro h; apply u.2.2.1; revert h; cases p.2 <;> simp [hab.symm]
  · intro h; apply u.2.2.2; revert h; cases p.2 <;> simp [hab]

theorem interior_of (hM : Sound M) {c f : Nat} (hc : c < M.grid.nc) (hf : f ∈ M.grid.cellFaces c) (hi : M.grid.internal f = true) :
    ∃ a b, Interior M.grid f a b ∧ (c = a ∨ c = b) := by
  simp only [Grid.internal, Bool.and_eq_true, decide_eq_true_eq] at hi
  have hd := hM.distinct f hi.1
  have hv := hM.grid.valid f
  have hm := hM.grid.mine c f hc hf
  refine ⟨(M.grid.faceCells f).1.toNat, (M.grid.faceCells f).2.toNat, ⟨?_, by omega, by omega, by omega⟩, by omega⟩
  ext
  · simp [hi.1]
  · simp [hi.2]

/-- The system is always assembled, and its residuals are the balances of the cells. -/
theorem assembled (hM : Sound M) (dt : K) (s x : List K) : ∃ S w, assemble (problemAt M dt s x) = some S ∧ Flows M dt (newSat M s x) w ∧
    ∀ c, c < M.grid.nc → S.res c = imbalance M dt (x.getD c 0) (newSat M s x) w c := by
  set v := newSat M s x with hv
  set st := storeAt M s x with hst
  have hstill : ∀ f a b, Interior M.grid f a b → M.faceflux f = 0 → 0 + st.trans f * (st.pc b - st.pc a) < 0 → 0 < (st.mob b).1 + (st.mob a).2 := by
    intro f a b hf hq hG
    obtain ⟨-, ha, hb, hab⟩ := id hf
    have p1 := store_pos hM s x ha
    have p2 := store_pos hM s x hb
    by_contra hcon
    have z1 : (st.mob b).1 = 0 := le_antisymm (by linarith [p1.2.1]) p2.1
    have z2 : (st.mob a).2 = 0 := le_antisymm (by linarith [p2.1]) p1.2.1
    rw [hst, store_mob s x hb] at z1
    rw [hst, store_mob s x ha] at z2
    have w := newSat_within hM s x
    have := hM.still f a b hf hq _ _ (w.limits a ha).1 (w.limits a ha).2 (w.limits b hb).1 (w.limits b hb).2 z2 z1
    rw [hst, store_pc s x ha, store_pc s x hb, zero_add] at hG
    exact absurd this (not_le.2 hG)
  have hdef : ∀ f a b, Interior M.grid f a b → ∀ c, ∃ y, fluxConnection st dt (M.faceflux f) 0 c f a b = some y := by
    intro f a b hf c
    obtain ⟨-, ha, hb, hab⟩ := id hf
    have h := upwind_total st (M.faceflux f) (0 + st.trans f * (st.pc b - st.pc a)) a b
      (fun c hc => store_pos hM s x (by rcases hc with rfl | rfl <;> assumption)) (hstill f a b hf)
    unfold fluxConnection
    exact ⟨_, if_neg (ne_of_gt h)⟩
  let X : Nat → Nat → Contrib K := fun c f =>
    (fluxConnection st dt (M.faceflux f) 0 c f (M.grid.faceCells f).1.toNat (M.grid.faceCells f).2.toNat).getD ⟨0, 0, 0⟩
  let Y : Nat × K × K → K × K := fun q => (sourceTerms st dt q.2.1 q.2.2 q.1).getD (0, 0)
  have cells_of : ∀ f a b, Interior M.grid f a b → (M.grid.faceCells f).1.toNat = a ∧ (M.grid.faceCells f).2.toNat = b := by
    intro f a b hf; rw [hf.1]; simp
  have hX' : ∀ f a b, Interior M.grid f a b → ∀ c, fluxConnection st dt (M.faceflux f) 0 c f a b = some (X c f) := by
    intro f a b hf c
    obtain ⟨y, hy⟩ := hdef f a b hf c
    obtain ⟨e1, e2⟩ := cells_of f a b hf
    simp only [X, e1, e2, hy, Option.getD_some]
  have hX : Implicit.Spec.Contribs (problemAt M dt s x) X := by
    intro c hc f hf
    obtain ⟨hf1, hf2⟩ := List.mem_filter.1 hf
    obtain ⟨a, b, hi, -⟩ := interior_of hM hc hf1 hf2
    obtain ⟨e1, e2⟩ := cells_of f a b hi
    have := hX' f a b hi c
    rw [← e1, ← e2] at this
    exact this
  have hY : Implicit.Spec.Sources (problemAt M dt s x) Y ∧ ∀ q ∈ M.src, (Y q).2 = leaves M dt v q := by
    have : ∀ q ∈ M.src, sourceTerms st dt q.2.1 q.2.2 q.1 = some (Y q) ∧ (Y q).2 = leaves M dt v q := by
      intro q hq
      have hc := hM.src q hq
      have hp := store_pos hM s x hc
      unfold leaves fraction
      by_cases h : 0 < q.2.1
      · have e : sourceTerms st dt q.2.1 q.2.2 q.1 = some (0, dt * -q.2.1 * q.2.2) := by
          unfold sourceTerms; simp [h]
        simp only [Y, e, Option.getD_some, h, if_true, true_and]
        ring
      · have e : ∃ j, sourceTerms st dt q.2.1 q.2.2 q.1 = some (j, dt * -q.2.1 * ((st.mob q.1).1 / ((st.mob q.1).1 + (st.mob q.1).2))) := by
          unfold sourceTerms
          simp only [Left.neg_neg_iff, h, if_false]
          exact ⟨_, if_neg (ne_of_gt hp.2.2)⟩
        obtain ⟨j, e⟩ := e
        simp only [Y, e, Option.getD_some, h, if_false, true_and]
        rw [hst, store_mob s x hc]
        ring
    exact ⟨fun q hq => ⟨hM.src q hq, (this q hq).1⟩, fun q hq => (this q hq).2⟩
  obtain ⟨S, hS, hres, -⟩ := C22_assemble (problemAt M dt s x) hM.grid X hX Y hY.1
  let w : Nat → K := fun f => (X (M.grid.faceCells f).1.toNat f).F
  refine ⟨S, w, hS, ?_, ?_⟩
  · intro f a b hf
    obtain ⟨e1, e2⟩ := cells_of f a b hf
    obtain ⟨-, ha, hb, hab⟩ := id hf
    obtain ⟨cw, co, h1, h2, h3⟩ := flux_spec st dt (M.faceflux f) 0 a f a b (Or.inl rfl) hab
      (fun c hc => store_pos hM s x (by rcases hc with rfl | rfl <;> assumption)) (hstill f a b hf) _ (hX' f a b hf a)
    refine ⟨cw, co, h1, h2, ?_⟩
    have hcw : cw < M.grid.nc := by rcases h1 with rfl | rfl <;> assumption
    have hco : co < M.grid.nc := by rcases h2 with rfl | rfl <;> assumption
    simp only [if_true, one_mul, zero_add] at h3
    rw [hst, store_mob s x hcw, store_mob s x hco, store_pc s x ha, store_pc s x hb] at h3
    simp only [w, e1]
    exact h3
  · intro c hc
    rw [hres c hc]
    unfold imbalance outflow
    have e1 : ((Implicit.Spec.conns (problemAt M dt s x).grid c).map fun f => (X c f).F) =
        (((M.grid.cellFaces c).filter fun f => decide (0 ≤ (M.grid.faceCells f).1 ∧ 0 ≤ (M.grid.faceCells f).2)).map fun f =>
          if (M.grid.faceCells f).1 = (c : Int) then w f else -w f) := by
      have hfil : Implicit.Spec.conns (problemAt M dt s x).grid c =
          (M.grid.cellFaces c).filter fun f => decide (0 ≤ (M.grid.faceCells f).1 ∧ 0 ≤ (M.grid.faceCells f).2) := by
        unfold Implicit.Spec.conns
        apply List.filter_congr
        intro f _
        simp [Grid.internal, problemAt]
      rw [← hfil]
      apply List.map_congr_left
      intro f hf
      obtain ⟨hf1, hf2⟩ := List.mem_filter.1 hf
      obtain ⟨a, b, hi, hcab⟩ := interior_of hM hc hf1 hf2
      obtain ⟨e1, e2⟩ := cells_of f a b hi
      obtain ⟨e3, -, -, hab⟩ := id hi
      rcases hcab with rfl | rfl
      · rw [if_pos (by rw [e3]), ]
        simp only [w, e1]
      · rw [if_neg (by rw [e3]; simpa using hab)]
        have := C19_cancel st dt (M.faceflux f) 0 f a c hab _ _ (hX' f a c hi a) (hX' f a c hi c)
        simp only [w, e1]
        linarith
    have e2 : (((problemAt M dt s x).src.filter fun q => q.1 = c).map fun q => (Y q).2) = ((M.src.filter fun q => q.1 = c).map (leaves M dt v)) := by
      apply List.map_congr_left
      intro q hq
      exact hY.2 q (List.mem_filter.1 hq).1
    rw [e1, e2]
    change _ + M.porevol c * x.getD c 0 + _ = _
    ring

theorem single_sum (n i : Nat) (g : Nat → K) (hi : i < n) :
    ((((List.range n).map fun i => (i, g i)).filter fun q => q.1 = i).map fun q => q.2).sum = g i := by
  have gen : ∀ n, ((((List.range n).map fun i => (i, g i)).filter fun q => q.1 = i).map fun q => q.2).sum = if i < n then g i else 0 := by
    intro n
    induction n with
    | zero => simp
    | succ n ih =>
      rw [List.range_succ, List.map_append, List.filter_append, List.map_append, List.sum_append, ih]
      by_cases h : n = i
      · subst h; simp
      · by_cases h' : i < n
        · rw [if_pos h', if_pos (by omega)]; simp [h]
        · rw [if_neg h', if_neg (by omega)]; simp [h]
  rw [gen, if_pos hi]

theorem setup_res (hM : Sound M) (lin : (Nat → Nat → K) → List K → List K → List K) (dt : K) (s x : List K) :
    ∃ w, Flows M dt (newSat M s x) w ∧
      ∀ c, c < M.grid.nc → NewtonVec.Spec.res (setup M lin dt s) x c = imbalance M dt (x.getD c 0) (newSat M s x) w c := by
  obtain ⟨S, w, hS, hw, hres⟩ := assembled hM dt s x
  have e : ∀ c, c < M.grid.nc → NewtonVec.Spec.res (setup M lin dt s) x c = S.res c := by
    intro c hc
    unfold NewtonVec.Spec.res
    simp only [setup, hS]
    exact single_sum _ _ _ hc
  exact ⟨w, hw, fun c hc => by rw [e c hc, hres c hc]⟩

theorem setup_fits (lin : (Nat → Nat → K) → List K → List K → List K) (hlin : ∀ A b g, (lin A b g).length = g.length) (dt : K) {s : List K}
    (hs : s.length = M.grid.nc) : NewtonVec.Spec.Fits (setup M lin dt s) where
  init := by simp [setup, initStep, hs]
  ress x q hq := by
    simp only [setup] at hq ⊢
    split at hq
    · obtain ⟨i, hi, rfl⟩ := List.mem_map.1 hq
      exact List.mem_range.1 hi
    · simp at hq
  lin := hlin

theorem init_get (lin : (Nat → Nat → K) → List K → List K → List K) (dt : K) (s : List K) (c : Nat) : (setup M lin dt s).init.getD c 0 = 0 := by
  simp only [setup, initStep, if_true, List.getD_eq_getElem?_getD, List.getElem?_map]
  cases s[c]? <;> rfl

theorem newSat_zero {s x : List K} (hs : Within M s) (hx : ∀ c, x.getD c 0 = 0) : newSat M s x = s := by
  apply List.ext_getElem
  · rw [newSat_length, hs.length]
  · intro c h1 h2
    have hc : c < M.grid.nc := by rwa [newSat_length] at h1
    have := newSat_get s x hc
    rw [hx, add_zero, max_eq_right (hs.limits c hc).1, min_eq_right (hs.limits c hc).2] at this
    simpa [List.getD_eq_getElem?_getD, List.getElem?_eq_getElem h1, List.getElem?_eq_getElem h2] using this

/-- The saturations reported differ from those solved for by at most the tolerance. -/
theorem newSat_close (hM : Sound M) {s x : List K} (h : (initIteration M.tol (cells M s x)).1 = true) {c : Nat} (hc : c < M.grid.nc) :
    |(newSat M s x).getD c 0 - s.getD c 0 - x.getD c 0| ≤ M.tol := by
  have hl : ∀ q ∈ cells M s x, q.1 ≤ q.2.1 := by
    intro q hq
    obtain ⟨c, -, rfl⟩ := List.mem_map.1 hq
    exact hM.limits c
  have := ((C21_iteration M.tol (cells M s x) hl).1.1 h) (M.smin c, M.smax c, s.getD c 0, x.getD c 0) (List.mem_map.2 ⟨c, List.mem_range.2 hc, rfl⟩)
  obtain ⟨h1, h2⟩ := this
  simp only at h1 h2
  rw [newSat_get s x hc, abs_le]
  have ht := hM.tol
  have hle := hM.limits c
  rcases le_total (M.smin c) (s.getD c 0 + x.getD c 0) with a | a
  · rw [max_eq_right a]
    rcases le_total (M.smax c) (s.getD c 0 + x.getD c 0) with b | b
    · rw [min_eq_left b]; constructor <;> linarith
    · rw [min_eq_right b]; constructor <;> linarith
  · rw [max_eq_left a, min_eq_right hle]; constructor <;> linarith

/-- **C150** Given total flux, driving force and mobilities on both sides, there is only one water volume computed with mobilities from the side each phase comes from. -/
theorem C150_unique {dt q G wa wb oa ob mw mo mw' mo' : K} (hwa : 0 ≤ wa) (hwb : 0 ≤ wb) (hoa : 0 ≤ oa) (hob : 0 ≤ ob)
    (ht : 0 < mw + mo) (h1 : (mw = wa ∧ 0 ≤ q + mo * G) ∨ (mw = wb ∧ q + mo * G ≤ 0)) (h2 : (mo = oa ∧ 0 ≤ q - mw * G) ∨ (mo = ob ∧ q - mw * G ≤ 0))
    (ht' : 0 < mw' + mo') (h1' : (mw' = wa ∧ 0 ≤ q + mo' * G) ∨ (mw' = wb ∧ q + mo' * G ≤ 0)) (h2' : (mo' = oa ∧ 0 ≤ q - mw' * G) ∨ (mo' = ob ∧ q - mw' * G ≤ 0)) :
    waterVolume dt q G mw mo = waterVolume dt q G mw' mo' := by
  -- phase fluxes are increasing functions of the water potential `p` and add up to `q`
  have form : ∀ {mw mo : K}, 0 < mw + mo → ((mw = wa ∧ 0 ≤ q + mo * G) ∨ (mw = wb ∧ q + mo * G ≤ 0)) → ((mo = oa ∧ 0 ≤ q - mw * G) ∨ (mo = ob ∧ q - mw * G ≤ 0)) →
      ∃ p, waterVolume dt q G mw mo = dt * (wa * max p 0 + wb * min p 0) ∧
        (wa * max p 0 + wb * min p 0) + (oa * max (p - G) 0 + ob * min (p - G) 0) = q := by
    intro mw mo ht h1 h2
    have hne := ht.ne'
    refine ⟨(q + mo * G) / (mw + mo), ?_⟩
    have e2 : (q + mo * G) / (mw + mo) - G = (q - mw * G) / (mw + mo) := by field_simp; ring
    have w : wa * max ((q + mo * G) / (mw + mo)) 0 + wb * min ((q + mo * G) / (mw + mo)) 0 = mw * ((q + mo * G) / (mw + mo)) := by
      rcases h1 with ⟨rfl, h⟩ | ⟨rfl, h⟩
      · have := div_nonneg h ht.le
        rw [max_eq_left this, min_eq_right this, mul_zero, add_zero]
      · have := div_nonpos_of_nonpos_of_nonneg h ht.le
        rw [max_eq_right this, min_eq_left this, mul_zero, zero_add]
    have o : oa * max ((q - mw * G) / (mw + mo)) 0 + ob * min ((q - mw * G) / (mw + mo)) 0 = mo * ((q - mw * G) / (mw + mo)) := by
      rcases h2 with ⟨rfl, h⟩ | ⟨rfl, h⟩
      · have := div_nonneg h ht.le
        rw [max_eq_left this, min_eq_right this, mul_zero, add_zero]
      · have := div_nonpos_of_nonpos_of_nonneg h ht.le
        rw [max_eq_right this, min_eq_left this, mul_zero, zero_add]
    rw [e2, w, o]
    constructor
    · unfold waterVolume; field_simp
    · field_simp; ring
  obtain ⟨p, e1, e2⟩ := form ht h1 h2
  obtain ⟨p', e1', e2'⟩ := form ht' h1' h2'
  have mono : ∀ {a b x y : K}, 0 ≤ a → 0 ≤ b → x ≤ y → a * max x 0 + b * min x 0 ≤ a * max y 0 + b * min y 0 := fun ha hb hxy =>
    add_le_add (mul_le_mul_of_nonneg_left (max_le_max hxy le_rfl) ha) (mul_le_mul_of_nonneg_left (min_le_min hxy le_rfl) hb)
  rw [e1, e1']
  congr 1
  rcases le_total p p' with h | h
  · have a1 := mono hwa hwb h
    have a2 := mono hoa hob (sub_le_sub_right h G)
    linarith
  · have a1 := mono hwa hwb h
    have a2 := mono hoa hob (sub_le_sub_right h G)
    linarith

/-- Twins carry the same flow. -/
theorem twin_flow (hM : Sound M) {twin : Nat → Nat} (hJ : Joined M twin) {dt : K} {v : List K} (hv : Within M v) {w : Nat → K} (hw : Flows M dt v w) {f a b : Nat}
    (hf : Interior M.grid f a b) : (Interior M.grid (twin f) a b ∧ w (twin f) = w f) ∨ (Interior M.grid (twin f) b a ∧ w (twin f) = -w f) := by
  obtain ⟨cw, co, h1, h2, h3⟩ := hw f a b hf
  obtain ⟨-, ha, hb, -⟩ := id hf
  have pa := hM.mob a _ (hv.limits a ha).1 (hv.limits a ha).2
  have pb := hM.mob b _ (hv.limits b hb).1 (hv.limits b hb).2
  simp only at h3
  obtain ⟨t, e, i1, i2, i3, i4⟩ := h3
  set q := M.faceflux f
  set G := M.trans f * (M.pc b (v.getD b 0) - M.pc a (v.getD a 0)) with hG
  rcases hJ.cells f a b hf with ⟨hi, hq⟩ | ⟨hi, hq⟩
  · left
    refine ⟨hi, ?_⟩
    obtain ⟨cw', co', k1, k2, k3⟩ := hw (twin f) a b hi
    simp only [hq, hJ.trans f a b hf, ← hG] at k3
    obtain ⟨t', e', j1, j2, j3, j4⟩ := k3
    rw [e, e']
    refine C150_unique pa.1 pb.1 pa.2.1 pb.2.1 t' ?_ ?_ t ?_ ?_
    · rcases k1 with rfl | rfl; exacts [Or.inl ⟨rfl, j1 rfl⟩, Or.inr ⟨rfl, j2 rfl⟩]
    · rcases k2 with rfl | rfl; exacts [Or.inl ⟨rfl, j3 rfl⟩, Or.inr ⟨rfl, j4 rfl⟩]
    · rcases h1 with rfl | rfl; exacts [Or.inl ⟨rfl, i1 rfl⟩, Or.inr ⟨rfl, i2 rfl⟩]
    · rcases h2 with rfl | rfl; exacts [Or.inl ⟨rfl, i3 rfl⟩, Or.inr ⟨rfl, i4 rfl⟩]
  · right
    refine ⟨hi, ?_⟩
    obtain ⟨cw', co', k1, k2, k3⟩ := hw (twin f) b a hi
    have hG' : M.trans f * (M.pc a (v.getD a 0) - M.pc b (v.getD b 0)) = -G := by rw [hG]; ring
    simp only [hq, hJ.trans f a b hf, hG'] at k3
    obtain ⟨t', e', j1, j2, j3, j4⟩ := k3
    have e'' : waterVolume dt (-q) (-G) (M.mob cw' (v.getD cw' 0)).1 (M.mob co' (v.getD co' 0)).2 =
        -waterVolume dt q G (M.mob cw' (v.getD cw' 0)).1 (M.mob co' (v.getD co' 0)).2 := by unfold waterVolume; ring
    rw [e, e', e'']
    congr 1
    refine C150_unique pa.1 pb.1 pa.2.1 pb.2.1 t' ?_ ?_ t ?_ ?_
    · rcases k1 with rfl | rfl; exacts [Or.inr ⟨rfl, by linarith [j1 rfl]⟩, Or.inl ⟨rfl, by linarith [j2 rfl]⟩]
    · rcases k2 with rfl | rfl; exacts [Or.inr ⟨rfl, by linarith [j3 rfl]⟩, Or.inl ⟨rfl, by linarith [j4 rfl]⟩]
    · rcases h1 with rfl | rfl; exacts [Or.inl ⟨rfl, i1 rfl⟩, Or.inr ⟨rfl, i2 rfl⟩]
    · rcases h2 with rfl | rfl; exacts [Or.inl ⟨rfl, i3 rfl⟩, Or.inr ⟨rfl, i4 rfl⟩]

/-- The flow over a face counted outwards of cell `c`. -/
def outOf (M : Medium K) (w : Nat → K) (c f : Nat) : K := if (M.grid.faceCells f).1 = (c : Int) then w f else -w f

/-- In a grid whose two sides agree, what flows between cells cancels. -/
theorem flows_cancel (hM : Sound M) {twin : Nat → Nat} (hJ : Joined M twin) {dt : K} {v : List K} (hv : Within M v) {w : Nat → K} (hw : Flows M dt v w) :
    ∑ c ∈ Finset.range M.grid.nc, outflow M w c = 0 := by
  classical
  let conns : Nat → List Nat := fun c => (M.grid.cellFaces c).filter fun f => decide (0 ≤ (M.grid.faceCells f).1 ∧ 0 ≤ (M.grid.faceCells f).2)
  let A : Finset Nat := (Finset.range M.grid.nc).biUnion fun c => (conns c).toFinset
  let B : Finset Nat := A ∪ A.image twin
  have hint : ∀ f ∈ A, ∃ a b, Interior M.grid f a b := by
    intro f hf
    obtain ⟨c, hc, hf⟩ := Finset.mem_biUnion.1 hf
    obtain ⟨h1, h2⟩ := List.mem_filter.1 (List.mem_toFinset.1 hf)
    obtain ⟨a, b, hi, -⟩ := interior_of hM (Finset.mem_range.1 hc) h1 (by simpa [Grid.internal] using h2)
    exact ⟨a, b, hi⟩
  have hintB : ∀ f ∈ B, ∃ a b, Interior M.grid f a b := by
    intro f hf
    rcases Finset.mem_union.1 hf with hf | hf
    · exact hint f hf
    · obtain ⟨g, hg, rfl⟩ := Finset.mem_image.1 hf
      obtain ⟨a, b, hi⟩ := hint g hg
      rcases hJ.cells g a b hi with h | h
      · exact ⟨a, b, h.1⟩
      · exact ⟨b, a, h.1⟩
  have htwB : ∀ f ∈ B, twin f ∈ B ∧ twin (twin f) = f := by
    intro f hf
    obtain ⟨a, b, hi⟩ := hintB f hf
    refine ⟨?_, hJ.inv f a b hi⟩
    rcases Finset.mem_union.1 hf with hf | hf
    · exact Finset.mem_union_right _ (Finset.mem_image_of_mem _ hf)
    · obtain ⟨g, hg, rfl⟩ := Finset.mem_image.1 hf
      obtain ⟨a', b', hi'⟩ := hint g hg
      rw [hJ.inv g a' b' hi']
      exact Finset.mem_union_left _ hg
  let h : Nat → K := fun f => ∑ c ∈ Finset.range M.grid.nc, ((conns c).count f : K) * outOf M w c f
  have hsum : ∑ c ∈ Finset.range M.grid.nc, outflow M w c = ∑ f ∈ B, h f := by
    rw [Finset.sum_comm]
    refine Finset.sum_congr rfl fun c hc => ?_
    have hsub : (conns c).toFinset ⊆ B := fun f hf => Finset.mem_union_left _ (Finset.mem_biUnion.2 ⟨c, hc, hf⟩)
    rw [← Finset.sum_subset hsub fun f _ hf => by
      rw [List.count_eq_zero_of_not_mem (fun hm => hf (List.mem_toFinset.2 hm)), Nat.cast_zero, zero_mul]]
    change ((conns c).map fun f => outOf M w c f).sum = _
    rw [Finset.sum_list_map_count]
    exact Finset.sum_congr rfl fun f _ => nsmul_eq_mul _ _
  have hcount : ∀ f a b, Interior M.grid f a b → ∀ c, (conns c).count f = (M.grid.cellFaces c).count f := by
    intro f a b hi c
    refine List.count_filter ?_
    rw [hi.1]
    simp
  have hpair : ∀ f ∈ B, h f + h (twin f) = 0 := by
    intro f hf
    obtain ⟨a, b, hi⟩ := hintB f hf
    obtain ⟨e, ha, hb, hab⟩ := id hi
    have htw := twin_flow hM hJ hv hw hi
    have hit : ∃ a' b', Interior M.grid (twin f) a' b' := by
      rcases htw with h | h
      · exact ⟨_, _, h.1⟩
      · exact ⟨_, _, h.1⟩
    obtain ⟨a', b', hit⟩ := hit
    have oa : outOf M w a f = w f := by unfold outOf; rw [if_pos (by rw [e])]
    have ob : outOf M w b f = -w f := by unfold outOf; rw [if_neg (by rw [e]; simpa using hab)]
    have ta : outOf M w a (twin f) = w f ∧ outOf M w b (twin f) = -w f := by
      unfold outOf
      rcases htw with ⟨h1, h2⟩ | ⟨h1, h2⟩
      · rw [h1.1, h2, if_pos rfl, if_neg (by simpa using hab)]; exact ⟨rfl, rfl⟩
      · rw [h1.1, h2, if_neg (by simpa using hab.symm), if_pos rfl]; exact ⟨neg_neg _, rfl⟩
    -- only the two cells count
    have hd : h f + h (twin f) = ∑ c ∈ Finset.range M.grid.nc, (if c = a ∨ c = b then (if twin f = f then 2 else 1) * outOf M w c f else 0) := by
      change (∑ c ∈ _, _) + (∑ c ∈ _, _) = _
      rw [← Finset.sum_add_distrib]
      refine Finset.sum_congr rfl fun c hc => ?_
      rw [hcount f a b hi, hcount _ a' b' hit]
      have hc := Finset.mem_range.1 hc
      by_cases ht : twin f = f
      · rw [ht, if_pos rfl, hJ.single f a b hi ht c hc]
        by_cases hcab : c = a ∨ c = b
        · rw [if_pos hcab, if_pos hcab]; push_cast; ring
        · rw [if_neg hcab, if_neg hcab]; simp
      · rw [if_neg ht]
        have hs := hJ.shared f a b hi ht c hc
        by_cases hcab : c = a ∨ c = b
        · rw [if_pos hcab] at hs ⊢
          have hoo : outOf M w c (twin f) = outOf M w c f := by
            rcases hcab with rfl | rfl
            · rw [oa, ta.1]
            · rw [ob, ta.2]
          rw [hoo, ← add_mul, ← Nat.cast_add, hs, Nat.cast_one]
        · rw [if_neg hcab] at hs ⊢
          have z1 : (M.grid.cellFaces c).count f = 0 := by omega
          have z2 : (M.grid.cellFaces c).count (twin f) = 0 := by omega
          rw [z1, z2]; simp
    rw [hd, ← Finset.sum_filter]
    have hset : (Finset.range M.grid.nc).filter (fun c => c = a ∨ c = b) = {a, b} := by
      ext c
      simp only [Finset.mem_filter, Finset.mem_range, Finset.mem_insert, Finset.mem_singleton]
      constructor
      · exact fun h => h.2
      · intro h; exact ⟨by rcases h with rfl | rfl <;> assumption, h⟩
    rw [hset, Finset.sum_pair hab, oa, ob]
    ring
  have hperm : ∑ f ∈ B, h f = ∑ f ∈ B, h (twin f) :=
    Finset.sum_nbij' twin twin (fun f hf => (htwB f hf).1) (fun f hf => (htwB f hf).1) (fun f hf => (htwB f hf).2) (fun f hf => (htwB f hf).2)
      (fun f hf => by rw [(htwB f hf).2])
  have h2 : ∑ f ∈ B, h f + ∑ f ∈ B, h (twin f) = 0 := by
    rw [← Finset.sum_add_distrib]
    exact Finset.sum_eq_zero hpair
  rw [← hperm] at h2
  rw [hsum]
  linarith

theorem src_sum (hM : Sound M) (g : Nat × K × K → K) :
    ∑ c ∈ Finset.range M.grid.nc, ((M.src.filter fun q => q.1 = c).map g).sum = (M.src.map g).sum := by
  have hlt : ∀ q ∈ M.src, q.1 < M.grid.nc := hM.src
  generalize M.src = l at hlt
  induction l with
  | nil => simp
  | cons s ss ih =>
    have hs := hlt s (List.mem_cons_self ..)
    rw [List.map_cons, List.sum_cons, ← ih (fun t ht => hlt t (List.mem_cons_of_mem _ ht))]
    have : ∀ c, (((s :: ss).filter fun q => q.1 = c).map g).sum = (if c = s.1 then g s else 0) + ((ss.filter fun q => q.1 = c).map g).sum := by
      intro c
      by_cases h : s.1 = c
      · rw [List.filter_cons_of_pos (by simpa using h), List.map_cons, List.sum_cons, if_pos h.symm]
      · rw [List.filter_cons_of_neg (by simpa using h), if_neg (Ne.symm h), zero_add]
    simp only [this, Finset.sum_add_distrib]
    rw [Finset.sum_ite_eq', if_pos (Finset.mem_range.2 hs)]

theorem total (hM : Sound M) {twin : Nat → Nat} (hJ : Joined M twin) {dt : K} {v : List K} (hv : Within M v) {w : Nat → K} (hw : Flows M dt v w) (d : Nat → K) :
    ∑ c ∈ Finset.range M.grid.nc, imbalance M dt (d c) v w c = ∑ c ∈ Finset.range M.grid.nc, M.porevol c * d c + (M.src.map (leaves M dt v)).sum := by
  unfold imbalance
  rw [Finset.sum_add_distrib, Finset.sum_add_distrib, flows_cancel hM hJ hv hw, src_sum hM, add_zero]

/-- **C150** In a conforming grid the two sides of every connection agree. -/
theorem joined_of_conforming (h : Conforming M.grid) : Joined M id :=
  ⟨fun _ _ _ _ => rfl, fun _ _ _ hi => Or.inl ⟨hi, rfl⟩, fun _ _ _ _ => rfl, fun f a b hi _ => h.both f a b hi, fun _ _ _ _ hne => absurd rfl hne⟩

end parts

section main
variable {M : Medium K} {lin : (Nat → Nat → K) → List K → List K → List K} {big dt : K} {c : Newton.Ctrl K} {s : List K}

theorem resNorm_eq (x : List K) : (NewtonVec.Spec.problem (setup M lin dt s)).resNorm x = NewtonVec.maxNorm (NewtonVec.Spec.resVec (setup M lin dt s) x) := rfl

theorem norm_lt {x : List K} {t : K} (h : (NewtonVec.Spec.problem (setup M lin dt s)).resNorm x < t) {k : Nat} (hk : k < M.grid.nc) :
    |NewtonVec.Spec.res (setup M lin dt s) x k| < t :=
  NewtonVec.maxNorm_lt _ t h _ (List.mem_map.mpr ⟨k, List.mem_range.mpr hk, rfl⟩)

/-- **C150** A step always comes to an end and returns saturations within the limits. If it reports that the absolute (flag 1) or the relative tolerance (flag 2) is met, then the saturations it
returns balance the water of every cell, with the flows and the production that belong to these very saturations, up to the tolerance and to what is cut off at the limits; and the water in the
reservoir has changed by what came in and went out up to the sum of these errors. -/
theorem C150_balance (hM : Sound M) (hs : Within M s) (hlin : ∀ A b g, (lin A b g).length = g.length) (hm : 1 ≤ c.maxIt) (hr : c.rtol ≤ 1)
    (h0 : 0 ≤ big) (hbig : ∀ w, Flows M dt s w → ∀ k, k < M.grid.nc → |imbalance M dt 0 s w k| ≤ big) (mem : NewtonVec.Mem K) :
    ∃ v flag, step M lin big c mem dt s = some (v, flag) ∧ Within M v ∧ ∀ ε, (flag = 1 ∧ ε = c.atol) ∨
        (flag = 2 ∧ ∀ w, Flows M dt s w → ∀ k, k < M.grid.nc → c.rtol * |imbalance M dt 0 s w k| ≤ ε) →
      (∃ w, Flows M dt v w ∧ ∀ k, k < M.grid.nc → |imbalance M dt (v.getD k 0 - s.getD k 0) v w k| ≤ ε + M.porevol k * M.tol) ∧
      ∀ twin, Joined M twin → |water M v - water M s + (M.src.map (leaves M dt v)).sum| ≤ M.grid.nc * ε + pores M * M.tol := by
  have hfit := setup_fits (M := M) lin hlin dt hs.length
  obtain ⟨r, hsol, -, hflag, hnr, -, hx⟩ := NewtonVec.C110_refines (setup M lin dt s) hfit big c hm mem
  refine ⟨newSat M s r.x, r.flag, by unfold step; rw [hsol]; rfl, newSat_within hM s r.x, fun ε hε => ?_⟩
  obtain ⟨w0, hw0, hres0⟩ := setup_res hM lin dt s (setup M lin dt s).init
  rw [newSat_zero hs (init_get lin dt s)] at hw0 hres0
  have hres0' : ∀ k, k < M.grid.nc → NewtonVec.Spec.res (setup M lin dt s) (setup M lin dt s).init k = imbalance M dt 0 s w0 k := fun k hk => by
    rw [hres0 k hk, init_get]
  set P := NewtonVec.Spec.problem (setup M lin dt s) with hP
  have hn0 := NewtonVec.C110_norms (NewtonVec.Spec.resVec (setup M lin dt s) (setup M lin dt s).init) id
  have hnorm0 : P.resNorm (setup M lin dt s).init = 0 ∨
      ∃ k, k < M.grid.nc ∧ P.resNorm (setup M lin dt s).init = |imbalance M dt 0 s w0 k| := by
    by_cases he : NewtonVec.Spec.resVec (setup M lin dt s) (setup M lin dt s).init = []
    · exact Or.inl (hn0.2.2.1 he)
    · obtain ⟨a, ha, e⟩ := hn0.2.2.2.1 he
      obtain ⟨k, hk, rfl⟩ := List.mem_map.1 ha
      have hk := List.mem_range.1 hk
      exact Or.inr ⟨k, hk, by rw [← hres0' k hk]; exact e⟩
  have hbig' : P.resNorm (setup M lin dt s).init ≤ big := by
    rcases hnorm0 with e | ⟨k, hk, e⟩
    · rw [e]; exact h0
    · rw [e]; exact hbig w0 hw0 k hk
  have hnn : 0 ≤ P.resNorm (setup M lin dt s).init := hn0.2.1
  have hf12 : (Newton.solve P big c (setup M lin dt s).init).flag = 1 ∨ (Newton.solve P big c (setup M lin dt s).init).flag = 2 := by
    rw [← hflag]; rcases hε with h | h
    · exact Or.inl h.1
    · exact Or.inr h.1
  obtain ⟨t1, t2, t3⟩ := Newton.C18_truthful P big c _ hm hbig' (mul_le_of_le_one_left hnn hr) hf12
  obtain ⟨f1, f2, -, -⟩ := Newton.C18_flag P big c (setup M lin dt s).init hm hbig'
  rw [← hx] at t1 t2
  have hlt : P.resNorm r.x ≤ ε ∧ ∀ k, k < M.grid.nc → |NewtonVec.Spec.res (setup M lin dt s) r.x k| ≤ ε := by
    have fin : ∀ t, P.resNorm r.x < t → t ≤ ε → P.resNorm r.x ≤ ε ∧ ∀ k, k < M.grid.nc → |NewtonVec.Spec.res (setup M lin dt s) r.x k| ≤ ε :=
      fun t h1 h2 => ⟨h1.le.trans h2, fun k hk => (norm_lt h1 hk).le.trans h2⟩
    rcases hε with ⟨e1, e2⟩ | ⟨e1, e2⟩
    · have := f1.1 (by rw [← hflag]; exact e1)
      rw [t1] at this
      exact fin _ this e2.ge
    · have := (f2.1 (by rw [← hflag]; exact e1)).2
      rw [t1] at this
      rcases hnorm0 with e | ⟨k, hk, e⟩
      · rw [e, mul_zero] at this
        exact absurd this (not_lt.2 (NewtonVec.C110_norms (NewtonVec.Spec.resVec (setup M lin dt s) r.x) id).2.1)
      · rw [e] at this
        exact fin _ this (e2 w0 hw0 k hk)
  have hclose : ∀ k, k < M.grid.nc → |(newSat M s r.x).getD k 0 - s.getD k 0 - r.x.getD k 0| ≤ M.tol := by
    intro k hk
    rcases t2 with h | h
    · exact newSat_close hM h hk
    · have hz : ∀ k, r.x.getD k 0 = 0 := fun k => by rw [h]; exact init_get lin dt s k
      rw [newSat_zero hs hz, hz, sub_self, sub_zero, abs_zero]
      exact hM.tol
  obtain ⟨w, hw, hres⟩ := setup_res hM lin dt s r.x
  refine ⟨⟨w, hw, fun k hk => ?_⟩, fun twin hJ => ?_⟩
  · have e : imbalance M dt ((newSat M s r.x).getD k 0 - s.getD k 0) (newSat M s r.x) w k =
        imbalance M dt (r.x.getD k 0) (newSat M s r.x) w k + M.porevol k * ((newSat M s r.x).getD k 0 - s.getD k 0 - r.x.getD k 0) := by
      unfold imbalance; ring
    rw [e, ← hres k hk]
    refine (abs_add_le _ _).trans (add_le_add (hlt.2 k hk) ?_)
    rw [abs_mul, abs_of_nonneg (hM.porevol k)]
    exact mul_le_mul_of_nonneg_left (hclose k hk) (hM.porevol k)
  · have e : water M (newSat M s r.x) - water M s + (M.src.map (leaves M dt (newSat M s r.x))).sum =
        ∑ k ∈ Finset.range M.grid.nc, (NewtonVec.Spec.res (setup M lin dt s) r.x k + M.porevol k * ((newSat M s r.x).getD k 0 - s.getD k 0 - r.x.getD k 0)) := by
      rw [Finset.sum_add_distrib, Finset.sum_congr rfl fun k hk => hres k (Finset.mem_range.1 hk), total hM hJ (newSat_within hM s r.x) hw fun k => r.x.getD k 0]
      simp only [mul_sub, Finset.sum_sub_distrib]
      unfold water
      ring
    rw [e]
    refine (Finset.abs_sum_le_sum_abs _ _).trans ?_
    refine (Finset.sum_le_sum (g := fun k => ε + M.porevol k * M.tol) fun k hk => ?_).trans ?_
    · have hk := Finset.mem_range.1 hk
      refine (abs_add_le _ _).trans (add_le_add (hlt.2 k hk) ?_)
      rw [abs_mul, abs_of_nonneg (hM.porevol k)]
      exact mul_le_mul_of_nonneg_left (hclose k hk) (hM.porevol k)
    · rw [Finset.sum_add_distrib, Finset.sum_const, Finset.card_range, nsmul_eq_mul, ← Finset.sum_mul]
      exact le_rfl

/-- **C150** A state in which nothing has to change is returned unchanged, with the absolute tolerance met. -/
theorem C150_stationary (hM : Sound M) (hs : Within M s) (hlin : ∀ A b g, (lin A b g).length = g.length) (hm : 1 ≤ c.maxIt) (ha : 0 < c.atol)
    {F : K} (hu : Uniform M s F) (mem : NewtonVec.Mem K) : step M lin big c mem dt s = some (s, 1) := by
  have hfit := setup_fits (M := M) lin hlin dt hs.length
  obtain ⟨r, hsol, -, hflag, -, -, hx⟩ := NewtonVec.C110_refines (setup M lin dt s) hfit big c hm mem
  obtain ⟨w0, hw0, hres0⟩ := setup_res hM lin dt s (setup M lin dt s).init
  rw [newSat_zero hs (init_get lin dt s)] at hw0 hres0
  have hz : ∀ k, k < M.grid.nc → NewtonVec.Spec.res (setup M lin dt s) (setup M lin dt s).init k = 0 := by
    intro k hk
    rw [hres0 k hk, init_get]
    have hwf : ∀ f a b, Interior M.grid f a b → w0 f = dt * F * M.faceflux f := by
      intro f a b hf
      obtain ⟨cw, co, h1, h2, h3⟩ := hw0 f a b hf
      obtain ⟨-, ha, hb, hab⟩ := id hf
      simp only [hu.pc f a b hf, sub_self, mul_zero, add_zero, sub_zero, waterVolume] at h3
      obtain ⟨-, e, i1, i2, i3, i4⟩ := h3
      by_cases hcc : cw = co
      · subst hcc
        have hF := hu.fraction cw (by rcases h1 with rfl | rfl <;> assumption)
        unfold fraction at hF
        rw [e, hF]
      · have hq : M.faceflux f = 0 := by
          rcases h1 with rfl | rfl <;> rcases h2 with rfl | rfl
          · exact absurd rfl hcc
          · exact le_antisymm (i4 rfl) (i1 rfl)
          · exact le_antisymm (i2 rfl) (i3 rfl)
          · exact absurd rfl hcc
        rw [e, hq, mul_zero, mul_zero]
    have h1 : outflow M w0 k = dt * F * outflow M M.faceflux k := by
      unfold outflow
      rw [← List.sum_map_mul_left]
      congr 1
      apply List.map_congr_left
      intro f hf
      obtain ⟨hf1, hf2⟩ := List.mem_filter.1 hf
      obtain ⟨a, b, hi, -⟩ := interior_of hM hk hf1 (by simpa [Grid.internal] using hf2)
      rw [hwf f a b hi]
      split <;> ring
    have h2 : ((M.src.filter fun q => q.1 = k).map (leaves M dt s)).sum = -(dt * F) * ((M.src.filter fun q => q.1 = k).map fun q => q.2.1).sum := by
      rw [← List.sum_map_mul_left]
      congr 1
      apply List.map_congr_left
      intro q hq
      have hq' := (List.mem_filter.1 hq).1
      unfold leaves
      by_cases h : 0 < q.2.1
      · rw [if_pos h, hu.injected q hq' h]; ring
      · rw [if_neg h, hu.fraction q.1 (hM.src q hq')]; ring
    unfold imbalance
    rw [h1, h2, hu.balance k hk]
    ring
  have hn : (NewtonVec.Spec.problem (setup M lin dt s)).resNorm (setup M lin dt s).init = 0 := by
    have hn0 := NewtonVec.C110_norms (NewtonVec.Spec.resVec (setup M lin dt s) (setup M lin dt s).init) id
    by_cases he : NewtonVec.Spec.resVec (setup M lin dt s) (setup M lin dt s).init = []
    · exact hn0.2.2.1 he
    · obtain ⟨a, ha, e⟩ := hn0.2.2.2.1 he
      obtain ⟨k, hk, rfl⟩ := List.mem_map.1 ha
      have hk := List.mem_range.1 hk
      rw [hz k hk, abs_zero] at e
      exact e
  obtain ⟨g1, -, g3, -⟩ := Newton.C18_converged_start (NewtonVec.Spec.problem (setup M lin dt s)) big c (setup M lin dt s).init (by rw [hn]; exact ha)
  have hx0 : ∀ k, r.x.getD k 0 = 0 := fun k => by rw [hx, g1]; exact init_get lin dt s k
  unfold step
  rw [hsol, Option.map_some, newSat_zero hs hx0, hflag, g3]

theorem step_some (hM : Sound M) (hs : s.length = M.grid.nc) (hlin : ∀ A b g, (lin A b g).length = g.length) (hm : 1 ≤ c.maxIt) (mem : NewtonVec.Mem K) :
    ∃ v flag, step M lin big c mem dt s = some (v, flag) ∧ Within M v ∧ (0 ≤ flag → c.rtol ≤ 0 → c.dxtol ≤ 0 → flag = 1) := by
  obtain ⟨r, hsol, -, hflag, -, -, -⟩ := NewtonVec.C110_refines (setup M lin dt s) (setup_fits (M := M) lin hlin dt hs) big c hm mem
  refine ⟨newSat M s r.x, r.flag, by unfold step; rw [hsol]; rfl, newSat_within hM s r.x, fun h1 h2 h3 => ?_⟩
  have nn : ∀ v : List K, 0 ≤ NewtonVec.maxNorm v := fun v => (NewtonVec.C110_norms v id).2.1
  have key : ∀ (fuel nit : Nat) (nr : K) (x y : List K) (ps : List Nat), 0 ≤ (Newton.loop (NewtonVec.Spec.problem (setup M lin dt s)) big c
      ((NewtonVec.Spec.problem (setup M lin dt s)).resNorm (setup M lin dt s).init) fuel nit nr x y ps).flag →
      (Newton.loop (NewtonVec.Spec.problem (setup M lin dt s)) big c
        ((NewtonVec.Spec.problem (setup M lin dt s)).resNorm (setup M lin dt s).init) fuel nit nr x y ps).flag = 1 := by
    have hfl : ∀ nr y, 0 ≤ Newton.flagOf c ((NewtonVec.Spec.problem (setup M lin dt s)).resNorm (setup M lin dt s).init)
        ((NewtonVec.Spec.problem (setup M lin dt s)).resNorm nr) ((NewtonVec.Spec.problem (setup M lin dt s)).dxNorm y) →
        Newton.flagOf c ((NewtonVec.Spec.problem (setup M lin dt s)).resNorm (setup M lin dt s).init)
        ((NewtonVec.Spec.problem (setup M lin dt s)).resNorm nr) ((NewtonVec.Spec.problem (setup M lin dt s)).dxNorm y) = 1 := by
      intro nr y h
      unfold Newton.flagOf at h ⊢
      split
      · rfl
      · rename_i g1
        rw [if_neg g1] at h
        rw [if_neg, if_neg] at h
        · exact absurd h (by decide)
        · exact not_lt.2 (h3.trans (nn _))
        · exact not_lt.2 ((mul_nonpos_of_nonpos_of_nonneg h2 (nn _)).trans (nn _))
    intro fuel
    induction fuel with
    | zero =>
      intro nit nr x y ps h
      unfold Newton.loop at h ⊢
      simp only [ite_self] at h ⊢
      exact hfl _ _ h
    | succ fuel ih =>
      intro nit nr x y ps h
      unfold Newton.loop at h ⊢
      simp only at h ⊢
      split
      · rename_i g
        rw [if_pos g] at h
        exact hfl _ _ h
      · rename_i g
        rw [if_neg g] at h
        exact ih _ _ _ _ _ h
  rw [hflag] at h1 ⊢
  exact key _ _ _ _ _ _ h1

/-- **C150** Whatever happens, the transport solver returns one saturation per cell within the limits of the cell, even from saturations outside them. -/
theorem C150_within (hM : Sound M) (hs : s.length = M.grid.nc) (hlin : ∀ A b g, (lin A b g).length = g.length) (hm : 1 ≤ c.maxIt) (mem : NewtonVec.Mem K) (maxRepeats : Nat) (time : K) :
    Within M (transport M lin big c mem maxRepeats time s).sat := by
  have one : ∀ dt u, u.length = M.grid.nc → Within M (stepOk M lin big c mem dt u).1 := by
    intro dt u hu
    obtain ⟨v, flag, e, hv, -⟩ := step_some (big := big) (dt := dt) hM hu hlin hm mem
    unfold stepOk
    rw [e]
    exact hv
  have many : ∀ dt n u, u.length = M.grid.nc → Within M (ImplicitDriver.attempt (stepOk M lin big c mem) dt (n + 1) u).1 := by
    intro dt n
    induction n with
    | zero =>
      intro u hu
      have := one dt u hu
      unfold ImplicitDriver.attempt
      split
      · rename_i s' e; rw [e] at this; exact this
      · rename_i s' e; rw [e] at this; exact this
    | succ n ih =>
      intro u hu
      unfold ImplicitDriver.attempt
      have := one dt u hu
      split
      · rename_i s' e; rw [e] at this; exact ih _ this.length
      · rename_i s' e; rw [e] at this; exact this
  have all : ∀ fuel r n dt, 1 ≤ n → Within M (ImplicitDriver.drive (stepOk M lin big c mem) time s fuel r n dt).sat := by
    intro fuel
    induction fuel with
    | zero =>
      intro r n dt hn
      unfold ImplicitDriver.drive
      have := many dt (n - 1) s hs
      rw [Nat.sub_add_cancel hn] at this
      split
      · rename_i s' e; rw [e] at this; exact this
      · rename_i s' e; rw [e] at this; exact this
    | succ fuel ih =>
      intro r n dt hn
      unfold ImplicitDriver.drive
      have := many dt (n - 1) s hs
      rw [Nat.sub_add_cancel hn] at this
      split
      · rename_i s' e; rw [e] at this; exact this
      · exact ih _ _ _ (by omega)
  exact all _ _ _ _ le_rfl

/-- **C150** Without sources, in a grid in which the two sides of every connection agree (see `C150_periodic` for periodic boundaries), and with convergence judged by the absolute tolerance only, a successful transport solve keeps the water in the reservoir,
up to the tolerances of each substep. -/
theorem C150_closed (hM : Sound M) (hs : Within M s) {twin : Nat → Nat} (hJ : Joined M twin) (hlin : ∀ A b g, (lin A b g).length = g.length) (hm : 1 ≤ c.maxIt) (hsrc : M.src = [])
    (hr : c.rtol ≤ 0) (hd : c.dxtol ≤ 0) (h0 : 0 ≤ big) (time : K)
    (hbig : ∀ (j : Nat) v w, Within M v → Flows M (time / 2 ^ j) v w → ∀ k, k < M.grid.nc → |imbalance M (time / 2 ^ j) 0 v w k| ≤ big) (mem : NewtonVec.Mem K) (maxRepeats : Nat)
    (hok : (transport M lin big c mem maxRepeats time s).ok = true) :
    |water M (transport M lin big c mem maxRepeats time s).sat - water M s| ≤
      (transport M lin big c mem maxRepeats time s).steps * (M.grid.nc * c.atol + pores M * M.tol) := by
  obtain ⟨-, -, h3, -, h5, -⟩ := ImplicitDriver.C55_retries (stepOk M lin big c mem) maxRepeats time s
  have h := h5 hok
  change ImplicitDriver.Spec.AllConverge (stepOk M lin big c mem) (time / ((transport M lin big c mem maxRepeats time s).steps : Nat))
    (transport M lin big c mem maxRepeats time s).steps s (transport M lin big c mem maxRepeats time s).sat at h
  change (transport M lin big c mem maxRepeats time s).steps = _ at h3
  obtain ⟨j, hj⟩ : ∃ j : Nat, (transport M lin big c mem maxRepeats time s).steps = 2 ^ j := ⟨_, h3⟩
  rw [hj, show time / ((2 ^ j : Nat) : K) = time / 2 ^ j by push_cast; rfl] at h
  rw [hj]
  generalize (transport M lin big c mem maxRepeats time s).sat = u at h
  generalize (2 ^ j : Nat) = n at h ⊢
  clear hok h3 h5 hj
  induction h with
  | nil => simp
  | @cons n s s1 s2 e _ ih =>
    obtain ⟨v, flag, hstep, hv, hbal⟩ := C150_balance (lin := lin) (dt := time / 2 ^ j) hM hs hlin hm (hr.trans zero_le_one) h0 (fun w hw => hbig j s w hs hw) mem
    obtain ⟨v', flag', hstep', -, hfl⟩ := step_some (lin := lin) (big := big) (dt := time / 2 ^ j) hM hs.length hlin hm mem
    have he : (v', flag') = (v, flag) := Option.some.inj (hstep'.symm.trans hstep)
    obtain ⟨rfl, rfl⟩ := Prod.mk.inj he
    unfold stepOk at e
    rw [hstep] at e
    obtain ⟨rfl, h2⟩ := Prod.mk.inj e
    have hf : 0 ≤ flag' := by simpa using h2
    have hb := (hbal c.atol (Or.inl ⟨hfl hf hr hd, rfl⟩)).2 twin hJ
    rw [hsrc, List.map_nil, List.sum_nil, add_zero] at hb
    have := ih hv
    push_cast
    calc |water M s2 - water M s| = |(water M s2 - water M v') + (water M v' - water M s)| := by congr 1; ring
      _ ≤ _ := abs_add_le _ _
      _ ≤ _ := add_le_add this hb
      _ = _ := by ring

/-- **C150** The transport solver leaves such a state alone and reports success. -/
theorem C150_transport_stationary (hM : Sound M) (hs : Within M s) (hlin : ∀ A b g, (lin A b g).length = g.length) (hm : 1 ≤ c.maxIt) (ha : 0 < c.atol)
    {F : K} (hu : Uniform M s F) (mem : NewtonVec.Mem K) (maxRepeats : Nat) (time : K) :
    (transport M lin big c mem maxRepeats time s).sat = s ∧ (transport M lin big c mem maxRepeats time s).ok = true ∧
    (transport M lin big c mem maxRepeats time s).attempts = 1 := by
  have h := C150_stationary (lin := lin) (big := big) (dt := time) hM hs hlin hm ha hu mem
  have e : stepOk M lin big c mem time s = (s, true) := by unfold stepOk; rw [h]; rfl
  unfold transport ImplicitDriver.transportSolve ImplicitDriver.drive
  simp only [ImplicitDriver.attempt, e, zero_add, and_self]

end main

/-! ### examples -/

/-- Three cells in a row with flow to the right; water fraction 1/4 is injected on the left, production on the right; mobilities `s` and `1 - s`. -/
def exMedium : Medium ℚ where
  grid := exGrid
  mob _ s := (s, 1 - s)
  dmob _ _ := (1, 1)
  pc _ _ := 0
  dpc _ _ := 0
  smin _ := 0
  smax _ := 1
  porevol _ := 1
  trans _ := 1
  faceflux _ := 1
  src := [(0, 1, 1 / 4), (2, -1, 0)]
  tol := 1 / 10 ^ 5

/-- Forward substitution, exact for lower triangular matrices. -/
def exLower (A : Nat → Nat → ℚ) (b g : List ℚ) : List ℚ :=
  (List.range g.length).foldl (fun x i => x ++ [(b.getD i 0 - ((List.range i).map fun j => A i j * x.getD j 0).sum) / A i i]) []

theorem exLower_length (A : Nat → Nat → ℚ) (b g : List ℚ) : (exLower A b g).length = g.length := by
  unfold exLower
  have gen : ∀ n, ((List.range n).foldl (fun x i => x ++ [(b.getD i 0 - ((List.range i).map fun j => A i j * x.getD j 0).sum) / A i i]) []).length = n := by
    intro n
    induction n with
    | zero => rfl
    | succ n ih => rw [List.range_succ, List.foldl_append, List.foldl_cons, List.foldl_nil, List.length_append, ih]; rfl
  exact gen _

def exCtrl : Newton.Ctrl ℚ := ⟨10, 1 / 10 ^ 6, 0, 0, 20⟩

def exMem : NewtonVec.Mem ℚ := ⟨fun _ _ => 7, [1, 2], [], [5], [9]⟩

theorem exMedium_sound : Sound exMedium where
  grid := exGrid_conf.toWellFormed
  distinct := exGrid_conf.distinct
  limits _ := (by decide : (0 : ℚ) ≤ 1)
  mob c s h1 h2 := by
    have h1 : (0 : ℚ) ≤ s := h1
    have h2 : s ≤ 1 := h2
    refine ⟨h1, ?_, ?_⟩
    · change 0 ≤ 1 - s; linarith
    · change 0 < s + (1 - s); linarith
  porevol _ := (by decide : (0 : ℚ) ≤ 1)
  src q hq := by
    change q.1 < 3
    simp only [exMedium, List.mem_cons, List.not_mem_nil, or_false] at hq
    rcases hq with rfl | rfl <;> decide
  tol := by decide +kernel
  still f a b _ h := absurd h (by decide : (1 : ℚ) ≠ 0)

theorem exFlow {M : Medium ℚ} (hq : ∀ f, M.faceflux f = 1) (hpc : ∀ c s, M.pc c s = 0) (hmob : ∀ c s, M.mob c s = (s, 1 - s)) {dt : ℚ} {v : List ℚ} {w : Nat → ℚ}
    (hw : Flows M dt v w) {f a b : Nat} (hf : Interior M.grid f a b) : w f = dt * v.getD a 0 := by
  obtain ⟨cw, co, h1, h2, h3⟩ := hw f a b hf
  simp only [hpc, hmob, hq, sub_self, mul_zero, add_zero, sub_zero, waterVolume, mul_one] at h3
  obtain ⟨-, e, -, i2, -, i4⟩ := h3
  rcases h1 with rfl | rfl
  · rcases h2 with rfl | rfl
    · rw [e, add_sub_cancel, div_one]
    · exact absurd (i4 rfl) (by decide)
  · exact absurd (i2 rfl) (by decide)

/-- The hypotheses of `C150_balance` hold of a step from no water, and its flag is 1. -/
example : Sound exMedium ∧ Within exMedium [0, 0, 0] ∧ (∀ A b g, (exLower A b g).length = g.length) ∧ 1 ≤ exCtrl.maxIt ∧ exCtrl.rtol ≤ 1 ∧
    (∀ w, Flows exMedium 1 [0, 0, 0] w → ∀ k, k < 3 → |imbalance exMedium 1 0 [0, 0, 0] w k| ≤ 10 ^ 99) ∧
    step exMedium exLower (10 ^ 99) exCtrl exMem 1 [0, 0, 0] = some ([1 / 8, 1 / 16, 1 / 32], 1) :=
  ⟨exMedium_sound, ⟨rfl, fun c hc => by have : c = 0 ∨ c = 1 ∨ c = 2 := by { have : c < 3 := hc; omega }
                                        rcases this with rfl | rfl | rfl <;> decide⟩, exLower_length, by decide, by decide, fun w hw k hk => by
    have e1 : w 1 = 0 := by
      rw [exFlow (fun _ => rfl) (fun _ _ => rfl) (fun _ _ => rfl) hw (f := 1) (a := 0) (b := 1) ⟨rfl, by decide, by decide, by decide⟩]; decide +kernel
    have e2 : w 2 = 0 := by
      rw [exFlow (fun _ => rfl) (fun _ _ => rfl) (fun _ _ => rfl) hw (f := 2) (a := 1) (b := 2) ⟨rfl, by decide, by decide, by decide⟩]; decide +kernel
    have : k = 0 ∨ k = 1 ∨ k = 2 := by omega
    rcases this with rfl | rfl | rfl
    · have e : imbalance exMedium 1 0 [0, 0, 0] w 0 = 1 * 0 + (w 1 + 0) + (-(1 * 1 * (1 / 4)) + 0) := rfl
      rw [e, e1]; decide +kernel
    · have e : imbalance exMedium 1 0 [0, 0, 0] w 1 = 1 * 0 + (-w 1 + (w 2 + 0)) + 0 := rfl
      rw [e, e1, e2]; decide +kernel
    · have e : imbalance exMedium 1 0 [0, 0, 0] w 2 = 1 * 0 + (-w 2 + 0) + (leaves exMedium 1 [0, 0, 0] (2, -1, 0) + 0) := rfl
      rw [e, e2]; decide +kernel, by decide +kernel⟩

/-- With water fraction 1/4 everywhere nothing changes. -/
example : Within exMedium [1 / 4, 1 / 4, 1 / 4] ∧ Uniform exMedium [1 / 4, 1 / 4, 1 / 4] (1 / 4) := by
  refine ⟨⟨rfl, fun c hc => ?_⟩, ⟨fun c hc => ?_, fun q hq h => ?_, fun f a b _ => rfl, fun c hc => ?_⟩⟩
  · have : c = 0 ∨ c = 1 ∨ c = 2 := by have : c < 3 := hc; omega
    rcases this with rfl | rfl | rfl <;> decide +kernel
  · have : c = 0 ∨ c = 1 ∨ c = 2 := by have : c < 3 := hc; omega
    rcases this with rfl | rfl | rfl <;> decide +kernel
  · simp only [exMedium, List.mem_cons, List.not_mem_nil, or_false] at hq
    rcases hq with rfl | rfl
    · rfl
    · exact absurd h (by decide)
  · have : c = 0 ∨ c = 1 ∨ c = 2 := by have : c < 3 := hc; omega
    rcases this with rfl | rfl | rfl <;> decide +kernel

/-- Three cells in a ring with a flow around it, without sources. -/
def exRing : Medium ℚ where
  grid := ⟨3, 3, fun c => match c with | 0 => [2, 0] | 1 => [0, 1] | 2 => [1, 2] | _ => [],
    fun f => match f with | 0 => (0, 1) | 1 => (1, 2) | 2 => (2, 0) | _ => (-1, -1)⟩
  mob _ s := (s, 1 - s)
  dmob _ _ := (1, 1)
  pc _ _ := 0
  dpc _ _ := 0
  smin _ := 0
  smax _ := 1
  porevol _ := 1
  trans _ := 1
  faceflux _ := 1
  src := []
  tol := 1 / 10 ^ 5

theorem exRing_faces {f a b : Nat} (h : Interior exRing.grid f a b) : (f = 0 ∧ a = 0 ∧ b = 1) ∨ (f = 1 ∧ a = 1 ∧ b = 2) ∨ (f = 2 ∧ a = 2 ∧ b = 0) := by
  have h1 := congrArg Prod.fst h.1
  have h2 := congrArg Prod.snd h.1
  match f with
  | 0 => simp [exRing] at h1 h2; omega
  | 1 => simp [exRing] at h1 h2; omega
  | 2 => simp [exRing] at h1 h2; omega
  | n + 3 => simp [exRing] at h1

theorem exRing_conf : Conforming exRing.grid := by
  refine ⟨⟨?_, ?_⟩, ?_, ?_⟩
  · intro c f hc hf
    have : c = 0 ∨ c = 1 ∨ c = 2 := by have : c < 3 := hc; omega
    rcases this with rfl | rfl | rfl <;> · simp [exRing] at hf ⊢; rcases hf with rfl | rfl <;> simp
  · intro f
    match f with
    | 0 => decide
    | 1 => decide
    | 2 => decide
    | n + 3 => exact (by decide : ((-1 : Int) < 3) ∧ ((-1 : Int) < 3))
  · intro f
    match f with
    | 0 => decide
    | 1 => decide
    | 2 => decide
    | n + 3 => intro h; exact absurd h (by decide : ¬ (0 : Int) ≤ -1)
  · intro f a b hI c hc
    have hc3 : c = 0 ∨ c = 1 ∨ c = 2 := by have : c < 3 := hc; omega
    rcases exRing_faces hI with ⟨rfl, rfl, rfl⟩ | ⟨rfl, rfl, rfl⟩ | ⟨rfl, rfl, rfl⟩ <;> rcases hc3 with rfl | rfl | rfl <;> decide

theorem exRing_sound : Sound exRing where
  grid := exRing_conf.toWellFormed
  distinct := exRing_conf.distinct
  limits _ := (by decide : (0 : ℚ) ≤ 1)
  mob c s h1 h2 := by
    have h1 : (0 : ℚ) ≤ s := h1
    have h2 : s ≤ 1 := h2
    refine ⟨h1, ?_, ?_⟩
    · change 0 ≤ 1 - s; linarith
    · change 0 < s + (1 - s); linarith
  porevol _ := (by decide : (0 : ℚ) ≤ 1)
  src q hq := by simp [exRing] at hq
  tol := by decide +kernel
  still f a b _ h := absurd h (by decide : (1 : ℚ) ≠ 0)

/-- Cramer's rule for three cells. -/
def exCramer (A : Nat → Nat → ℚ) (b g : List ℚ) : List ℚ :=
  let d (u v w : Nat → ℚ) : ℚ := u 0 * (v 1 * w 2 - w 1 * v 2) - v 0 * (u 1 * w 2 - w 1 * u 2) + w 0 * (u 1 * v 2 - v 1 * u 2)
  let col (j : Nat) : Nat → ℚ := fun i => A i j
  let r : Nat → ℚ := fun i => b.getD i 0
  let D := d (col 0) (col 1) (col 2)
  g.zipIdx.map fun p => if p.2 = 0 then d r (col 1) (col 2) / D else if p.2 = 1 then d (col 0) r (col 2) / D else d (col 0) (col 1) r / D

theorem exRing_big (j : Nat) (v : List ℚ) (w : Nat → ℚ) (hv : Within exRing v) (hw : Flows exRing (1 / 2 ^ j) v w) (k : Nat) (hk : k < 3) :
    |imbalance exRing (1 / 2 ^ j) 0 v w k| ≤ 10 ^ 99 := by
  have hfl := fun {f a b : Nat} (h : Interior exRing.grid f a b) => exFlow (M := exRing) (fun _ => rfl) (fun _ _ => rfl) (fun _ _ => rfl) hw h
  have e0 := hfl (f := 0) (a := 0) (b := 1) ⟨rfl, by decide, by decide, by decide⟩
  have e1 := hfl (f := 1) (a := 1) (b := 2) ⟨rfl, by decide, by decide, by decide⟩
  have e2 := hfl (f := 2) (a := 2) (b := 0) ⟨rfl, by decide, by decide, by decide⟩
  have hd0 : (0 : ℚ) < 1 / 2 ^ j := by positivity
  have hd1 : (1 : ℚ) / 2 ^ j ≤ 1 := by
    rw [div_le_one (by positivity)]; exact one_le_pow₀ (by norm_num)
  have b : ∀ c, c < 3 → 0 ≤ 1 / 2 ^ j * v.getD c 0 ∧ 1 / 2 ^ j * v.getD c 0 ≤ 1 := by
    intro c hc
    obtain ⟨l, u⟩ := hv.limits c hc
    have l : 0 ≤ v.getD c 0 := l
    have u : v.getD c 0 ≤ 1 := u
    exact ⟨mul_nonneg hd0.le l, mul_le_one₀ hd1 l u⟩
  have b0 := b 0 (by omega)
  have b1 := b 1 (by omega)
  have b2 := b 2 (by omega)
  have big : (2 : ℚ) ≤ 10 ^ 99 := by norm_num
  have : k = 0 ∨ k = 1 ∨ k = 2 := by omega
  rcases this with rfl | rfl | rfl
  · have e : imbalance exRing (1 / 2 ^ j) 0 v w 0 = 1 * 0 + (-w 2 + (w 0 + 0)) + 0 := rfl
    rw [e, e0, e2, abs_le]; constructor <;> linarith
  · have e : imbalance exRing (1 / 2 ^ j) 0 v w 1 = 1 * 0 + (-w 0 + (w 1 + 0)) + 0 := rfl
    rw [e, e0, e1, abs_le]; constructor <;> linarith
  · have e : imbalance exRing (1 / 2 ^ j) 0 v w 2 = 1 * 0 + (-w 1 + (w 2 + 0)) + 0 := rfl
    rw [e, e1, e2, abs_le]; constructor <;> linarith

/-- The hypotheses of `C150_closed` hold of it for a day of flow; the water moves on. -/
example : Sound exRing ∧ Joined exRing id ∧ Within exRing [1, 0, 0] ∧ (∀ A b g, (exCramer A b g).length = g.length) ∧ exRing.src = [] ∧ exCtrl.rtol ≤ 0 ∧ exCtrl.dxtol ≤ 0 ∧
    (∀ (j : Nat) v w, Within exRing v → Flows exRing (1 / 2 ^ j) v w → ∀ k, k < 3 → |imbalance exRing (1 / 2 ^ j) 0 v w k| ≤ 10 ^ 99) ∧
    (transport exRing exCramer (10 ^ 99) exCtrl exMem 10 1 [1, 0, 0]).ok = true ∧
    (transport exRing exCramer (10 ^ 99) exCtrl exMem 10 1 [1, 0, 0]).sat = [4 / 7, 2 / 7, 1 / 7] := by
  refine ⟨exRing_sound, joined_of_conforming exRing_conf, ⟨rfl, fun c hc => ?_⟩, fun A b g => by simp [exCramer], rfl, by decide, by decide, exRing_big, by decide +kernel, by decide +kernel⟩
  · have : c = 0 ∨ c = 1 ∨ c = 2 := by have : c < 3 := hc; omega
    rcases this with rfl | rfl | rfl <;> decide

/-- Two cells between which nothing flows in total, the first full of water and the second full of oil, with a higher capillary pressure in the first. All other requirements on the
medium hold, and both phases are mobile somewhere, but assembly will divide zero by zero. -/
def exStill (swap : Bool) : Medium ℚ where
  grid := ⟨2, 1, fun c => if c < 2 then [0] else [], fun f => if f = 0 then (0, 1) else (-1, -1)⟩
  mob _ s := (s, 1 - s)
  dmob _ _ := (1, 1)
  pc c s := if (c = 0) = (swap = false) then 3 - s else 1 - s
  dpc _ _ := -1
  smin _ := 0
  smax _ := 1
  porevol _ := 1
  trans _ := 1
  faceflux _ := 0
  src := []
  tol := 1 / 10 ^ 5

/-- **C150** Violated: between a first cell full of water and a second one full of oil, without total flux, a capillary force towards the first cell makes assembly divide zero by zero, although
every cell has a mobile phase. With the two cells exchanged it does not. -/
theorem C150_violated_division : (∀ c s, 0 ≤ s → s ≤ 1 → 0 ≤ ((exStill false).mob c s).1 ∧ 0 ≤ ((exStill false).mob c s).2 ∧ 0 < ((exStill false).mob c s).1 + ((exStill false).mob c s).2) ∧
    (assemble (problemAt (exStill false) 1 [1, 0] [0, 0])).isNone = true ∧ (assemble (problemAt (exStill true) 1 [0, 1] [0, 0])).isSome = true := by
  refine ⟨fun c s h1 h2 => ⟨h1, ?_, ?_⟩, by decide +kernel, by decide +kernel⟩
  · change 0 ≤ 1 - s; linarith
  · change 0 < s + (1 - s); linarith

end Verif.ImplicitStep
