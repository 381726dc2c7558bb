import Verif.Props.SimRange
import Verif.Spec.ExplicitContraction

/-!
C153: explicit transport steps within the limit keep the order of states, do not increase the distance of states and make no new extremes.
-/

namespace Verif.SimRange

open Verif.Euler Verif.Euler.Spec Verif.SimRun
open scoped BigOperators

section
variable {K : Type} [Field K] [LinearOrder K] [IsStrictOrderedRing K]

/-! ### One step -/

/-- A step in formulas: nothing is limited. -/
theorem step_eq (E : Solver K K) (big factor dt limit : K) (poro : Nat → K) (sat : Nat → K) (hE : Ready E poro)
    (hp : Physical E.setup factor) (hb : Balanced E.setup) (hr : InUnit E.setup.grid.length sat) (hfac : 0 < factor)
    (hlim : cflVelocity big factor poro E.setup.grid = .ok limit) (hdt0 : 0 ≤ dt) (hdt : dt ≤ limit) :
    (∀ i < E.setup.grid.length, 0 < E.porevol.getD i 0 ∧
      (smallTimeStep E dt sat).val i = sat i + dt * netInflow E.setup sat i / E.porevol.getD i 0) ∧
    ∑ i ∈ Finset.range E.setup.grid.length, netInflow E.setup sat i = boundaryInflow E.setup sat + sources E.setup sat := by
  -- the same solver without limiting
  let F : Solver K K := { E with checkSat := false, clampSat := false }
  have hF : Ready F poro := ⟨hE.cells, hE.iters, hE.porevol, hE.pos⟩
  obtain ⟨f1, f2⟩ := C141_step F big factor dt limit poro sat hF hp hb hr hfac hlim hdt0 hdt
  obtain ⟨k, hit⟩ := hE.iters
  have hv : Viscous E.setup := ⟨hp.ops, hp.method, hp.grav, hp.normal⟩
  have hg : GoodMob E.setup := ⟨hp.nonneg, hp.pos⟩
  obtain ⟨res, hres⟩ := computeResidual_ok E.setup hv hg sat hp.conn ⟨hr, hp.bc⟩ k hE.cells
  have hres' : computeResidual F.setup F.iters sat = .ok res := by
    change computeResidual E.setup E.iters sat = _
    rw [hit]; exact hres
  have hFs : smallTimeStep F dt sat = updateSat E.porevol dt res (List.range E.setup.grid.length) sat := by
    unfold smallTimeStep
    rw [hres']
    change (match updateSat E.porevol dt res (List.range E.setup.grid.length) sat with | ⟨s, some e⟩ => _ | ⟨s, none⟩ => _) = _
    rcases updateSat E.porevol dt res (List.range E.setup.grid.length) sat with ⟨s, _ | e⟩ <;> rfl
  rw [hFs] at f1 f2
  obtain ⟨s', hu⟩ : ∃ s', updateSat E.porevol dt res (List.range E.setup.grid.length) sat = ⟨s', none⟩ :=
    ⟨_, by rw [← f1]⟩
  rw [hu] at f2
  have hval : ∀ i < E.setup.grid.length, (smallTimeStep E dt sat).val i = s' i := by
    intro i hi
    have hstep : smallTimeStep E dt sat = ⟨s', none⟩ ∨ smallTimeStep E dt sat = checkAndClamp E.clampSat E.setup.grid.length s' := by
      unfold smallTimeStep
      rw [hit, hres]
      simp only [hu]
      by_cases h : (E.checkSat || E.clampSat) = true
      · rw [if_pos h]; exact Or.inr rfl
      · rw [if_neg h]; exact Or.inl rfl
    rcases hstep with h | h
    · rw [h]
    · rw [h]
      cases E.clampSat with
      | true => exact ((C13_clamp E.setup.grid.length s').2 i hi).2.2.1 (f2 i hi).1 (f2 i hi).2
      | false => rw [(C13_noclamp E.setup.grid.length s').1]
  have hsp := (updateSat_spec _ _ _ _ List.nodup_range _ _ hu).1
  refine ⟨fun i hi => ?_, ?_⟩
  · obtain ⟨p, hp1, _, hs⟩ := hsp i (List.mem_range.2 hi)
    have hg' : E.porevol.getD i 0 = p := by rw [List.getD, hp1]; rfl
    rw [hg', hval i hi, hs, residual_eq E.setup sat k hE.cells res hres i hi]
    exact ⟨hE.pos p (List.mem_of_getElem? hp1), rfl⟩
  · rw [← residual_total E.setup sat k hE.cells res hres]
    exact Finset.sum_congr rfl fun i hi => (residual_eq E.setup sat k hE.cells res hres i (Finset.mem_range.1 hi)).symm

/-- What is seen through a face keeps the order. -/
theorem outside_mono (S : Setup K K) (s t : Nat → K) (hc : Connected S) (h : Below S.grid.length s t) (c : Nat)
    (hcl : c < S.grid.length) (f : Face K) (hf : f ∈ facesOf S.grid c) : outsideSat S s f ≤ outsideSat S t f := by
  have h' := hc c hcl f hf
  unfold outsideSat
  cases hk : f.kind with
  | interior nb =>
    simp only [hk] at h' ⊢
    exact h nb h'.2
  | boundary bid =>
    simp only [hk] at h' ⊢
    cases hb : S.bcs.cond bid with
    | periodic =>
      simp only [hb] at h' ⊢
      obtain ⟨e, he, _, h2⟩ := h'
      simp only [he]
      exact h _ h2
    | dirichlet s => exact le_refl _

/-- More water upstream, more water flow. -/
theorem up_mono (S : Setup K K) (factor : K) (hp : Physical S factor) (hm : Rising S factor) (s t : Nat → K) (hs : InUnit S.grid.length s) (ht : InUnit S.grid.length t)
    (h : Below S.grid.length s t) (c : Nat) (hcl : c < S.grid.length) (f : Face K) (hf : f ∈ facesOf S.grid c) : upFw S s c f ≤ upFw S t c f := by
  unfold upFw
  split
  · exact hm.mono c _ _ (hs c hcl).1 (h c hcl) (ht c hcl).2
  · have o1 := outside_range S s hp.conn ⟨hs, hp.bc⟩ c hcl f hf
    have o2 := outside_range S t hp.conn ⟨ht, hp.bc⟩ c hcl f hf
    exact hm.mono _ _ _ o1.1 (outside_mono S s t hp.conn h c hcl f hf) o2.2

theorem flux_order (S : Setup K K) (factor : K) (hp : Physical S factor) (hm : Rising S factor) (s t : Nat → K) (hs : InUnit S.grid.length s) (ht : InUnit S.grid.length t)
    (h : Below S.grid.length s t) (i : Nat) (hi : i < S.grid.length) (l : List (Face K)) (hl : ∀ f ∈ l, f ∈ facesOf S.grid i) :
    (l.map fun f => f.flux * upFw S t i f).sum - (l.map fun f => f.flux * upFw S s i f).sum ≤
      ((l.filter fun f => 0 < f.flux).map (·.flux)).sum * (fw S i (t i) - fw S i (s i)) := by
  induction l with
  | nil => simp
  | cons f l ih =>
    have i1 := ih (fun g hg => hl g (List.mem_cons_of_mem _ hg))
    have hu := up_mono S factor hp hm s t hs ht h i hi f (hl f List.mem_cons_self)
    by_cases hf : 0 < f.flux
    · rw [List.filter_cons_of_pos (by simp [hf])]
      simp only [List.map_cons, List.sum_cons]
      have e1 : upFw S s i f = fw S i (s i) := by unfold upFw; rw [if_pos hf.le]
      have e2 : upFw S t i f = fw S i (t i) := by unfold upFw; rw [if_pos hf.le]
      rw [e1, e2]
      linarith
    · rw [List.filter_cons_of_neg (by simp [hf])]
      simp only [List.map_cons, List.sum_cons]
      have : f.flux * upFw S t i f ≤ f.flux * upFw S s i f := mul_le_mul_of_nonpos_left hu (not_lt.1 hf)
      linarith

/-- With more water everywhere, no more enters a cell than what its own saturation explains. -/
theorem inflow_order (S : Setup K K) (factor : K) (hp : Physical S factor) (hb : Balanced S) (hm : Rising S factor) (s t : Nat → K) (hs : InUnit S.grid.length s)
    (ht : InUnit S.grid.length t) (h : Below S.grid.length s t) (i : Nat) (hi : i < S.grid.length) :
    netInflow S s i - netInflow S t i ≤ max (totalIn S.grid i) (totalOut S.grid i) * (fw S i (t i) - fw S i (s i)) := by
  have hv : Viscous S := ⟨hp.ops, hp.method, hp.grav, hp.normal⟩
  have hg : GoodMob S := ⟨hp.nonneg, hp.pos⟩
  rw [netInflow_source S hv hg s hp.conn ⟨hs, hp.bc⟩ hb.cons i hi, netInflow_source S hv hg t hp.conn ⟨ht, hp.bc⟩ hb.cons i hi, hp.frac, hp.frac]
  have b1 := flux_order S factor hp hm s t hs ht h i hi _ (fun _ h => h)
  change _ ≤ totalOut S.grid i * _ at b1
  have hd := hb.div i hi
  rw [sum_split] at hd
  change totalOut S.grid i - totalIn S.grid i = _ at hd
  have hf := hm.mono i _ _ (hs i hi).1 (h i hi) (ht i hi).2
  by_cases hneg : S.rate i < 0
  · rw [if_pos hneg, if_pos hneg]
    have : totalIn S.grid i * (fw S i (t i) - fw S i (s i)) ≤ max (totalIn S.grid i) (totalOut S.grid i) * (fw S i (t i) - fw S i (s i)) :=
      mul_le_mul_of_nonneg_right (le_max_left _ _) (by linarith)
    rw [← hd]
    nlinarith
  · rw [if_neg hneg, if_neg hneg]
    have : totalOut S.grid i * (fw S i (t i) - fw S i (s i)) ≤ max (totalIn S.grid i) (totalOut S.grid i) * (fw S i (t i) - fw S i (s i)) :=
      mul_le_mul_of_nonneg_right (le_max_right _ _) (by linarith)
    linarith

/-- **C153** Order. Two states of which one has no less water in any cell; the same step within the limit of the fluxes from both. The results have the same order. -/
theorem C153_order (E : Solver K K) (big factor dt limit : K) (poro : Nat → K) (s t : Nat → K) (hE : Ready E poro)
    (hp : Physical E.setup factor) (hb : Balanced E.setup) (hm : Rising E.setup factor) (hs : InUnit E.setup.grid.length s) (ht : InUnit E.setup.grid.length t)
    (hfac : 0 < factor) (hlim : cflVelocity big factor poro E.setup.grid = .ok limit) (hdt0 : 0 ≤ dt) (hdt : dt ≤ limit)
    (h : Below E.setup.grid.length s t) : Below E.setup.grid.length (smallTimeStep E dt s).val (smallTimeStep E dt t).val := by
  intro i hi
  obtain ⟨hpos, e1⟩ := (step_eq E big factor dt limit poro s hE hp hb hs hfac hlim hdt0 hdt).1 i hi
  obtain ⟨_, e2⟩ := (step_eq E big factor dt limit poro t hE hp hb ht hfac hlim hdt0 hdt).1 i hi
  have b := inflow_order E.setup factor hp hb hm s t hs ht h i hi
  set Q := max (totalIn E.setup.grid i) (totalOut E.setup.grid i) with hQ
  have hQ0 : 0 ≤ Q := le_max_of_le_left (total_nonneg _ i).2
  have hcell := List.getElem?_eq_getElem hi
  have hpe : E.porevol.getD i 0 = E.setup.grid[i].volume * poro i := by
    rw [hE.porevol, List.getD, List.getElem?_map, List.getElem?_zipIdx, hcell]
    simp
  set p := E.porevol.getD i 0 with hpdef
  have hdq : dt * Q ≤ factor * p := by
    rcases hQ0.lt_or_eq with h | h
    · have := (C14_limit big factor poro E.setup.grid limit hlim).1 i _ hcell h.ne'
      rw [← hpe] at this
      have h2 := hdt.trans this
      rwa [le_div_iff₀ h] at h2
    · rw [← h, mul_zero]; positivity
  have hsl := hm.slope i _ _ (hs i hi).1 (h i hi) (ht i hi).2
  have hmo := hm.mono i _ _ (hs i hi).1 (h i hi) (ht i hi).2
  have k1 : dt * (netInflow E.setup s i - netInflow E.setup t i) ≤ p * (t i - s i) := by
    calc dt * (netInflow E.setup s i - netInflow E.setup t i) ≤ dt * (Q * (fw E.setup i (t i) - fw E.setup i (s i))) := mul_le_mul_of_nonneg_left b hdt0
      _ = dt * Q * (fw E.setup i (t i) - fw E.setup i (s i)) := by ring
      _ ≤ factor * p * ((t i - s i) / factor) := mul_le_mul hdq hsl (by linarith) (by positivity)
      _ = p * (t i - s i) := by field_simp
  rw [e1, e2]
  have k2 : dt * netInflow E.setup s i / p - dt * netInflow E.setup t i / p ≤ t i - s i := by
    rw [← sub_div, div_le_iff₀ hpos]
    nlinarith
  linarith

/-- With more water everywhere, less water enters the grid. -/
theorem gain_anti (S : Setup K K) (factor : K) (hp : Physical S factor) (hm : Rising S factor) (s t : Nat → K) (hs : InUnit S.grid.length s)
    (ht : InUnit S.grid.length t) (h : Below S.grid.length s t) : boundaryInflow S t + sources S t ≤ boundaryInflow S s + sources S s := by
  have hv : Viscous S := ⟨hp.ops, hp.method, hp.grav, hp.normal⟩
  have hg : GoodMob S := ⟨hp.nonneg, hp.pos⟩
  apply add_le_add
  · unfold boundaryInflow
    rw [neg_le_neg_iff]
    refine Finset.sum_le_sum fun c hc => ?_
    rw [Finset.mem_range] at hc
    apply List.sum_le_sum
    intro f hf
    rw [List.mem_filter] at hf
    obtain ⟨hf1, hf2⟩ := hf
    rw [outFlux_viscous S hv hg s hp.conn ⟨hs, hp.bc⟩ c hc f hf1, outFlux_viscous S hv hg t hp.conn ⟨ht, hp.bc⟩ c hc f hf1]
    by_cases h0 : 0 ≤ f.flux
    · exact mul_le_mul_of_nonneg_left (up_mono S factor hp hm s t hs ht h c hc f hf1) h0
    · have e : upFw S s c f = upFw S t c f := by
        unfold upFw
        rw [if_neg h0, if_neg h0]
        have : outsideSat S s f = outsideSat S t f := by
          unfold outsideSat
          cases hk : f.kind with
          | interior nb => simp [neighbour, hk] at hf2
          | boundary bid =>
            cases hb : S.bcs.cond bid with
            | periodic =>
              obtain ⟨e, he, _⟩ := by simpa [hk, hb] using hp.conn c hc f hf1
              simp only [neighbour, hk, hb] at hf2
              simp_all
            | dirichlet s => simp [hb]
        rw [this]
      rw [e]
  · unfold sources
    refine Finset.sum_le_sum fun c hc => ?_
    rw [Finset.mem_range] at hc
    split
    · rename_i hneg
      rw [hp.frac, hp.frac]
      exact mul_le_mul_of_nonpos_left (hm.mono c _ _ (hs c hc).1 (h c hc) (ht c hc).2) hneg.le
    · exact le_refl _

/-- **C153** Excess. The water the results of a step have one more than the other is at most that of the states before. -/
theorem C153_excess (E : Solver K K) (big factor dt limit : K) (poro : Nat → K) (s t : Nat → K) (hE : Ready E poro)
    (hp : Physical E.setup factor) (hb : Balanced E.setup) (hm : Rising E.setup factor) (hs : InUnit E.setup.grid.length s) (ht : InUnit E.setup.grid.length t)
    (hfac : 0 < factor) (hlim : cflVelocity big factor poro E.setup.grid = .ok limit) (hdt0 : 0 ≤ dt) (hdt : dt ≤ limit) :
    excess E.setup.grid.length E.porevol (smallTimeStep E dt s).val (smallTimeStep E dt t).val ≤ excess E.setup.grid.length E.porevol s t := by
  let m : Nat → K := fun i => max (s i) (t i)
  have hmU : InUnit E.setup.grid.length m := fun i hi => ⟨le_max_of_le_left (hs i hi).1, max_le (hs i hi).2 (ht i hi).2⟩
  have o1 := C153_order E big factor dt limit poro s m hE hp hb hm hs hmU hfac hlim hdt0 hdt (fun i _ => le_max_left _ _)
  have o2 := C153_order E big factor dt limit poro t m hE hp hb hm ht hmU hfac hlim hdt0 hdt (fun i _ => le_max_right _ _)
  obtain ⟨e1, e2⟩ := step_eq E big factor dt limit poro m hE hp hb hmU hfac hlim hdt0 hdt
  obtain ⟨e3, e4⟩ := step_eq E big factor dt limit poro t hE hp hb ht hfac hlim hdt0 hdt
  have hgain := gain_anti E.setup factor hp hm t m ht hmU (fun i _ => le_max_right _ _)
  rw [← e2, ← e4] at hgain
  unfold excess
  calc ∑ i ∈ Finset.range E.setup.grid.length, E.porevol.getD i 0 * max ((smallTimeStep E dt s).val i - (smallTimeStep E dt t).val i) 0
      ≤ ∑ i ∈ Finset.range E.setup.grid.length, (E.porevol.getD i 0 * max (s i - t i) 0 + dt * (netInflow E.setup m i - netInflow E.setup t i)) := by
        refine Finset.sum_le_sum fun i hi => ?_
        rw [Finset.mem_range] at hi
        obtain ⟨hpos, e1⟩ := e1 i hi
        obtain ⟨_, e3⟩ := e3 i hi
        have hmi : max (s i - t i) 0 = m i - t i := by
          rw [show (0 : K) = t i - t i by ring, max_sub_sub_right]
        have hle : max ((smallTimeStep E dt s).val i - (smallTimeStep E dt t).val i) 0 ≤ (smallTimeStep E dt m).val i - (smallTimeStep E dt t).val i :=
          max_le (by linarith [o1 i hi]) (by linarith [o2 i hi])
        refine (mul_le_mul_of_nonneg_left hle hpos.le).trans (le_of_eq ?_)
        rw [e1, e3, hmi]
        field_simp
        ring
    _ = ∑ i ∈ Finset.range E.setup.grid.length, E.porevol.getD i 0 * max (s i - t i) 0 +
        dt * (∑ i ∈ Finset.range E.setup.grid.length, netInflow E.setup m i - ∑ i ∈ Finset.range E.setup.grid.length, netInflow E.setup t i) := by
        rw [Finset.sum_add_distrib, ← Finset.mul_sum, Finset.sum_sub_distrib]
    _ ≤ _ := by
        have := mul_nonpos_of_nonneg_of_nonpos hdt0 (sub_nonpos.2 hgain)
        linarith

theorem distance_eq (n : Nat) (pv : List K) (s t : Nat → K) : distance n pv s t = excess n pv s t + excess n pv t s := by
  unfold distance excess
  rw [← Finset.sum_add_distrib]
  refine Finset.sum_congr rfl fun i _ => ?_
  rw [← mul_add]
  congr 1
  rcases le_total (s i) (t i) with h | h
  · rw [abs_of_nonpos (by linarith), max_eq_right (by linarith), max_eq_left (by linarith)]; ring
  · rw [abs_of_nonneg (by linarith), max_eq_left (by linarith), max_eq_right (by linarith)]; ring

/-- **C153** Distance. The water by which the results of a step differ is at most that by which the states before differ. -/
theorem C153_distance (E : Solver K K) (big factor dt limit : K) (poro : Nat → K) (s t : Nat → K) (hE : Ready E poro)
    (hp : Physical E.setup factor) (hb : Balanced E.setup) (hm : Rising E.setup factor) (hs : InUnit E.setup.grid.length s) (ht : InUnit E.setup.grid.length t)
    (hfac : 0 < factor) (hlim : cflVelocity big factor poro E.setup.grid = .ok limit) (hdt0 : 0 ≤ dt) (hdt : dt ≤ limit) :
    distance E.setup.grid.length E.porevol (smallTimeStep E dt s).val (smallTimeStep E dt t).val ≤ distance E.setup.grid.length E.porevol s t := by
  rw [distance_eq, distance_eq]
  exact add_le_add (C153_excess E big factor dt limit poro s t hE hp hb hm hs ht hfac hlim hdt0 hdt)
    (C153_excess E big factor dt limit poro t s hE hp hb hm ht hs hfac hlim hdt0 hdt)

/-! ### No new extremes -/

/-- A uniform state with no more water than what enters gains water everywhere; with no less water than what enters, and without injection, it loses water
everywhere. -/
theorem uniform_inflow (S : Setup K K) (factor : K) (hp : Physical S factor) (hb : Balanced S) (hm : Rising S factor) (ho : OneRock S) (a : K) (ha0 : 0 ≤ a) (ha1 : a ≤ 1)
    (i : Nat) (hi : i < S.grid.length) :
    (EntersAbove S a → 0 ≤ netInflow S (fun _ => a) i) ∧
    (EntersBelow S a → S.rate i ≤ 0 → netInflow S (fun _ => a) i ≤ 0) := by
  have hv : Viscous S := ⟨hp.ops, hp.method, hp.grav, hp.normal⟩
  have hg : GoodMob S := ⟨hp.nonneg, hp.pos⟩
  have hU : InUnit S.grid.length (fun _ => a) := fun _ _ => ⟨ha0, ha1⟩
  have hw := fw_range S hg i a ha0 ha1
  rw [netInflow_source S hv hg _ hp.conn ⟨hU, hp.bc⟩ hb.cons i hi, hp.frac]
  have hd := hb.div i hi
  -- what is seen through a face
  have hout : ∀ f ∈ facesOf S.grid i, outsideSat S (fun _ => a) f = a ∨ ∃ bid s, f.kind = .boundary bid ∧ S.bcs.cond bid = .dirichlet s ∧ outsideSat S (fun _ => a) f = s := by
    intro f hf
    have h' := hp.conn i hi f hf
    unfold outsideSat
    cases hk : f.kind with
    | interior nb => exact Or.inl rfl
    | boundary bid =>
      simp only [hk] at h' ⊢
      cases hb : S.bcs.cond bid with
      | periodic =>
        simp only [hb] at h' ⊢
        obtain ⟨e, he, _⟩ := h'
        simp only [he]
        left; trivial
      | dirichlet s => exact Or.inr ⟨bid, s, rfl, hb, rfl⟩
  have hlist : ∀ l : List (Face K), (l.map fun f => f.flux * fw S i a).sum = (l.map (·.flux)).sum * fw S i a := by
    intro l
    induction l with
    | nil => simp
    | cons f l ih => simp only [List.map_cons, List.sum_cons]; rw [ih]; ring
  have hF := hlist (facesOf S.grid i)
  rw [hd] at hF
  constructor
  · intro hbc
    have : ((facesOf S.grid i).map fun f => f.flux * upFw S (fun _ => a) i f).sum ≤ S.rate i * fw S i a := by
      rw [← hF]
      apply List.sum_le_sum
      intro f hf
      unfold upFw
      split
      · exact le_refl _
      · rename_i hneg
        refine mul_le_mul_of_nonpos_left ?_ (not_le.1 hneg).le
        rw [ho ((neighbour S f).getD i) i]
        rcases hout f hf with h | ⟨bid, s, h0, h1, h2⟩
        · rw [h]
        · rw [h2]; exact hm.mono i _ _ ha0 (hbc i hi f hf bid s h0 h1 (not_le.1 hneg)) (hp.bc bid s h1).2
    split
    · linarith
    · rename_i hr
      nlinarith [not_lt.1 hr]
  · intro hbc hr
    have : S.rate i * fw S i a ≤ ((facesOf S.grid i).map fun f => f.flux * upFw S (fun _ => a) i f).sum := by
      rw [← hF]
      apply List.sum_le_sum
      intro f hf
      unfold upFw
      split
      · exact le_refl _
      · rename_i hneg
        refine mul_le_mul_of_nonpos_left ?_ (not_le.1 hneg).le
        rw [ho ((neighbour S f).getD i) i]
        rcases hout f hf with h | ⟨bid, s, h0, h1, h2⟩
        · rw [h]
        · rw [h2]; exact hm.mono i _ _ (hp.bc bid s h1).1 (hbc i hi f hf bid s h0 h1 (not_le.1 hneg)) ha1
    split
    · linarith
    · rename_i hr'
      have h0 : S.rate i = 0 := le_antisymm hr (not_lt.1 hr')
      rw [h0, zero_mul] at this
      rw [h0]
      linarith

/-- **C153** No new extremes. In a grid with one rock, saturations of at least `a` stay at least `a` if what enters has at least `a` too; saturations of at most `b` stay
at most `b` if what enters has at most `b` and nothing is injected by sources. -/
theorem C153_extremes (E : Solver K K) (big factor dt limit : K) (poro : Nat → K) (s : Nat → K) (hE : Ready E poro)
    (hp : Physical E.setup factor) (hb : Balanced E.setup) (hm : Rising E.setup factor) (ho : OneRock E.setup) (hs : InUnit E.setup.grid.length s)
    (hfac : 0 < factor) (hlim : cflVelocity big factor poro E.setup.grid = .ok limit) (hdt0 : 0 ≤ dt) (hdt : dt ≤ limit) :
    (∀ a, 0 ≤ a → EntersAbove E.setup a → (∀ i < E.setup.grid.length, a ≤ s i) →
      ∀ i < E.setup.grid.length, a ≤ (smallTimeStep E dt s).val i) ∧
    (∀ b, b ≤ 1 → EntersBelow E.setup b → (∀ i < E.setup.grid.length, E.setup.rate i ≤ 0) →
      (∀ i < E.setup.grid.length, s i ≤ b) → ∀ i < E.setup.grid.length, (smallTimeStep E dt s).val i ≤ b) := by
  constructor
  · intro a ha0 hbc ha i hi
    have ha1 : a ≤ 1 := (ha i hi).trans (hs i hi).2
    have hU : InUnit E.setup.grid.length (fun _ => a) := fun _ _ => ⟨ha0, ha1⟩
    have o := C153_order E big factor dt limit poro (fun _ => a) s hE hp hb hm hU hs hfac hlim hdt0 hdt ha i hi
    obtain ⟨hpos, e⟩ := (step_eq E big factor dt limit poro (fun _ => a) hE hp hb hU hfac hlim hdt0 hdt).1 i hi
    have h0 := (uniform_inflow E.setup factor hp hb hm ho a ha0 ha1 i hi).1 hbc
    have : 0 ≤ dt * netInflow E.setup (fun _ => a) i / E.porevol.getD i 0 := div_nonneg (mul_nonneg hdt0 h0) hpos.le
    linarith
  · intro b hb1 hbc hrate hle i hi
    have hb0 : 0 ≤ b := (hs i hi).1.trans (hle i hi)
    have hU : InUnit E.setup.grid.length (fun _ => b) := fun _ _ => ⟨hb0, hb1⟩
    have o := C153_order E big factor dt limit poro s (fun _ => b) hE hp hb hm hs hU hfac hlim hdt0 hdt hle i hi
    obtain ⟨hpos, e⟩ := (step_eq E big factor dt limit poro (fun _ => b) hE hp hb hU hfac hlim hdt0 hdt).1 i hi
    have h0 := (uniform_inflow E.setup factor hp hb hm ho b hb0 hb1 i hi).2 hbc (hrate i hi)
    have : dt * netInflow E.setup (fun _ => b) i / E.porevol.getD i 0 ≤ 0 := div_nonpos_of_nonpos_of_nonneg (mul_nonpos_of_nonneg_of_nonpos hdt0 h0) hpos.le
    linarith

/-! ### Whole solves -/

theorem runs_pair (E : Solver K K) (big factor dt limit : K) (poro : Nat → K) (hE : Ready E poro)
    (hp : Physical E.setup factor) (hb : Balanced E.setup) (hm : Rising E.setup factor) (hfac : 0 < factor)
    (hlim : cflVelocity big factor poro E.setup.grid = .ok limit) (hdt0 : 0 ≤ dt) (hdt : dt ≤ limit) (n : Nat) (s t : Nat → K)
    (hs : InUnit E.setup.grid.length s) (ht : InUnit E.setup.grid.length t) :
    ∃ s' t', Runs (fun dt t => let q := smallTimeStep E dt t; (q.val, q.err.isNone)) dt n s s' ∧
      Runs (fun dt t => let q := smallTimeStep E dt t; (q.val, q.err.isNone)) dt n t t' ∧
      (Below E.setup.grid.length s t → Below E.setup.grid.length s' t') ∧
      excess E.setup.grid.length E.porevol s' t' ≤ excess E.setup.grid.length E.porevol s t ∧
      excess E.setup.grid.length E.porevol t' s' ≤ excess E.setup.grid.length E.porevol t s := by
  induction n generalizing s t with
  | zero => exact ⟨s, t, .done _, .done _, id, le_refl _, le_refl _⟩
  | succ n ih =>
    obtain ⟨a1, a2⟩ := C141_step E big factor dt limit poro s hE hp hb hs hfac hlim hdt0 hdt
    obtain ⟨b1, b2⟩ := C141_step E big factor dt limit poro t hE hp hb ht hfac hlim hdt0 hdt
    obtain ⟨s', t', h1, h2, h3, h4, h5⟩ := ih _ _ a2 b2
    refine ⟨s', t', .step (by dsimp only; rw [a1]; rfl) h1, .step (by dsimp only; rw [b1]; rfl) h2, fun h => h3 ?_, h4.trans ?_, h5.trans ?_⟩
    · exact C153_order E big factor dt limit poro s t hE hp hb hm hs ht hfac hlim hdt0 hdt h
    · exact C153_excess E big factor dt limit poro s t hE hp hb hm hs ht hfac hlim hdt0 hdt
    · exact C153_excess E big factor dt limit poro t s hE hp hb hm ht hs hfac hlim hdt0 hdt

end

section
variable {K : Type} [Field K] [LinearOrder K] [IsStrictOrderedRing K] [FloorRing K]

/-- **C153** Whole calls of the explicit solver, for a time interval that its largest number of steps can cover within the limit: from any two states both calls take the
same number of steps and succeed; the results have the order of the states, if they have one, and differ by no more water than they do. -/
theorem C153_solve (E : Solver K K) (P : Settings K) (factor time : K) (poro : Nat → K) (s t : Nat → K) (hE : Ready E poro)
    (hp : Physical E.setup factor) (hb : Balanced E.setup) (hm : Rising E.setup factor) (hs : InUnit E.setup.grid.length s) (ht : InUnit E.setup.grid.length t)
    (hfac : 0 < factor) (hc0 : 0 < P.courant) (hc1 : P.courant ≤ 1) (hlo : 0 < P.minSteps) (hlh : P.minSteps ≤ P.maxSteps) (hint : P.maxSteps ≤ 2147483647)
    (hbig : 0 < P.big) (hbig' : 0 < P.big') (htime : 0 ≤ time)
    (hcap : ∀ c cell, E.setup.grid[c]? = some cell →
      time * max (totalIn E.setup.grid c) (totalOut E.setup.grid c) ≤ P.maxSteps * (P.courant * (factor * (cell.volume * poro c))))
    (hcap' : time ≤ P.maxSteps * (P.courant * P.big)) (hcap'' : time ≤ P.maxSteps * (P.courant * P.big')) :
    ∃ n s' t', firstCount P factor poro time E.setup.grid = some n ∧
      transportSolve (fun dt t => let q := smallTimeStep E dt t; (q.val, q.err.isNone)) time n s = ⟨s', true, [n]⟩ ∧
      transportSolve (fun dt t => let q := smallTimeStep E dt t; (q.val, q.err.isNone)) time n t = ⟨t', true, [n]⟩ ∧
      (Below E.setup.grid.length s t → Below E.setup.grid.length s' t') ∧
      excess E.setup.grid.length E.porevol s' t' ≤ excess E.setup.grid.length E.porevol s t ∧
      distance E.setup.grid.length E.porevol s' t' ≤ distance E.setup.grid.length E.porevol s t := by
  obtain ⟨n, limit, hcnt, hn1, hn2, hlim, hdt⟩ := first_count E P factor time poro hE hfac hc0 hc1 hlo hlh hint hbig hbig' htime hcap hcap' hcap''
  have hn0 : (0 : K) < (n : K) := by exact_mod_cast lt_of_lt_of_le hlo hn1
  obtain ⟨s', t', h1, h2, h3, h4, h5⟩ := runs_pair E P.big factor (time / n) limit poro hE hp hb hm hfac hlim (div_nonneg htime hn0.le) hdt n s t hs ht
  have g1 := (attempt_ok_iff _ _ _ _ _).2 h1
  have g2 := (attempt_ok_iff _ _ _ _ _).2 h2
  refine ⟨n, s', t', hcnt, ?_, ?_, h3, h4, ?_⟩
  · unfold transportSolve solveLoop
    rw [g1]
  · unfold transportSolve solveLoop
    rw [g2]
  · rw [distance_eq, distance_eq]
    exact add_le_add h4 h5

end

/-! ### Example: water injected in one cell and oil produced from the other -/

theorem exWells_rising : Rising exWells 1 := by
  have h : ∀ c s, fw exWells c s = s := by
    intro c s
    simp [fw, exWells, exRow]
  constructor
  · intro c s t _ hst _
    rw [h, h]; exact hst
  · intro c s t _ _ _
    rw [h, h]; simp

/-- The two cells empty and half full: a solve of length one keeps their order, and they differ by no more water than before. -/
example : ∃ n s' t', firstCount (⟨1 / 2, 1, 10, 100, 100⟩ : Settings ℚ) 1 (fun _ => 1) 1 exWells.grid = some n ∧
    transportSolve (fun dt t => let q := smallTimeStep exWellsSolver dt t; (q.val, q.err.isNone)) 1 n (fun _ => (0 : ℚ)) = ⟨s', true, [n]⟩ ∧
    transportSolve (fun dt t => let q := smallTimeStep exWellsSolver dt t; (q.val, q.err.isNone)) 1 n (fun i => if i = 0 then 1 / 2 else 0) = ⟨t', true, [n]⟩ ∧
    Below 2 s' t' ∧ distance 2 [1, 1] s' t' ≤ 1 / 2 := by
  obtain ⟨n, s', t', h1, h2, h3, h4, _, h6⟩ := C153_solve exWellsSolver ⟨1 / 2, 1, 10, 100, 100⟩ 1 1 (fun _ => 1) (fun _ => (0 : ℚ)) (fun i => if i = 0 then 1 / 2 else 0)
    exWells_ready exWells_physical exWells_balanced exWells_rising (fun _ _ => by norm_num) (fun i _ => by dsimp only; split <;> norm_num) one_pos (by norm_num) (by norm_num)
    (by decide) (by decide) (by decide) (by norm_num) (by norm_num) (by norm_num) (by
      intro c cell hc
      have hc' : c < 2 := (List.getElem?_eq_some_iff.1 hc).1
      interval_cases c
      · obtain rfl := Option.some.inj hc
        decide +kernel
      · obtain rfl := Option.some.inj hc
        decide +kernel) (by norm_num) (by norm_num)
  refine ⟨n, s', t', h1, h2, h3, h4 (fun i _ => by dsimp only; split <;> norm_num), h6.trans (le_of_eq ?_)⟩
  decide +kernel

/-! ### Example: a row of two cells with water entering on the left -/

theorem exRow_physical : Physical exRow 1 := by
  refine ⟨exRow_viscous.ops, exRow_viscous.method, exRow_viscous.grav, exRow_viscous.normal, exRow_mob.nonneg, exRow_mob.pos, ?_, ?_, ?_, exRow_inRange.bc, exRow_connected⟩
  · intro c s
    simp [exRow, fw]
  · intro c s h0 h1
    simp [exRow, fw]
  · intro c s h0 h1
    simp [exRow, fw]

theorem exRow_balanced : Balanced exRow := by
  refine ⟨exRow_consistent, ?_⟩
  intro i hi
  have : i = 0 ∨ i = 1 := by simp [exRow] at hi; omega
  rcases this with rfl | rfl <;> decide +kernel

theorem exRow_rising : Rising exRow 1 := by
  have h : ∀ c s, fw exRow c s = s := by
    intro c s
    simp [fw, exRow]
  constructor
  · intro c s t _ hst _
    rw [h, h]; exact hst
  · intro c s t _ _ _
    rw [h, h]; simp

/-- Half full cells, and water entering: no cell has less than before, although the boundary saturation where fluid leaves is 0. -/
example : ∀ i < 2, 1 / 2 ≤ (smallTimeStep exSolver 1 exSat).val i := by
  refine (C153_extremes exSolver 100 1 1 1 (fun _ => 1) exSat ⟨by decide, ⟨0, rfl⟩, by decide +kernel, by decide +kernel⟩ exRow_physical exRow_balanced exRow_rising
    ?_ exRow_inRange.sat one_pos (by decide +kernel) (by norm_num) le_rfl).1 (1 / 2) (by norm_num) ?_ (fun _ _ => le_rfl)
  · intro c c' s
    simp [fw, exSolver, exRow]
  · intro c hc f hf bid s hk hd hneg
    have : c = 0 ∨ c = 1 := by simp [exSolver, exRow] at hc; omega
    rcases this with rfl | rfl
    · simp [facesOf, exSolver, exRow] at hf
      rcases hf with rfl | rfl
      · simp only [exFace, FaceKind.boundary.injEq] at hk
        subst hk
        simp only [exSolver, exRow, SatBC.dirichlet.injEq] at hd
        rw [← hd]; norm_num
      · simp [exFace] at hk
    · simp [facesOf, exSolver, exRow] at hf
      rcases hf with rfl | rfl
      · simp [exFace] at hk
      · simp [exFace] at hneg
        norm_num at hneg

/-- **C153** The limit is needed: with a step of twice the limit (and saturations not checked) the empty row ends up with more water in its first cell than the full
one. -/
theorem C153_needs_limit :
    cflVelocity (100 : ℚ) 1 (fun _ => 1) exRow.grid = .ok 1 ∧ Below 2 (fun _ => (0 : ℚ)) (fun _ => 1) ∧
    ¬ Below 2 (smallTimeStep { exSolver with checkSat := false } 2 (fun _ => (0 : ℚ))).val (smallTimeStep { exSolver with checkSat := false } 2 (fun _ => 1)).val := by
  refine ⟨by decide +kernel, fun _ _ => zero_le_one, fun h => ?_⟩
  have := h 0 (by decide)
  revert this
  decide +kernel

end Verif.SimRange
