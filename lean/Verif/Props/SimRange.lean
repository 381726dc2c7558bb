import Verif.Props.SimRun
import Verif.Props.Steps
import Verif.Props.Transport
import Verif.Spec.SimRange
import Verif.Model.SimRange
import Verif.Props.Hybrid
import Mathlib.Tactic.FieldSimp

/-!
C141: explicit simulations with sources keep the saturations between 0 and 1 and never repeat a step.
-/

namespace Verif.SimRange

open Verif.Euler Verif.Euler.Spec Verif.SimRun
open scoped BigOperators

section
variable {K : Type} [Field K] [LinearOrder K] [IsStrictOrderedRing K]

/-! ### One step -/

/-- The net inflow of a cell with its source. -/
theorem netInflow_source (S : Setup K K) (hv : Viscous S) (hg : GoodMob S) (sat : Nat → K) (hc : Connected S)
    (hr : InRange S sat) (hcons : Consistent S) (i : Nat) (hi : i < S.grid.length) :
    netInflow S sat i = (if S.rate i < 0 then S.rate i * S.rock.fracFlow i (sat i) else S.rate i)
      - ((facesOf S.grid i).map fun f => f.flux * upFw S sat i f).sum := by
  have h0 := netInflow_viscous { S with rate := fun _ => 0 } ⟨hv.ops, hv.method, hv.grav, hv.normal⟩ ⟨hg.nonneg, hg.pos⟩ sat hc ⟨hr.sat, hr.bc⟩ hcons
    (fun _ => rfl) i hi
  have h1 : netInflow S sat i = (if S.rate i < 0 then S.rate i * S.rock.fracFlow i (sat i) else S.rate i) +
      netInflow { S with rate := fun _ => 0 } sat i := by
    have e : netInflow { S with rate := fun _ => 0 } sat i = (if (0 : K) < 0 then 0 * S.rock.fracFlow i (sat i) else 0)
        - (((facesOf S.grid i).filter fun f => (neighbour S f).isNone).map (outFlux S sat i)).sum
        - (((facesOf S.grid i).filter fun f => (neighbour S f).any (fun j => decide (i < j))).map (outFlux S sat i)).sum
        + ∑ c ∈ Finset.range i, (((facesOf S.grid c).filter fun f => neighbour S f = some i).map (outFlux S sat c)).sum := rfl
    rw [e, if_neg (lt_irrefl _)]
    unfold netInflow
    ring
  rw [h1, h0]
  have e2 : ((facesOf S.grid i).map fun f => f.flux * upFw { S with rate := fun _ => 0 } sat i f).sum =
      ((facesOf S.grid i).map fun f => f.flux * upFw S sat i f).sum := rfl
  change _ + -((facesOf S.grid i).map fun f => f.flux * upFw { S with rate := fun _ => 0 } sat i f).sum = _
  rw [e2]
  ring

theorem sum_split (l : List (Face K)) : (l.map (·.flux)).sum =
    ((l.filter fun f => 0 < f.flux).map (·.flux)).sum - ((l.filter fun f => ¬ 0 < f.flux).map (fun f => - f.flux)).sum := by
  induction l with
  | nil => simp
  | cons f l ih =>
    rw [List.map_cons, List.sum_cons, ih]
    by_cases h : 0 < f.flux
    · rw [List.filter_cons_of_pos (by simp [h]), List.filter_cons_of_neg (by simp [h])]
      simp only [List.map_cons, List.sum_cons]; ring
    · rw [List.filter_cons_of_neg (by simp [h]), List.filter_cons_of_pos (by simp [h])]
      simp only [List.map_cons, List.sum_cons]; ring

theorem total_nonneg (g : Grid K) (i : Nat) : 0 ≤ totalOut g i ∧ 0 ≤ totalIn g i := by
  constructor
  · apply List.sum_nonneg
    intro x hx
    rw [List.mem_map] at hx
    obtain ⟨f, hf, rfl⟩ := hx
    rw [List.mem_filter] at hf
    exact (of_decide_eq_true hf.2).le
  · apply List.sum_nonneg
    intro x hx
    rw [List.mem_map] at hx
    obtain ⟨f, hf, rfl⟩ := hx
    rw [List.mem_filter] at hf
    have := of_decide_eq_true hf.2
    linarith [not_lt.1 this]

/-- **C141** One explicit step with sources. Fluid is injected as water and produced at the fractional flow of its cell; the fluxes are balanced. A step within the
limit of the fluxes succeeds and leaves all saturations between 0 and 1. -/
theorem C141_step (E : Solver K K) (big factor dt limit : K) (poro : Nat → K) (sat : Nat → K) (hE : Ready E poro)
    (hp : Physical E.setup factor) (hb : Balanced E.setup) (hr : InUnit E.setup.grid.length sat) (hfac : 0 < factor)
    (hlim : cflVelocity big factor poro E.setup.grid = .ok limit) (hdt0 : 0 ≤ dt) (hdt : dt ≤ limit) :
    (smallTimeStep E dt sat).err = none ∧ InUnit E.setup.grid.length (smallTimeStep E dt sat).val := by
  obtain ⟨hn, ⟨k, hit⟩, hpv, hpos⟩ := hE
  have hv : Viscous E.setup := ⟨hp.ops, hp.method, hp.grav, hp.normal⟩
  have hg : GoodMob E.setup := ⟨hp.nonneg, hp.pos⟩
  have hc := hp.conn
  have hr' : InRange E.setup sat := ⟨hr, hp.bc⟩
  obtain ⟨res, hres⟩ := computeResidual_ok E.setup hv hg sat hc hr' k hn
  have hpvi : ∀ (i : Nat) (cell : Euler.Cell K), E.setup.grid[i]? = some cell → E.porevol[i]? = some (cell.volume * poro i) := by
    intro i cell hcell
    rw [hpv, List.getElem?_map, List.getElem?_zipIdx, hcell]
    simp
  have hue : (updateSat E.porevol dt res (List.range E.setup.grid.length) sat).err = none := by
    apply updateSat_ok
    intro i hi
    rw [List.mem_range] at hi
    have h1 := hpvi i _ (List.getElem?_eq_getElem hi)
    exact ⟨_, h1, (hpos _ (List.mem_of_getElem? h1)).ne'⟩
  obtain ⟨s', hu⟩ : ∃ s', updateSat E.porevol dt res (List.range E.setup.grid.length) sat = ⟨s', none⟩ :=
    ⟨_, by rw [← hue]⟩
  have hsp := (updateSat_spec _ _ _ _ List.nodup_range _ _ hu).1
  have hrange : InUnit E.setup.grid.length s' := by
    intro i hi
    obtain ⟨p, hp', hp0, hs⟩ := hsp i (List.mem_range.2 hi)
    have hcell := List.getElem?_eq_getElem hi
    have hpe : p = E.setup.grid[i].volume * poro i := by
      have := hpvi i _ hcell
      rw [hp'] at this
      exact (Option.some.inj this)
    have hppos : 0 < p := hpos p (List.mem_of_getElem? hp')
    obtain ⟨hs0, hs1⟩ := hr i hi
    obtain ⟨hf0, hf1⟩ := fw_range E.setup hg i (sat i) hs0 hs1
    have hri : res i = (if E.setup.rate i < 0 then E.setup.rate i * E.setup.rock.fracFlow i (sat i) else E.setup.rate i)
        - ((facesOf E.setup.grid i).map fun f => f.flux * upFw E.setup sat i f).sum := by
      rw [residual_eq E.setup sat k hn res hres i hi]
      exact netInflow_source E.setup hv hg sat hc hr' hb.cons i hi
    obtain ⟨b1, b2⟩ := flux_bounds E.setup hg sat hc hr' i hi _ (fun _ h => h)
    change - totalOut E.setup.grid i * _ ≤ _ at b1
    change _ ≤ - totalOut E.setup.grid i * _ + totalIn E.setup.grid i at b2
    have hd := hb.div i hi
    rw [sum_split] at hd
    change totalOut E.setup.grid i - totalIn E.setup.grid i = _ at hd
    obtain ⟨ho, hin⟩ := total_nonneg E.setup.grid i
    rw [hp.frac] at hri
    set Q := max (totalIn E.setup.grid i) (totalOut E.setup.grid i) with hQ
    have hQ0 : 0 ≤ Q := le_max_of_le_left hin
    -- the residual lies between `-Q fw` and `Q (1 - fw)`
    have b3 : -Q * fw E.setup i (sat i) ≤ res i ∧ res i ≤ Q * (1 - fw E.setup i (sat i)) := by
      rw [hri]
      by_cases hneg : E.setup.rate i < 0
      · rw [if_pos hneg]
        have hQe : Q = totalIn E.setup.grid i := max_eq_left (by linarith)
        have he : E.setup.rate i = totalOut E.setup.grid i - totalIn E.setup.grid i := hd.symm
        rw [hQe, he]
        constructor <;> nlinarith
      · rw [if_neg hneg]
        have hQe : Q = totalOut E.setup.grid i := max_eq_right (by linarith [not_lt.1 hneg])
        have he : E.setup.rate i = totalOut E.setup.grid i - totalIn E.setup.grid i := hd.symm
        rw [hQe]
        constructor
        · linarith [not_lt.1 hneg]
        · rw [he]; nlinarith
    obtain ⟨b4, b5⟩ := b3
    -- dt * Q ≤ factor * p
    have hdq : dt * Q ≤ factor * p := by
      rcases hQ0.lt_or_eq with h | h
      · have := (C14_limit big factor poro E.setup.grid limit hlim).1 i _ hcell h.ne'
        rw [← hpe] at this
        have h2 := hdt.trans this
        rwa [le_div_iff₀ h] at h2
      · rw [← h, mul_zero]; positivity
    rw [hs]
    constructor
    · have h1 : dt * res i ≥ - (p * sat i) := by
        have : dt * res i ≥ dt * (- Q * fw E.setup i (sat i)) := mul_le_mul_of_nonneg_left b4 hdt0
        have h2 : dt * Q * fw E.setup i (sat i) ≤ factor * p * (sat i / factor) :=
          mul_le_mul hdq (hp.low i _ hs0 hs1) hf0 (by positivity)
        have h3 : factor * p * (sat i / factor) = p * sat i := by field_simp
        rw [h3] at h2
        nlinarith
      have : dt * res i / p ≥ - sat i := by
        rw [ge_iff_le, le_div_iff₀ hppos]; linarith
      linarith
    · have h1 : dt * res i ≤ p * (1 - sat i) := by
        have : dt * res i ≤ dt * (Q * (1 - fw E.setup i (sat i))) := mul_le_mul_of_nonneg_left b5 hdt0
        have h2 : dt * Q * (1 - fw E.setup i (sat i)) ≤ factor * p * ((1 - sat i) / factor) :=
          mul_le_mul hdq (hp.up i _ hs0 hs1) (by linarith) (by positivity)
        have h3 : factor * p * ((1 - sat i) / factor) = p * (1 - sat i) := by field_simp
        rw [h3] at h2
        nlinarith
      have : dt * res i / p ≤ 1 - sat i := by
        rw [div_le_iff₀ hppos]; linarith
      linarith
  have hstep : smallTimeStep E dt sat = ⟨s', none⟩ ∨ ((smallTimeStep E dt sat) = checkAndClamp E.clampSat E.setup.grid.length s') := by
    unfold smallTimeStep
    rw [hit, hres]
    simp only [hu]
    by_cases h : (E.checkSat || E.clampSat) = true
    · rw [if_pos h]; exact Or.inr rfl
    · rw [if_neg h]; exact Or.inl rfl
  rcases hstep with h | h
  · rw [h]; exact ⟨rfl, hrange⟩
  · rw [h]
    cases hcl : E.clampSat with
    | true =>
      obtain ⟨c1, c2⟩ := C13_clamp E.setup.grid.length s'
      exact ⟨c1, fun i hi => ⟨(c2 i hi).1, (c2 i hi).2.1⟩⟩
    | false =>
      obtain ⟨c1, c2, _⟩ := C13_noclamp E.setup.grid.length s'
      refine ⟨c2.2 (fun i hi => ?_), ?_⟩
      · have := hrange i hi
        have h0 : (0 : K) < 1 / 1000 := by positivity
        constructor <;> linarith
      · rw [c1]; exact hrange

/-- The limit is positive. -/
theorem limit_pos (big factor limit : K) (poro : Nat → K) (g : Grid K) (hbig : 0 < big) (hfac : 0 < factor)
    (hpv : ∀ c cell, g[c]? = some cell → 0 < cell.volume * poro c) (h : cflVelocity big factor poro g = .ok limit) : 0 < limit := by
  obtain ⟨_, _, h3⟩ := C14_limit big factor poro g limit h
  rcases h3 with rfl | ⟨c, cell, hc, hne, rfl⟩
  · exact hbig
  · have := hpv c cell hc
    have h0 : 0 ≤ max (totalIn g c) (totalOut g c) := le_max_of_le_left (total_nonneg g c).2
    have : 0 < max (totalIn g c) (totalOut g c) := lt_of_le_of_ne h0 (Ne.symm hne)
    positivity

/-- The limit exists. -/
theorem limit_exists (big factor : K) (poro : Nat → K) (g : Grid K) (hfac : 0 < factor)
    (hpv : ∀ c cell, g[c]? = some cell → 0 < cell.volume * poro c) : ∃ limit, cflVelocity big factor poro g = .ok limit := by
  unfold cflVelocity
  have : ∀ (l : List (Euler.Cell K × Nat)) (d : K), (∀ c ∈ l, 0 < c.1.volume * poro c.2) → ∃ limit, l.foldlM (cflVelocityStep factor poro) d = .ok limit := by
    intro l
    induction l with
    | nil => intro d _; exact ⟨d, rfl⟩
    | cons c l ih =>
      intro d hl
      have hs : ∃ d', cflVelocityStep factor poro d c = .ok d' := by
        unfold cflVelocityStep
        dsimp only
        split
        · exact ⟨_, rfl⟩
        · rename_i hne
          have h1 := hl c List.mem_cons_self
          have : factor * c.1.volume * poro c.2 / max (fluxPN c.1.faces).2 (fluxPN c.1.faces).1 ≠ 0 := by
            rw [mul_assoc]
            exact div_ne_zero (mul_pos hfac h1).ne' hne
          rw [if_neg this]
          split
          · exact ⟨_, rfl⟩
          · exact ⟨_, rfl⟩
      obtain ⟨d', hd'⟩ := hs
      rw [List.foldlM_cons, hd']
      exact ih d' (fun x hx => hl x (List.mem_cons_of_mem _ hx))
  apply this
  rintro ⟨cell, c⟩ hm
  rw [List.mem_zipIdx_iff_getElem?] at hm
  exact hpv c cell hm


/-- Steps within the limit run through. -/
theorem runs_ok (E : Solver K K) (big factor dt limit : K) (poro : Nat → K) (hE : Ready E poro)
    (hp : Physical E.setup factor) (hb : Balanced E.setup) (hfac : 0 < factor)
    (hlim : cflVelocity big factor poro E.setup.grid = .ok limit) (hdt0 : 0 ≤ dt) (hdt : dt ≤ limit) (n : Nat) (sat : Nat → K)
    (hr : InUnit E.setup.grid.length sat) :
    ∃ t, Runs (fun dt t => let q := smallTimeStep E dt t; (q.val, q.err.isNone)) dt n sat t ∧ InUnit E.setup.grid.length t := by
  induction n generalizing sat with
  | zero => exact ⟨sat, .done _, hr⟩
  | succ n ih =>
    obtain ⟨h1, h2⟩ := C141_step E big factor dt limit poro sat hE hp hb hr hfac hlim hdt0 hdt
    obtain ⟨t, h3, h4⟩ := ih _ h2
    exact ⟨t, .step (by dsimp only; rw [h1]; rfl) h3, h4⟩

end

section
variable {K : Type} [Field K] [LinearOrder K] [IsStrictOrderedRing K] [FloorRing K]

/-- The number of steps the solver takes keeps them within the limit of the fluxes. -/
theorem first_count (E : Solver K K) (P : Settings K) (factor time : K) (poro : Nat → K) (hE : Ready E poro)
    (hfac : 0 < factor)
    (hc0 : 0 < P.courant) (hc1 : P.courant ≤ 1) (hlo : 0 < P.minSteps) (hlh : P.minSteps ≤ P.maxSteps) (hint : P.maxSteps ≤ 2147483647)
    (hbig : 0 < P.big) (hbig' : 0 < P.big') (ht : 0 ≤ time)
    (hcap : ∀ c cell, E.setup.grid[c]? = some cell →
      time * max (totalIn E.setup.grid c) (totalOut E.setup.grid c) ≤ P.maxSteps * (P.courant * (factor * (cell.volume * poro c))))
    (hcap' : time ≤ P.maxSteps * (P.courant * P.big)) (hcap'' : time ≤ P.maxSteps * (P.courant * P.big')) :
    ∃ n limit, firstCount P factor poro time E.setup.grid = some n ∧ P.minSteps ≤ n ∧ n ≤ P.maxSteps ∧
      cflVelocity P.big factor poro E.setup.grid = .ok limit ∧ time / (n : K) ≤ limit := by
  have hpv : ∀ c cell, E.setup.grid[c]? = some cell → 0 < cell.volume * poro c := by
    intro c cell hcell
    apply hE.pos
    rw [hE.porevol, List.mem_map]
    exact ⟨(cell, c), List.mem_zipIdx_iff_getElem?.2 hcell, rfl⟩
  obtain ⟨limit, hlim⟩ := limit_exists P.big factor poro E.setup.grid hfac hpv
  have hl0 := limit_pos P.big factor limit poro E.setup.grid hbig hfac hpv hlim
  set cfl := cflTime P.big' P.courant (some limit) none none with hcfl
  have hcfl' : cfl = min limit P.big' * P.courant := by
    rw [hcfl]; unfold cflTime
    simp only [Option.getD_some, Option.getD_none]
    rw [min_assoc, min_self]
  have hcp : 0 < cfl := by rw [hcfl']; exact mul_pos (lt_min hl0 hbig') hc0
  have hcl : cfl ≤ limit := by
    rw [hcfl']
    calc min limit P.big' * P.courant ≤ limit * P.courant := mul_le_mul_of_nonneg_right (min_le_left _ _) hc0.le
      _ ≤ limit * 1 := mul_le_mul_of_nonneg_left hc1 hl0.le
      _ = limit := mul_one _
  obtain ⟨hn1, hn2⟩ := C12_bounds P.minSteps P.maxSteps hlh cfl time
  set n := firstSteps P.minSteps P.maxSteps cfl time with hn
  have hmax : (0 : K) < (P.maxSteps : K) := by exact_mod_cast lt_of_lt_of_le hlo hlh
  -- the largest number of steps is enough
  have hfull : time ≤ P.maxSteps * cfl := by
    rw [hcfl']
    rcases min_choice limit P.big' with e | e
    · rw [e]
      obtain ⟨_, _, h3⟩ := C14_limit P.big factor poro E.setup.grid limit hlim
      rcases h3 with h3 | ⟨c, cell, hc, hne, h3⟩
      · rw [h3, mul_comm P.big]; exact hcap'
      · have h0 : 0 < max (totalIn E.setup.grid c) (totalOut E.setup.grid c) :=
          lt_of_le_of_ne (le_max_of_le_left (total_nonneg _ c).2) (Ne.symm hne)
        have := hcap c cell hc
        rw [h3]
        have h4 : (P.maxSteps : K) * (factor * (cell.volume * poro c) / max (totalIn E.setup.grid c) (totalOut E.setup.grid c) * P.courant) =
            P.maxSteps * (P.courant * (factor * (cell.volume * poro c))) / max (totalIn E.setup.grid c) (totalOut E.setup.grid c) := by
          field_simp
        rw [h4, le_div_iff₀ h0]
        exact this
    · rw [e, mul_comm P.big']; exact hcap''
  have hdt : time / (n : K) ≤ limit := by
    refine le_trans ?_ hcl
    have hfin : n = P.maxSteps → time / (n : K) ≤ cfl := by
      intro e
      rw [e, div_le_iff₀ hmax]
      linarith
    rcases C12_respects_cfl P.minSteps P.maxSteps hlo cfl time hcp ht with h | h | h
    · exact h
    · exact hfin h
    · rw [← hn] at h
      exact hfin (by omega)
  refine ⟨n, limit, ?_, hn1, hn2, hlim, hdt⟩
  unfold firstCount
  rw [hlim]

/-- **C141** The call of the explicit solver for a time interval that its largest number of steps can cover within the limit: the first attempt succeeds (there is
no other one), and the saturations stay between 0 and 1. -/
theorem C141_solve (E : Solver K K) (P : Settings K) (factor time : K) (poro : Nat → K) (sat : Nat → K) (hE : Ready E poro)
    (hp : Physical E.setup factor) (hb : Balanced E.setup) (hr : InUnit E.setup.grid.length sat) (hfac : 0 < factor)
    (hc0 : 0 < P.courant) (hc1 : P.courant ≤ 1) (hlo : 0 < P.minSteps) (hlh : P.minSteps ≤ P.maxSteps) (hint : P.maxSteps ≤ 2147483647)
    (hbig : 0 < P.big) (hbig' : 0 < P.big') (ht : 0 ≤ time)
    (hcap : ∀ c cell, E.setup.grid[c]? = some cell →
      time * max (totalIn E.setup.grid c) (totalOut E.setup.grid c) ≤ P.maxSteps * (P.courant * (factor * (cell.volume * poro c))))
    (hcap' : time ≤ P.maxSteps * (P.courant * P.big)) (hcap'' : time ≤ P.maxSteps * (P.courant * P.big')) :
    ∃ n, firstCount P factor poro time E.setup.grid = some n ∧ P.minSteps ≤ n ∧ n ≤ P.maxSteps ∧
      (transportSolve (fun dt t => let q := smallTimeStep E dt t; (q.val, q.err.isNone)) time n sat).ok = true ∧
      (transportSolve (fun dt t => let q := smallTimeStep E dt t; (q.val, q.err.isNone)) time n sat).tries = [n] ∧
      InUnit E.setup.grid.length (transportSolve (fun dt t => let q := smallTimeStep E dt t; (q.val, q.err.isNone)) time n sat).sat := by
  obtain ⟨n, limit, hcnt, hn1, hn2, hlim, hdt⟩ := first_count E P factor time poro hE hfac hc0 hc1 hlo hlh hint hbig hbig' ht hcap hcap' hcap''
  have hn0 : (0 : K) < (n : K) := by exact_mod_cast lt_of_lt_of_le hlo hn1
  obtain ⟨t, hr1, hr2⟩ := runs_ok E P.big factor (time / n) limit poro hE hp hb hfac hlim (div_nonneg ht hn0.le) hdt n sat hr
  have hat := (attempt_ok_iff _ _ _ _ _).2 hr1
  have hsol : transportSolve (fun dt t => let q := smallTimeStep E dt t; (q.val, q.err.isNone)) time n sat = ⟨t, true, [n]⟩ := by
    unfold transportSolve solveLoop
    rw [hat]
  refine ⟨n, ?_, hn1, hn2, ?_, ?_, ?_⟩
  · exact hcnt
  · rw [hsol]
  · rw [hsol]
  · rw [hsol]; exact hr2

/-- **C141** The whole simulation: if every pressure solution for saturations between 0 and 1 exists and has balanced fluxes, and the time step can be covered, then all
steps are made, and all saturations that are written lie between 0 and 1. -/
theorem C141_run {F : Type} (flow : (Nat → K) → Option F) (solver : F → Solver K K) (P : Settings K) (factor stepsize : K) (poro : Nat → K) (n : Nat) (steps : Int)
    (init : Nat → K) (hfac : 0 < factor)
    (hc0 : 0 < P.courant) (hc1 : P.courant ≤ 1) (hlo : 0 < P.minSteps) (hlh : P.minSteps ≤ P.maxSteps) (hint : P.maxSteps ≤ 2147483647)
    (hbig : 0 < P.big) (hbig' : 0 < P.big') (ht : 0 ≤ stepsize)
    (hflow : ∀ s, InUnit n s → ∃ f, flow s = some f ∧ (solver f).setup.grid.length = n ∧ Ready (solver f) poro ∧ Physical (solver f).setup factor ∧
      Balanced (solver f).setup ∧ ∀ c cell, (solver f).setup.grid[c]? = some cell →
        stepsize * max (totalIn (solver f).setup.grid c) (totalOut (solver f).setup.grid c) ≤ P.maxSteps * (P.courant * (factor * (cell.volume * poro c))))
    (hcap' : stepsize ≤ P.maxSteps * (P.courant * P.big)) (hcap'' : stepsize ≤ P.maxSteps * (P.courant * P.big')) (hi : InUnit n init) :
    ∃ fin, (run flow (viscousStep P factor poro solver stepsize) n steps init).2 = some fin ∧ InUnit n fin ∧
      (run flow (viscousStep P factor poro solver stepsize) n steps init).1.length = steps.toNat ∧
      ∀ o ∈ (run flow (viscousStep P factor poro solver stepsize) n steps init).1, InUnit n o.sat ∧ 0 ≤ o.change ∧ o.change ≤ 1 := by
  have hstep : ∀ s, InUnit n s → ∃ f, flow s = some f ∧ ∃ s', viscousStep P factor poro solver stepsize f s = some s' ∧ InUnit n s' := by
    intro s hs
    obtain ⟨f, hf, hlen, hE, hp, hb, hcap⟩ := hflow s hs
    obtain ⟨m, h1, _, _, h2, _, h3⟩ := C141_solve (solver f) P factor stepsize poro s hE hp hb (by rw [hlen]; exact hs) hfac hc0 hc1 hlo hlh hint hbig hbig' ht hcap hcap' hcap''
    refine ⟨f, hf, (transportSolve (fun dt t => let q := smallTimeStep (solver f) dt t; (q.val, q.err.isNone)) stepsize m s).sat, ?_, ?_⟩
    · unfold viscousStep
      rw [h1]
      unfold explicitStep
      dsimp only at h2 ⊢
      rw [if_pos h2]
    · rw [hlen] at h3; exact h3
  have hdiff : ∀ s t : Nat → K, InUnit n s → InUnit n t → 0 ≤ maxDiff n s t ∧ maxDiff n s t ≤ 1 := by
    intro s t h1 h2
    unfold maxDiff
    have : ∀ (l : List Nat) (a : K), (∀ c ∈ l, c < n) → 0 ≤ a → a ≤ 1 → 0 ≤ l.foldl (fun m c => max m |s c - t c|) a ∧ l.foldl (fun m c => max m |s c - t c|) a ≤ 1 := by
      intro l
      induction l with
      | nil => intro a _ h0 h1; exact ⟨h0, h1⟩
      | cons c l ih =>
        intro a hl h0 h1'
        rw [List.foldl_cons]
        have hc := hl c List.mem_cons_self
        have : |s c - t c| ≤ 1 := by
          rw [abs_le]
          have := h1 c hc
          have := h2 c hc
          constructor <;> linarith
        exact ih _ (fun x hx => hl x (List.mem_cons_of_mem _ hx)) (le_max_of_le_left h0) (max_le h1' this)
    exact this _ _ (fun c hc => List.mem_range.1 hc) le_rfl zero_le_one
  unfold run
  have main : ∀ (m i : Nat) (s old : Nat → K), InUnit n s → InUnit n old →
      ∃ fin, (SimRun.loop flow (viscousStep P factor poro solver stepsize) n m i s old).2 = some fin ∧ InUnit n fin ∧
      (SimRun.loop flow (viscousStep P factor poro solver stepsize) n m i s old).1.length = m ∧
      ∀ o ∈ (SimRun.loop flow (viscousStep P factor poro solver stepsize) n m i s old).1, InUnit n o.sat ∧ 0 ≤ o.change ∧ o.change ≤ 1 := by
    intro m
    induction m with
    | zero =>
      intro i s old hs _
      refine ⟨s, rfl, hs, rfl, ?_⟩
      intro o ho
      simp [SimRun.loop] at ho
    | succ m ih =>
      intro i s old hs ho
      obtain ⟨f, hf, s', hs', hr⟩ := hstep s hs
      obtain ⟨fin, a1, a2, a3, a4⟩ := ih (i + 1) s' s' hr hr
      have hu : SimRun.loop flow (viscousStep P factor poro solver stepsize) n (m + 1) i s old =
          (⟨"testsolution-" ++ toString i, "saturation-" ++ toString i, f, s', maxDiff n s' old⟩ ::
            (SimRun.loop flow (viscousStep P factor poro solver stepsize) n m (i + 1) s' s').1,
            (SimRun.loop flow (viscousStep P factor poro solver stepsize) n m (i + 1) s' s').2) := by
        conv_lhs => unfold SimRun.loop
        rw [hf]
        dsimp only
        rw [hs']
      rw [hu]
      refine ⟨fin, a1, a2, by simp [a3], ?_⟩
      intro o hm
      rcases List.mem_cons.1 hm with rfl | hm
      · exact ⟨hr, hdiff s' old hr ho⟩
      · exact a4 o hm
  exact main _ _ _ _ hi hi

end

/-! ### The fluxes of the pressure solver -/

section
variable {K : Type} [Field K] [LinearOrder K] [IsStrictOrderedRing K]

open Verif.Hybrid

/-- **C141** Fluxes computed by the pressure solver are balanced for the transport solver: the transport grid has the cells and faces of the pressure solver with its
fluxes, the rates are the same, and a face that leads to a cell has another side, which the pressure solver treats as the same interior face or as the periodic
partner. -/
theorem C141_balanced {nc : Nat} (cells : Fin nc → Hybrid.Cell K) (N : Nat) (h : Hybrid.Consistent cells N) (he : Elliptic cells) (hc : Compatible cells)
    (x : Nat → K) (hx : Solves (linearSystem cells) N x) (S : Setup K K) (hlen : S.grid.length = nc) (face : Pos cells → Face K)
    (hfaces : ∀ i : Fin nc, facesOf S.grid i = List.ofFn fun k => face ⟨i, k⟩)
    (hflux : ∀ p, (face p).flux = outflux cells x p) (hrate : ∀ i : Fin nc, S.rate i = (cells i).src)
    (hconn : ∀ p j, neighbour S (face p) = some j → ∃ q : Pos cells, q.1.val = j ∧ q ≠ p ∧ neighbour S (face q) = some p.1.val ∧
      ((kind cells p = .interior ∧ kind cells q = .interior ∧ ∀ t, num cells t = num cells p ↔ t = p ∨ t = q) ∨
        ∃ v, kind cells p = .periodic v (num cells q))) :
    Balanced S := by
  classical
  constructor
  · -- the other side of a face
    obtain ⟨twin, htwin⟩ : ∃ twin : Pos cells → Pos cells, ∀ p, (neighbour S (face p) = none → twin p = p) ∧
        ∀ j, neighbour S (face p) = some j → (twin p).1.val = j ∧ twin p ≠ p ∧ neighbour S (face (twin p)) = some p.1.val ∧
          ((kind cells p = .interior ∧ kind cells (twin p) = .interior ∧ ∀ t, num cells t = num cells p ↔ t = p ∨ t = twin p) ∨
            ∃ v, kind cells p = .periodic v (num cells (twin p))) := by
      have : ∀ p, ∃ q, (neighbour S (face p) = none → q = p) ∧
        ∀ j, neighbour S (face p) = some j → q.1.val = j ∧ q ≠ p ∧ neighbour S (face q) = some p.1.val ∧
          ((kind cells p = .interior ∧ kind cells q = .interior ∧ ∀ t, num cells t = num cells p ↔ t = p ∨ t = q) ∨
            ∃ v, kind cells p = .periodic v (num cells q)) := by
        intro p
        cases hn : neighbour S (face p) with
        | none => exact ⟨p, fun _ => rfl, fun j hj => by cases hj⟩
        | some j =>
          obtain ⟨q, hq⟩ := hconn p j hn
          refine ⟨q, (fun hh => by cases hh), ?_⟩
          intro j' hj'
          cases hj'
          exact hq
      choose twin ht using this
      exact ⟨twin, ht⟩
    have hinv : ∀ p, twin (twin p) = p := by
      intro p
      cases hn : neighbour S (face p) with
      | none => rw [(htwin p).1 hn, (htwin p).1 hn]
      | some j =>
        obtain ⟨h1, h2, h3, h4⟩ := (htwin p).2 j hn
        obtain ⟨g1, g2, g3, g4⟩ := (htwin (twin p)).2 _ h3
        rcases h4 with ⟨k1, k2, k3⟩ | ⟨v, k1⟩
        · rcases g4 with ⟨_, _, m3⟩ | ⟨w, m1⟩
          · have hnum : num cells (twin p) = num cells p := (k3 _).2 (Or.inr rfl)
            rcases (m3 p).1 hnum.symm with e | e
            · exact absurd e.symm h2
            · exact e.symm
          · rw [k2] at m1; cases m1
        · obtain ⟨hq, _⟩ := periodic_pair h p (twin p) v k1
          rcases g4 with ⟨m1, _, _⟩ | ⟨w, m1⟩
          · rw [hq] at m1; cases m1
          · rw [hq] at m1
            injection m1 with _ m2
            exact (h.periodic p _ _ k1).2.1 _ m2.symm
    have hfl : ∀ p j, neighbour S (face p) = some j → (face (twin p)).flux = -(face p).flux := by
      intro p j hn
      obtain ⟨_, h2, _, h4⟩ := (htwin p).2 j hn
      rw [hflux, hflux]
      rcases h4 with ⟨k1, k2, k3⟩ | ⟨v, k1⟩
      · have := C38_interior h he hc x hx p (twin p) (Ne.symm h2) k1 k2 k3
        rw [this, neg_neg]
      · have := (C38_periodic h he hc x hx p (twin p) v k1).2
        rw [this, neg_neg]
    intro i hi
    rw [hlen] at hi
    rw [← Multiset.coe_eq_coe]
    -- both lists as sums over the faces of all cells
    let φ : Pos cells → Multiset (Nat × K) := fun p => if p.1.val < i ∧ neighbour S (face p) = some i then {(p.1.val, (face p).flux)} else 0
    let ψ : Pos cells → Multiset (Nat × K) := fun p => if p.1.val = i then (match lowerConn S i (face p) with | some a => {a} | none => 0) else 0
    have hfilter : ∀ (c : Nat) (l : List (Face K)), (((l.filter fun f => neighbour S f = some i).map fun f => (c, f.flux) : List (Nat × K)) : Multiset (Nat × K)) =
        (l.map fun f => if neighbour S f = some i then ({(c, f.flux)} : Multiset (Nat × K)) else 0).sum := by
      intro c l
      induction l with
      | nil => rfl
      | cons f l ih =>
        rw [List.map_cons, List.sum_cons, ← ih]
        by_cases hb : neighbour S f = some i
        · rw [List.filter_cons_of_pos (by simp [hb]), if_pos hb, List.map_cons, ← Multiset.cons_coe, Multiset.singleton_add]
        · rw [List.filter_cons_of_neg (by simp [hb]), if_neg hb, zero_add]
    have hfm : ∀ (l : List (Face K)), ((l.filterMap (lowerConn S i) : List (Nat × K)) : Multiset (Nat × K)) =
        (l.map fun f => (match lowerConn S i f with | some a => ({a} : Multiset (Nat × K)) | none => 0)).sum := by
      intro l
      induction l with
      | nil => rfl
      | cons f l ih =>
        rw [List.map_cons, List.sum_cons, ← ih]
        cases hb : lowerConn S i f with
        | none => rw [List.filterMap_cons_none hb, zero_add]
        | some a => rw [List.filterMap_cons_some hb, ← Multiset.cons_coe, Multiset.singleton_add]
    have hflat : ∀ (l : List Nat) (g : Nat → List (Nat × K)), ((l.flatMap g : List (Nat × K)) : Multiset (Nat × K)) = (l.map fun c => (g c : Multiset (Nat × K))).sum := by
      intro l g
      induction l with
      | nil => rfl
      | cons c l ih => rw [List.flatMap_cons, ← Multiset.coe_add, ih, List.map_cons, List.sum_cons]
    have hL : (((List.range i).flatMap fun c => ((facesOf S.grid c).filter fun f => neighbour S f = some i).map fun f => (c, f.flux) : List (Nat × K)) : Multiset (Nat × K)) =
        ∑ p : Pos cells, φ p := by
      rw [hflat, Fintype.sum_sigma]
      have e1 : ((List.range i).map fun c => ((((facesOf S.grid c).filter fun f => neighbour S f = some i).map fun f => (c, f.flux) : List (Nat × K)) : Multiset (Nat × K))).sum =
          ∑ c ∈ Finset.range i, ((((facesOf S.grid c).filter fun f => neighbour S f = some i).map fun f => (c, f.flux) : List (Nat × K)) : Multiset (Nat × K)) := by
        rfl
      rw [e1]
      have e2 : ∀ c : Fin nc, ∑ k, φ ⟨c, k⟩ = if c.val < i then
          ((((facesOf S.grid c).filter fun f => neighbour S f = some i).map fun f => (c.val, f.flux) : List (Nat × K)) : Multiset (Nat × K)) else 0 := by
        intro c
        by_cases hci : c.val < i
        · rw [if_pos hci, hfilter, hfaces, List.map_ofFn, List.sum_ofFn]
          apply Finset.sum_congr rfl
          intro k _
          simp [φ, hci]
        · rw [if_neg hci]
          apply Finset.sum_eq_zero
          intro k _
          simp [φ, hci]
      rw [Finset.sum_congr rfl fun c _ => e2 c]
      rw [Fin.sum_univ_eq_sum_range (fun c => if c < i then
          ((((facesOf S.grid c).filter fun f => neighbour S f = some i).map fun f => (c, f.flux) : List (Nat × K)) : Multiset (Nat × K)) else 0) nc]
      rw [← Finset.sum_filter]
      apply Finset.sum_congr _ fun _ _ => rfl
      ext c
      simp only [Finset.mem_range, Finset.mem_filter]
      omega
    have hR : (((facesOf S.grid i).filterMap (lowerConn S i) : List (Nat × K)) : Multiset (Nat × K)) = ∑ p : Pos cells, ψ p := by
      rw [hfm, hfaces ⟨i, hi⟩, List.map_ofFn, List.sum_ofFn, Fintype.sum_sigma]
      rw [Finset.sum_eq_single (⟨i, hi⟩ : Fin nc)]
      · apply Finset.sum_congr rfl
        intro k _
        simp [ψ]
      · intro c _ hci
        apply Finset.sum_eq_zero
        intro k _
        have : c.val ≠ i := fun e => hci (Fin.ext e)
        simp [ψ, this]
      · intro hh; exact absurd (Finset.mem_univ _) hh
    rw [hL, hR]
    let e : Pos cells ≃ Pos cells := ⟨twin, twin, hinv, hinv⟩
    rw [← Equiv.sum_comp e φ]
    apply Finset.sum_congr rfl
    intro p _
    show φ (twin p) = ψ p
    simp only [φ, ψ]
    cases hn : neighbour S (face p) with
    | none =>
      rw [(htwin p).1 hn, hn]
      simp [lowerConn, hn]
    | some j =>
      obtain ⟨h1, _, h3, _⟩ := (htwin p).2 j hn
      rw [h1, h3, hfl p j hn]
      simp only [lowerConn, hn, Option.some.injEq]
      by_cases hpi : p.1.val = i
      · by_cases hji : j < i
        · rw [if_pos ⟨hji, hpi⟩, if_pos hpi, if_pos hji]
        · rw [if_neg (fun hh => hji hh.1), if_pos hpi, if_neg hji]
      · rw [if_neg (fun hh => hpi hh.2), if_neg hpi]
  · intro i hi
    rw [hlen] at hi
    rw [hfaces ⟨i, hi⟩, List.map_ofFn, List.sum_ofFn, hrate ⟨i, hi⟩]
    have hL : ∑ a, ∑ b, (cells ⟨i, hi⟩).Binv a b ≠ 0 := by
      obtain ⟨h2, _, h4⟩ := he ⟨i, hi⟩
      have := h4 (fun _ => 1) ⟨⟨0, by omega⟩, one_ne_zero⟩
      unfold Mimetic.quadForm at this
      simpa using this.ne'
    rw [← C37_balance (cells ⟨i, hi⟩) hL x]
    apply Finset.sum_congr rfl
    intro k _
    exact hflux ⟨⟨i, hi⟩, k⟩

/-- **C141** The blocks of the simulator: with the sources that `initSources` gives to the two solvers, the fluxes of the pressure solver are balanced for the
transport solver. -/
theorem C141_blocks (asserts : Bool) (cs : List (SimRun.Cell K)) (inj prod : Block K) (hdi : inj.present = some true → inj.density ≠ none)
    (hdp : prod.present = some true → prod.density ≠ none) (hord : ∀ i j, Covers inj cs i → Covers prod cs j → i < j)
    (src : Sources K) (hsrc : initSources asserts cs inj prod [] = .ok src)
    (cells : Fin cs.length → Hybrid.Cell K) (hcs : ∀ i : Fin cs.length, src.rates.pressure[i.val]? = some (cells i).src) (N : Nat) (h : Hybrid.Consistent cells N)
    (he : Elliptic cells) (hc : Compatible cells) (x : Nat → K) (hx : Solves (linearSystem cells) N x) (E : Solver K K) (hlen : E.setup.grid.length = cs.length)
    (face : Pos cells → Face K) (hfaces : ∀ i : Fin cs.length, facesOf E.setup.grid i = List.ofFn fun k => face ⟨i, k⟩)
    (hflux : ∀ p, (face p).flux = outflux cells x p)
    (hconn : ∀ p j, neighbour E.setup (face p) = some j → ∃ q : Pos cells, q.1.val = j ∧ q ≠ p ∧ neighbour E.setup (face q) = some p.1.val ∧
      ((kind cells p = .interior ∧ kind cells q = .interior ∧ ∀ t, num cells t = num cells p ↔ t = p ∨ t = q) ∨
        ∃ v, kind cells p = .periodic v (num cells q))) :
    Balanced (withRates E src.rates.transport).setup := by
  obtain ⟨src', hs1, hs2, _⟩ := C140_blocks asserts cs inj prod hdi hdp hord
  rw [hsrc] at hs1
  injection hs1 with hs1
  subst hs1
  refine C141_balanced cells N h he hc x hx (withRates E src.rates.transport).setup hlen face hfaces hflux ?_ hconn
  intro i
  obtain ⟨h1, h2⟩ := hs2 i i.2
  have h3 := hcs i
  rw [h2] at h3
  exact h1.trans (Option.some.inj h3)

end

/-! ### A case -/

/-- Two cells in a row between closed boundaries: unit injection in the first and unit production in the second. -/
def exWells : Setup ℚ ℚ :=
  { exRow with
    grid := [⟨[exFace (.boundary 1) 0, exFace (.interior 1) 1], ![0, 0, 0], 1⟩,
             ⟨[exFace (.interior 0) (-1), exFace (.boundary 2) 0], ![1, 0, 0], 1⟩]
    rate := fun c => if c = 0 then 1 else -1 }

theorem exWells_faces (c : Nat) (f : Face ℚ) (hf : f ∈ facesOf exWells.grid c) :
    (c = 0 ∧ (f = exFace (.boundary 1) 0 ∨ f = exFace (.interior 1) 1)) ∨ (c = 1 ∧ (f = exFace (.interior 0) (-1) ∨ f = exFace (.boundary 2) 0)) := by
  rcases c with _ | _ | c
  · left; simpa [facesOf, exWells] using hf
  · right; simpa [facesOf, exWells] using hf
  · simp [facesOf, exWells] at hf

theorem exWells_physical : Physical exWells 1 := by
  have hu : inner (![1, 0, 0] : Vec ℚ) ![1, 0, 0] = 1 := by decide +kernel
  refine ⟨rfl, rfl, Or.inl rfl, ?_, ?_, ?_, ?_, ?_, ?_, ?_, ?_⟩
  · intro c f hf
    rcases exWells_faces c f hf with ⟨rfl, rfl | rfl⟩ | ⟨rfl, rfl | rfl⟩ <;> exact hu
  · intro p c s h0 h1
    cases p <;> simp [exWells, exRow] <;> linarith
  · intro c s h0 h1
    simp [exWells, exRow]
  · intro c s
    simp [exWells, exRow, fw]
  · intro c s h0 h1
    simp [exWells, exRow, fw]
  · intro c s h0 h1
    simp [exWells, exRow, fw]
  · intro b s h
    simp only [exWells, exRow, SatBC.dirichlet.injEq] at h
    subst h
    split <;> norm_num
  · intro c hc f hf
    rcases exWells_faces c f hf with ⟨rfl, rfl | rfl⟩ | ⟨rfl, rfl | rfl⟩ <;> simp [exFace, exWells, exRow]

theorem exWells_balanced : Balanced exWells := by
  constructor
  · intro i hi
    have : i = 0 ∨ i = 1 := by simp [exWells] at hi; omega
    rcases this with rfl | rfl <;> decide +kernel
  · intro i hi
    have : i = 0 ∨ i = 1 := by simp [exWells] at hi; omega
    rcases this with rfl | rfl <;> decide +kernel

def exWellsSolver : Solver ℚ ℚ := ⟨exWells, itersAfter 2 1, [1, 1], true, false⟩

theorem exWells_ready : Ready exWellsSolver (fun _ => 1) :=
  ⟨by decide, ⟨0, rfl⟩, by decide +kernel, by decide +kernel⟩

/-- Three steps of the length of 3/2 with at most 10 small steps each, starting without water. -/
example : ∃ fin, (run (fun _ => some ()) (viscousStep ⟨1 / 2, 1, 10, 100, 100⟩ 1 (fun _ => 1) (fun _ => exWellsSolver) (3 / 2)) 2 3 (fun _ => (0 : ℚ))).2 = some fin ∧
    InUnit 2 fin ∧ (run (fun _ => some ()) (viscousStep ⟨1 / 2, 1, 10, 100, 100⟩ 1 (fun _ => 1) (fun _ => exWellsSolver) (3 / 2)) 2 3 (fun _ => (0 : ℚ))).1.length = 3 ∧
    ∀ o ∈ (run (fun _ => some ()) (viscousStep ⟨1 / 2, 1, 10, 100, 100⟩ 1 (fun _ => 1) (fun _ => exWellsSolver) (3 / 2)) 2 3 (fun _ => (0 : ℚ))).1,
      InUnit 2 o.sat ∧ 0 ≤ o.change ∧ o.change ≤ 1 := by
  refine C141_run _ _ ⟨1 / 2, 1, 10, 100, 100⟩ 1 (3 / 2) (fun _ => 1) 2 3 _ one_pos (by norm_num) (by norm_num) (by norm_num) (by norm_num) (by norm_num) (by norm_num)
    (by norm_num) (by norm_num) ?_ (by norm_num) (by norm_num) (fun _ _ => ⟨le_rfl, zero_le_one⟩)
  intro s _
  refine ⟨(), rfl, rfl, exWells_ready, exWells_physical, exWells_balanced, ?_⟩
  intro c cell hc
  rcases c with _ | _ | c
  · injection hc with hc; subst hc; decide +kernel
  · injection hc with hc; subst hc; decide +kernel
  · simp [exWellsSolver, exWells] at hc

/-- The pressure solver for these two cells. -/
def exWellsCells : Fin 2 → Hybrid.Cell ℚ :=
  ![⟨2, ![1, 0], ![![2, 0], ![0, 2]], ![0, 0], 1, ![.neumann 0, .interior]⟩,
    ⟨2, ![0, 2], ![![2, 0], ![0, 2]], ![0, 0], -1, ![.interior, .neumann 0]⟩]

open Verif.Hybrid in
/-- Its solution has the fluxes of the transport grid, and they are balanced. -/
example : Balanced exWells := by
  refine C141_balanced exWellsCells 3 (consistent_of _ _ (by decide +kernel) (by decide +kernel) (by decide +kernel))
    (elliptic_two _ _ ⟨le_rfl, by unfold Mimetic.Symm; decide +kernel, posdef_two 2 0 2 (by norm_num) (by norm_num)⟩
      ⟨le_rfl, by unfold Mimetic.Symm; decide +kernel, posdef_two 2 0 2 (by norm_num) (by norm_num)⟩)
    (Or.inr (by decide +kernel)) (fun n => [0, 1 / 2, -1 / 2].getD n 0) (by unfold Solves; decide +kernel) exWells rfl
    (fun p => ((facesOf exWells.grid p.1)[p.2.val]?).getD (exFace (.boundary 0) 0)) (by intro i; fin_cases i <;> rfl) (by decide +kernel) (by decide +kernel) ?_
  have hn : ∀ p : Pos exWellsCells, neighbour exWells (((facesOf exWells.grid p.1)[p.2.val]?).getD (exFace (.boundary 0) 0)) =
      if p = ⟨0, (1 : Fin 2)⟩ then some 1 else if p = ⟨1, (0 : Fin 2)⟩ then some 0 else none := by decide +kernel
  intro p j hj
  simp only [hn] at hj ⊢
  split at hj
  · rename_i hp
    subst hp
    injection hj with hj
    subst hj
    exact ⟨⟨1, (0 : Fin 2)⟩, rfl, by decide +kernel, by decide +kernel, Or.inl ⟨rfl, rfl, by decide +kernel⟩⟩
  · split at hj
    · rename_i hp
      subst hp
      injection hj with hj
      subst hj
      exact ⟨⟨0, (1 : Fin 2)⟩, rfl, by decide +kernel, by decide +kernel, Or.inl ⟨rfl, rfl, by decide +kernel⟩⟩
    · cases hj

/-- Without balance nothing of this holds: with injection that the pressure solver does not see, a step at the limit of the fluxes overfills the cell. -/
theorem C141_needs_balance :
    ∃ (E : Solver ℚ ℚ) (limit : ℚ), Ready E (fun _ => 1) ∧ Physical E.setup 1 ∧ Consistent E.setup ∧ cflVelocity 100 1 (fun _ => 1) E.setup.grid = .ok limit ∧
      InUnit 2 (fun _ => (1 / 2 : ℚ)) ∧ (smallTimeStep E limit (fun _ => 1 / 2)).err ≠ none := by
  refine ⟨{ exWellsSolver with setup := { exWells with rate := fun c => if c = 0 then 3 else -1 } }, 1, ⟨by decide, ⟨0, rfl⟩, by decide +kernel, by decide +kernel⟩, ?_, exWells_balanced.cons,
    by decide +kernel, fun _ _ => ⟨by norm_num, by norm_num⟩, by decide +kernel⟩
  have h := exWells_physical
  exact ⟨h.ops, h.method, h.grav, h.normal, h.nonneg, h.pos, h.frac, h.low, h.up, h.bc, h.conn⟩

/-- **C141.** If a cell without pore volume has flow through it there is no limit for the step: no transport step is made, and the run ends without saturations. -/
theorem C141_refused {K : Type} [Field K] [LinearOrder K] [IsStrictOrderedRing K] [FloorRing K] {F : Type} (flow : (Nat → K) → Option F) (solver : F → Solver K K)
    (P : Settings K) (factor stepsize : K) (poro : Nat → K) (n : Nat) (steps : Int) (hs : 0 < steps) (init : Nat → K) (f : F) (hf : flow init = some f)
    (c : Nat) (cell : Euler.Cell K) (hc : (solver f).setup.grid[c]? = some cell) (hpv : cell.volume * poro c = 0)
    (hflux : max (totalIn (solver f).setup.grid c) (totalOut (solver f).setup.grid c) ≠ 0) :
    run flow (viscousStep P factor poro solver stepsize) n steps init = ([], none) := by
  have hstep : ∀ d, cflVelocityStep factor poro d (cell, c) = .error .thrown := by
    intro d
    have hm : max (fluxPN cell.faces).2 (fluxPN cell.faces).1 ≠ 0 := by
      rw [fluxPN_eq]
      have : facesOf (solver f).setup.grid c = cell.faces := by unfold facesOf; rw [hc]
      rw [totalIn, totalOut, this] at hflux
      exact hflux
    unfold cflVelocityStep
    dsimp only
    rw [if_neg hm, if_pos (by rw [mul_assoc, hpv, mul_zero, zero_div])]
  have hfold : ∀ (l : List (Euler.Cell K × Nat)) (d : K), (cell, c) ∈ l → ∃ e, l.foldlM (cflVelocityStep factor poro) d = .error e := by
    intro l
    induction l with
    | nil => intro d h; cases h
    | cons x l ih =>
      intro d h
      rw [List.foldlM_cons]
      rcases List.mem_cons.mp h with rfl | h
      · rw [hstep]; exact ⟨_, rfl⟩
      · cases hx : cflVelocityStep factor poro d x with
        | error e => exact ⟨e, rfl⟩
        | ok d' => exact ih d' h
  obtain ⟨e, he⟩ := hfold (solver f).setup.grid.zipIdx P.big (List.mem_zipIdx_iff_getElem?.mpr hc)
  have hv : viscousStep P factor poro solver stepsize f init = none := by
    unfold viscousStep firstCount cflVelocity
    rw [he]
  obtain ⟨k, hk⟩ : ∃ k, steps.toNat = k + 1 := ⟨steps.toNat - 1, by omega⟩
  unfold run SimRun.loop
  rw [hk]
  simp only [hf, hv]

/-- The wells example with a cell without porosity: there is flow through it. -/
example : ∃ cell, exWellsSolver.setup.grid[0]? = some cell ∧ cell.volume * (0 : ℚ) = 0 ∧
    max (totalIn exWellsSolver.setup.grid 0) (totalOut exWellsSolver.setup.grid 0) ≠ 0 := by
  refine ⟨_, rfl, mul_zero _, ?_⟩
  decide +kernel

end Verif.SimRange
