import Verif.Spec.SteadyTool
import Verif.Lemmas.ParAssembly
import Verif.Props.Control
import Verif.Props.Sampling
import Verif.Props.Capillary
import Verif.Props.RockTables
import Mathlib.Tactic.Linarith
import Mathlib.Tactic.FieldSimp
import Mathlib.Tactic.Ring

/-!
C127: the program `upscale_steadystate_implicit`.
-/

namespace Verif.SteadyTool

open Spec Verif.UInit

variable {K D : Type} [Field K] [LinearOrder K]

/-! ### The limits of the saturation -/

theorem addCell_fold (poros : List K) (sn : List Int) (ends : List (List Char × K × K)) (cells : List (Nat × K)) (h : Sound poros sn ends cells) (v : Volumes K)
    (hl : v.pore.length = sn.length) (hz : ∀ c ∈ cells, v.pore[c.1]? = some 0) :
    ∃ w, cells.foldlM (addCell poros sn ends) v = some w ∧ w.pore.sum = v.pore.sum + (cells.map (pore poros sn)).sum ∧
      w.lo = v.lo + (cells.map fun c => lowest sn ends c * pore poros sn c).sum ∧ w.hi = v.hi + (cells.map fun c => highest sn ends c * pore poros sn c).sum := by
  induction cells generalizing v with
  | nil => exact ⟨v, rfl, by simp, by simp, by simp⟩
  | cons c cells ih =>
    have hin := h.inside c (by simp)
    have hd := h.distinct
    rw [List.map_cons, List.nodup_cons] at hd
    have es : sn[c.1]? = some (sn.getD c.1 0) := by rw [List.getD_eq_getElem?_getD, List.getElem?_eq_getElem hin.1, Option.getD_some]
    have ep : poros[c.1]? = some (poros.getD c.1 0) := by rw [List.getD_eq_getElem?_getD, List.getElem?_eq_getElem hin.2, Option.getD_some]
    have h' : Sound poros sn ends cells := ⟨hd.2, fun x hx => h.inside x (by simp [hx]), h.rocks⟩
    rw [List.foldlM_cons]
    by_cases hs : 0 < sn.getD c.1 0
    · have hr := h.rocks _ (List.mem_of_getElem? es)
      have er : ends[(sn.getD c.1 0 - 1).toNat]? = some (ends.getD (sn.getD c.1 0 - 1).toNat ([], 0, 0)) := by
        rw [List.getD_eq_getElem?_getD (l := ends), List.getElem?_eq_getElem (by omega), Option.getD_some]
      have e : addCell poros sn ends v c = some ⟨v.pore.set c.1 (c.2 * poros.getD c.1 0), v.lo + lowest sn ends c * (c.2 * poros.getD c.1 0), v.hi + highest sn ends c * (c.2 * poros.getD c.1 0)⟩ := by
        unfold addCell
        simp only [es, ep, er, Option.bind_eq_bind, Option.bind_some, gt_iff_lt, hs, if_true]
        rfl
      simp only [e, Option.bind_eq_bind, Option.bind_some]
      obtain ⟨w, h1, h2, h3, h4⟩ := ih h' ⟨v.pore.set c.1 (c.2 * poros.getD c.1 0), v.lo + lowest sn ends c * (c.2 * poros.getD c.1 0), v.hi + highest sn ends c * (c.2 * poros.getD c.1 0)⟩
        (by simpa using hl) (fun x hx => by
          have : c.1 ≠ x.1 := fun e => hd.1 (e ▸ List.mem_map_of_mem hx)
          rw [List.getElem?_set_ne this]
          exact hz x (by simp [hx]))
      have hset := Verif.Asm.sum_set (K := K) id v.pore c.1 0 (c.2 * poros.getD c.1 0) (hz c (by simp))
      simp only [List.map_id, id_eq] at hset
      have hp : pore poros sn c = c.2 * poros.getD c.1 0 := if_pos hs
      refine ⟨w, h1, ?_, ?_, ?_⟩
      · rw [h2, hset, List.map_cons, List.sum_cons, hp]; ring
      · rw [h3, List.map_cons, List.sum_cons, hp]; ring
      · rw [h4, List.map_cons, List.sum_cons, hp]; ring
    · have e : addCell poros sn ends v c = some v := by
        unfold addCell
        simp only [es, Option.bind_eq_bind, Option.bind_some, gt_iff_lt, hs, if_false]
      simp only [e, Option.bind_eq_bind, Option.bind_some]
      obtain ⟨w, h1, h2, h3, h4⟩ := ih h' v hl (fun x hx => hz x (by simp [hx]))
      have hp : pore poros sn c = 0 := if_neg hs
      refine ⟨w, h1, ?_, ?_, ?_⟩
      · rw [h2, List.map_cons, List.sum_cons, hp]; ring
      · rw [h3, List.map_cons, List.sum_cons, hp]; ring
      · rw [h4, List.map_cons, List.sum_cons, hp]; ring

theorem rock_iff (e : Env K D) (aniso : Bool) (spec : List Char) (r : List Char × K × K) : rock e aniso spec = .ok r ↔ RockOf e aniso spec r := by
  obtain ⟨nm, lo, hi⟩ := r
  unfold rock RockOf
  simp only
  by_cases ho : e.opens (RockTables.nextWord spec).1 = true
  · rw [if_pos ho]
    cases aniso with
    | true =>
      simp only [if_true]
      cases he : e.extremes (RockTables.nextWord spec).1 2 1 with
      | none =>
        simp only [reduceCtorEq, false_iff]
        rintro ⟨rfl, _, h, _⟩
        rw [he] at h; cases h
      | some q =>
        obtain ⟨q1, q2⟩ := q
        simp only [Res.ok.injEq, Prod.mk.injEq]
        constructor
        · rintro ⟨rfl, rfl, rfl⟩; exact ⟨rfl, ho, he, fun h => by cases h⟩
        · rintro ⟨rfl, _, h, _⟩
          rw [he] at h; cases h; exact ⟨rfl, rfl, rfl⟩
    | false =>
      simp only [Bool.false_eq_true, if_false]
      cases he : e.extremes (RockTables.nextWord spec).1 1 4 with
      | none =>
        simp only [reduceCtorEq, false_iff]
        rintro ⟨rfl, _, h, _⟩
        rw [he] at h; cases h
      | some q =>
        obtain ⟨q1, q2⟩ := q
        by_cases hq : q1 < 0 ∨ q1 > 1
        · simp only [hq, if_true, reduceCtorEq, false_iff]
          rintro ⟨rfl, _, h, h'⟩
          rw [he] at h; cases h
          have := h' trivial
          rcases hq with hq | hq
          · exact absurd this.1 (not_le.mpr hq)
          · exact absurd this.2 (not_le.mpr hq)
        · simp only [hq, if_false, Res.ok.injEq, Prod.mk.injEq]
          push Not at hq
          constructor
          · rintro ⟨rfl, rfl, rfl⟩; exact ⟨rfl, ho, he, fun _ => hq⟩
          · rintro ⟨rfl, _, h, _⟩
            rw [he] at h; cases h; exact ⟨rfl, rfl, rfl⟩
  · rw [if_neg ho]
    simp only [reduceCtorEq, false_iff]
    rintro ⟨rfl, h, _⟩
    exact ho h

theorem res_bind_ok {α β : Type} (r : Res α) (f : α → Res β) (b : β) : r.bind f = .ok b ↔ ∃ a, r = .ok a ∧ f a = .ok b := by
  cases r <;> simp [Res.bind]

theorem rocks_iff (e : Env K D) (aniso : Bool) (n : Nat) (ls : List (List Char)) (ends : List (List Char × K × K)) :
    rocks e aniso n ls = .ok ends ↔ n ≤ (ls.filter fun l => !l.isEmpty).length ∧ List.Forall₂ (RockOf e aniso) ((ls.filter fun l => !l.isEmpty).take n) ends := by
  have hnext : ∀ ls : List (List Char), (ls.filter (fun l => !l.isEmpty) = [] → RockTables.nextSpec ls = none) ∧
      ∀ l more, ls.filter (fun l => !l.isEmpty) = l :: more → ∃ rest, RockTables.nextSpec ls = some (l, rest) ∧ rest.filter (fun l => !l.isEmpty) = more := by
    intro ls
    induction ls with
    | nil => exact ⟨fun _ => rfl, fun l more h => by cases h⟩
    | cons a ls ih =>
      cases ha : a.isEmpty with
      | true =>
        have h1 : (a :: ls).filter (fun l => !l.isEmpty) = ls.filter (fun l => !l.isEmpty) := List.filter_cons_of_neg (by simp [ha])
        have h2 : RockTables.nextSpec (a :: ls) = RockTables.nextSpec ls := by rw [RockTables.nextSpec, if_pos ha]
        rw [h1, h2]; exact ih
      | false =>
        have h1 : (a :: ls).filter (fun l => !l.isEmpty) = a :: ls.filter (fun l => !l.isEmpty) := List.filter_cons_of_pos (by simp [ha])
        have h2 : RockTables.nextSpec (a :: ls) = some (a, ls) := by rw [RockTables.nextSpec, if_neg (by simp [ha])]
        rw [h1, h2]
        refine ⟨(fun h => by cases h), fun l more h => ?_⟩
        cases h
        exact ⟨ls, rfl, rfl⟩
  induction n generalizing ls ends with
  | zero =>
    rw [rocks]
    simp only [Res.ok.injEq, Nat.zero_le, List.take_zero, List.forall₂_nil_left_iff, true_and]
    exact eq_comm
  | succ n ih =>
    rw [rocks]
    cases hf : ls.filter (fun l => !l.isEmpty) with
    | nil =>
      rw [(hnext ls).1 hf]
      simp
    | cons l more =>
      obtain ⟨rest, h1, h2⟩ := (hnext ls).2 l more hf
      rw [h1]
      simp only
      rw [res_bind_ok]
      constructor
      · rintro ⟨r, hr, h⟩
        rw [res_bind_ok] at h
        obtain ⟨l', hl', h⟩ := h
        cases h
        have hl' := (ih rest l').mp hl'
        rw [h2] at hl'
        rw [List.take_succ_cons]
        exact ⟨by simpa using hl'.1, List.Forall₂.cons ((rock_iff ..).mp hr) hl'.2⟩
      · rintro ⟨h3, h4⟩
        rw [List.take_succ_cons] at h4
        cases h4 with
        | cons hr hl =>
          refine ⟨_, (rock_iff ..).mpr hr, ?_⟩
          rw [res_bind_ok]
          exact ⟨_, (ih rest _).mpr ⟨by rw [h2]; simpa using h3, by rw [h2]; exact hl⟩, rfl⟩

/-- C127. Rocks are read exactly if a list is given that announces at least one rock and not more than it has lines; then the lines are taken in order, empty ones left out. -/
theorem C127_rocks (e : Env K D) (a : Args K) (aniso : Bool) (ends : List (List Char × K × K)) :
    getExtremeSats e (a.rockList.getD "no_list") aniso = .ok ends ↔ ∃ name n lines, a.rockList = some name ∧ name ≠ "no_list" ∧ e.list name = some (some n, lines) ∧ 1 ≤ n ∧
      n ≤ ((lines.filter fun l => !l.isEmpty).length : Int) ∧ List.Forall₂ (RockOf e aniso) ((lines.filter fun l => !l.isEmpty).take n.toNat) ends := by
  unfold getExtremeSats
  constructor
  · intro h
    by_cases h0 : a.rockList.getD "no_list" = "no_list"
    · rw [if_pos h0] at h; cases h
    · rw [if_neg h0] at h
      cases hr : a.rockList with
      | none => rw [hr] at h0; exact absurd rfl h0
      | some name =>
        rw [hr] at h h0
        simp only [Option.getD_some] at h h0
        cases hl : e.list name with
        | none => rw [hl] at h; cases h
        | some q =>
          obtain ⟨count, lines⟩ := q
          rw [hl] at h
          cases count with
          | none => cases h
          | some n =>
            simp only at h
            by_cases hn : 1 ≤ n
            · rw [if_pos hn, rocks_iff] at h
              exact ⟨name, n, lines, rfl, h0, hl, hn, by have := h.1; omega, h.2⟩
            · rw [if_neg hn] at h; cases h
  · rintro ⟨name, n, lines, h1, h2, h3, h4, h5, h6⟩
    rw [h1, Option.getD_some, if_neg h2, h3]
    simp only [h4, if_true]
    rw [rocks_iff]
    exact ⟨by omega, h6⟩

omit [Field K] [LinearOrder K] in
/-- C127. The rock of a cell is that of `SATNUM`, without it that of `ROCKTYPE`, without both the first. -/
theorem C127_rocknumbers (e : Env K D) (d : D) :
    (∀ l, e.satnum d = some l → satnums e d = l) ∧ (∀ l, e.satnum d = none → e.rocktype d = some l → satnums e d = l) ∧
    (e.satnum d = none → e.rocktype d = none → satnums e d = List.replicate (e.poros d).length 1) := by
  refine ⟨fun l h => ?_, fun l h h' => ?_, fun h h' => ?_⟩
  · unfold satnums; rw [h]
  · unfold satnums; rw [h]; simp only; rw [h']
  · unfold satnums; rw [h]; simp only; rw [h']

theorem foldl_sum (l : List K) (a : K) : l.foldl (· + ·) a = a + l.sum := by
  induction l generalizing a with
  | nil => simp
  | cons x l ih => rw [List.foldl_cons, ih, List.sum_cons]; ring

/-- C127. The limits of the saturation are those of the rocks averaged with the pore volumes, and the pore volume is the sum over the cells with rock. -/
theorem C127_limits (poros : List K) (sn : List Int) (ends : List (List Char × K × K)) (cells : List (Nat × K)) (h : Sound poros sn ends cells)
    (hv : (cells.map (pore poros sn)).sum ≠ 0) : ∃ lo hi, limitsOf poros sn ends cells = .ok (lo, hi, (cells.map (pore poros sn)).sum) ∧
      lo * (cells.map (pore poros sn)).sum = (cells.map fun c => lowest sn ends c * pore poros sn c).sum ∧
      hi * (cells.map (pore poros sn)).sum = (cells.map fun c => highest sn ends c * pore poros sn c).sum := by
  obtain ⟨w, h1, h2, h3, h4⟩ := addCell_fold poros sn ends cells h ⟨List.replicate sn.length 0, 0, 0⟩ (by simp) (fun c hc => by
    rw [List.getElem?_replicate, if_pos (h.inside c hc).1])
  have hp : w.pore.foldl (· + ·) 0 = (cells.map (pore poros sn)).sum := by
    rw [foldl_sum, h2]; simp
  refine ⟨w.lo / (cells.map (pore poros sn)).sum, w.hi / (cells.map (pore poros sn)).sum, ?_, ?_, ?_⟩
  · unfold limitsOf
    rw [h1]
    simp only [hp, Upscale.quot, if_neg hv]
  · rw [div_mul_cancel₀ _ hv, h3]; simp
  · rw [div_mul_cancel₀ _ hv, h4]; simp

/-- C127. If volumes and porosities are nonnegative, the limits are between those of the rocks. -/
theorem C127_bounds [IsStrictOrderedRing K] (poros : List K) (sn : List Int) (ends : List (List Char × K × K)) (cells : List (Nat × K)) (h : Sound poros sn ends cells)
    (hφ : ∀ φ ∈ poros, 0 ≤ φ) (hvol : ∀ c ∈ cells, 0 ≤ c.2) (hv : (cells.map (pore poros sn)).sum ≠ 0) (a b : K)
    (hab : ∀ c ∈ cells, a ≤ lowest sn ends c ∧ lowest sn ends c ≤ highest sn ends c ∧ highest sn ends c ≤ b) :
    ∃ lo hi, limitsOf poros sn ends cells = .ok (lo, hi, (cells.map (pore poros sn)).sum) ∧ a ≤ lo ∧ lo ≤ hi ∧ hi ≤ b := by
  obtain ⟨lo, hi, h1, h2, h3⟩ := C127_limits poros sn ends cells h hv
  have hp : ∀ c ∈ cells, 0 ≤ pore poros sn c := by
    intro c hc
    unfold pore
    split
    · refine mul_nonneg (hvol c hc) (hφ _ ?_)
      rw [List.getD_eq_getElem?_getD, List.getElem?_eq_getElem (h.inside c hc).2, Option.getD_some]
      exact List.getElem_mem _
    · exact le_refl _
  have hle : ∀ f g : Nat × K → K, (∀ c ∈ cells, f c ≤ g c) → (cells.map fun c => f c * pore poros sn c).sum ≤ (cells.map fun c => g c * pore poros sn c).sum := by
    intro f g hfg
    exact List.sum_le_sum fun c hc => mul_le_mul_of_nonneg_right (hfg c hc) (hp c hc)
  have hconst : ∀ x : K, (cells.map fun c => x * pore poros sn c).sum = x * (cells.map (pore poros sn)).sum := fun x => List.sum_map_mul_left cells (pore poros sn) x
  have hpos : 0 < (cells.map (pore poros sn)).sum := lt_of_le_of_ne (List.sum_nonneg (by
    intro x hx
    obtain ⟨c, hc, rfl⟩ := List.mem_map.mp hx
    exact hp c hc)) (Ne.symm hv)
  refine ⟨lo, hi, h1, ?_, ?_, ?_⟩
  · have := hle (fun _ => a) (lowest sn ends) (fun c hc => (hab c hc).1)
    rw [hconst, ← h2] at this
    exact le_of_mul_le_mul_right this hpos
  · have := hle (lowest sn ends) (highest sn ends) (fun c hc => (hab c hc).2.1)
    rw [← h2, ← h3] at this
    exact le_of_mul_le_mul_right this hpos
  · have := hle (highest sn ends) (fun _ => b) (fun c hc => (hab c hc).2.2)
    rw [hconst, ← h3] at this
    exact le_of_mul_le_mul_right this hpos

/-! ### The program -/

theorem bind_ok {α β : Type} {x : Res α} {f : α → Res β} {b : β} (h : x.bind f = .ok b) : ∃ a, x = .ok a ∧ f a = .ok b := by
  cases x <;> first | exact ⟨_, rfl, h⟩ | cases h

theorem ofOption_ok {α : Type} {e : Res α} (he : ∀ a, e ≠ .ok a) {o : Option α} {a : α} (h : Res.ofOption e o = .ok a) : o = some a := by
  cases o with
  | none => exact absurd h (he a)
  | some x =>
    simp only [Res.ofOption, Res.ok.injEq] at h
    rw [h]

/-- A run that ends well, taken apart. -/
theorem main_inv (e : Env K D) (a : Args K) (c : Computed K D) (p : Printed K) (h : main e a = .ok (c, p)) :
    ∃ file d dir bc n ends lo hi pv k, a.grid = some file ∧ e.parse file = some d ∧ e.complete d = true ∧ direction (a.flowdir.getD "x") = .ok dir ∧
      condition (a.bc.getD "fixed") = .ok (bc, n) ∧ getExtremeSats e (a.rockList.getD "no_list") false = .ok ends ∧
      largest (satnums e d) = some (ends.length : Int) ∧ limitsOf (e.poros d) (satnums e d) ends (e.cells d) = .ok (lo, hi, pv) ∧
      Control.linRange (a.numSats.getD 10) lo hi = some c.sats ∧
      Control.expRange e.exp e.log (a.numDrops.getD 10) (a.minDrop.getD 100) (a.maxDrop.getD 1000000) = some c.drops ∧
      steadyInit e.parse e.mD e.useJ { a.solver with bct := some bc } Base.new UInit.Steady.new false (1 / 1000, 3 / 1000) (10139 / 10, 8347 / 10) = some c.state ∧
      e.perm c.state = some k ∧
      Control.satLoop (e.limits c.state) (start e c.state (a.startFromCl.getD true)) (fun s p l => e.solve c.state dir k s p l) (c.sats.map fun s => (s, c.drops)) = (c.rows, true) ∧
      p = ⟨⟨file, e.numCells c.state, pv, e.porosity c.state, a.rockList.getD "no_list", ends.map Prod.fst, a.bc.getD "fixed", a.flowdir.getD "x", a.numSats.getD 10,
        a.numDrops.getD 10, a.tension.getD 11, fun i j => k i j * (1 / e.mD)⟩, []⟩ := by
  unfold main at h
  obtain ⟨file, h1, h⟩ := bind_ok h
  obtain ⟨d, h2, h⟩ := bind_ok h
  by_cases hc : e.complete d = true
  · rw [if_pos hc] at h
    obtain ⟨dir, h3, h⟩ := bind_ok h
    obtain ⟨⟨bc, n⟩, h4, h⟩ := bind_ok h
    obtain ⟨ends, h5, h⟩ := bind_ok h
    obtain ⟨m, h6, h⟩ := bind_ok h
    by_cases hn : m = (ends.length : Int)
    · rw [if_pos hn] at h
      obtain ⟨⟨lo, hi, pv⟩, h7, h⟩ := bind_ok h
      obtain ⟨⟨c', k⟩, h8, h⟩ := bind_ok h
      simp only [Res.ok.injEq, Prod.mk.injEq] at h
      obtain ⟨rfl, rfl⟩ := h
      unfold compute at h8
      obtain ⟨sats, g1, h8⟩ := bind_ok h8
      obtain ⟨drops, g2, h8⟩ := bind_ok h8
      obtain ⟨st, g3, h8⟩ := bind_ok h8
      obtain ⟨k', g4, h8⟩ := bind_ok h8
      simp only at h8
      split at h8
      · rename_i hr
        simp only [Res.ok.injEq, Prod.mk.injEq] at h8
        obtain ⟨rfl, rfl⟩ := h8
        refine ⟨file, d, dir, bc, n, ends, lo, hi, pv, k', ofOption_ok (fun _ h => (by cases h)) h1, ofOption_ok (fun _ h => (by cases h)) h2, hc, h3, h4, h5, ?_, h7,
          ofOption_ok (fun _ h => (by cases h)) g1, ofOption_ok (fun _ h => (by cases h)) g2, ofOption_ok (fun _ h => (by cases h)) g3, ofOption_ok (fun _ h => (by cases h)) g4, ?_, rfl⟩
        · rw [← hn]; exact ofOption_ok (fun _ h => (by cases h)) h6
        · exact Prod.ext rfl hr
      · cases h8
    · rw [if_neg hn] at h; cases h
  · rw [if_neg hc] at h; cases h

/-- C127. A run that ends well samples `num_sats` saturations, equally spaced between the limits of the model, and `num_pdrops` pressure drops, and makes one computation
for each pair, in this order. Each starts from the saturations that the last successful computation with the same saturation left, or from the initial ones, both limited. -/
theorem C127_sampling [IsStrictOrderedRing K] (e : Env K D) (a : Args K) (c : Computed K D) (p : Printed K) (h : main e a = .ok (c, p))
    (hl : ∀ st l, e.limits st (e.limits st l) = e.limits st l) :
    ∃ file d ends lo hi pv dir k, a.grid = some file ∧ e.parse file = some d ∧ getExtremeSats e (a.rockList.getD "no_list") false = .ok ends ∧
      limitsOf (e.poros d) (satnums e d) ends (e.cells d) = .ok (lo, hi, pv) ∧ direction (a.flowdir.getD "x") = .ok dir ∧ e.perm c.state = some k ∧
      Verif.Spec.IsRange c.sats (a.numSats.getD 10).toNat lo hi ∧ c.drops.length = (a.numDrops.getD 10).toNat ∧
      c.rows.length = c.sats.length * c.drops.length ∧
      ∀ (i : Nat) (s : K), c.sats[i]? = some s → ∃ outs : List (Control.Outcome (K := K) (List K) (Tensor K)), outs.length = c.drops.length ∧
        ∀ (j : Nat) (o : Control.Outcome (K := K) (List K) (Tensor K)), outs[j]? = some o → ∃ q, c.drops[j]? = some q ∧
          e.solve c.state dir k s q (e.limits c.state (Verif.Spec.lastGood (start e c.state (a.startFromCl.getD true) s) (outs.take j))) = some o ∧
          c.rows[i * c.drops.length + j]? = some (q, o.usat, o.lambda, o.success) := by
  obtain ⟨file, d, dir, bc, n, ends, lo, hi, pv, k, h1, h2, -, h3, h4, h5, h6, h7, h8, h9, h10, h11, h12, -⟩ := main_inv e a c p h
  have hrange : Verif.Spec.IsRange c.sats (a.numSats.getD 10).toNat lo hi := by
    by_cases hn : 0 ≤ a.numSats.getD 10
    · obtain ⟨l, e1, e2, -⟩ := Control.C26_linear_range (a.numSats.getD 10) hn lo hi
      rw [h8] at e1
      rw [Option.some.inj e1]; exact e2
    · unfold Control.linRange at h8
      rw [if_pos (by omega)] at h8; cases h8
  have hdrops : c.drops.length = (a.numDrops.getD 10).toNat := by
    unfold Control.expRange at h9
    split at h9
    · cases h9
    · rw [← Option.some.inj h9]; simp
  set solve := fun s q l => e.solve c.state dir k s q l with hsolve
  set st := start e c.state (a.startFromCl.getD true) with hst
  have hrows : ∀ (sats : List K) (rows : List (K × K × (Tensor K × Tensor K) × Bool)), Control.satLoop (e.limits c.state) st solve (sats.map fun s => (s, c.drops)) = (rows, true) →
      rows.length = sats.length * c.drops.length ∧ ∀ (i : Nat) (s : K), sats[i]? = some s → ∃ outs : List (Control.Outcome (K := K) (List K) (Tensor K)), outs.length = c.drops.length ∧
        ∀ (j : Nat) (o : Control.Outcome (K := K) (List K) (Tensor K)), outs[j]? = some o → ∃ q, c.drops[j]? = some q ∧
          solve s q (e.limits c.state (Verif.Spec.lastGood (st s) (outs.take j))) = some o ∧ rows[i * c.drops.length + j]? = some (q, o.usat, o.lambda, o.success) := by
    intro sats
    induction sats with
    | nil =>
      intro rows hr
      simp only [List.map_nil, Control.satLoop, Prod.mk.injEq] at hr
      rw [← hr.1]
      exact ⟨by simp, fun i s hs => by simp at hs⟩
    | cons s0 sats ih =>
      intro rows hr
      rw [List.map_cons, Control.satLoop] at hr
      obtain ⟨outs, o1, o2, o3, o4, -⟩ := Control.C64_pressure_drops (e.limits c.state) (hl c.state) (solve s0) c.drops (st s0)
      by_cases hb : (Control.pdropLoop (e.limits c.state) (solve s0) c.drops (st s0)).2 = true
      · simp only [hb, if_true, Prod.mk.injEq] at hr
        obtain ⟨r1, r2⟩ := hr
        have hlen := o4.mp hb
        obtain ⟨i1, i2⟩ := ih _ (Prod.ext rfl r2)
        refine ⟨?_, ?_⟩
        · rw [← r1, List.length_append, o1, hlen, i1, List.length_cons]; ring
        · intro i s hs
          cases i with
          | zero =>
            simp only [List.getElem?_cons_zero, Option.some.injEq] at hs
            subst hs
            refine ⟨outs, hlen, fun j o hj => ?_⟩
            obtain ⟨q, q1, q2, q3⟩ := o3 j o hj
            have hjl : j < outs.length := by
              by_contra hge
              rw [List.getElem?_eq_none (by omega)] at hj; cases hj
            refine ⟨q, q1, q2, ?_⟩
            rw [← r1, Nat.zero_mul, Nat.zero_add, List.getElem?_append_left (by omega)]
            exact q3
          | succ i =>
            simp only [List.getElem?_cons_succ] at hs
            obtain ⟨outs', p1, p2⟩ := i2 i s hs
            refine ⟨outs', p1, fun j o hj => ?_⟩
            obtain ⟨q, q1, q2, q3⟩ := p2 j o hj
            refine ⟨q, q1, q2, ?_⟩
            have : (i + 1) * c.drops.length + j = c.drops.length + (i * c.drops.length + j) := by ring
            rw [this, ← r1, List.getElem?_append_right (by omega)]
            rw [show c.drops.length + (i * c.drops.length + j) - (Control.pdropLoop (e.limits c.state) (solve s0) c.drops (st s0)).1.length = i * c.drops.length + j by omega]
            exact q3
      · simp only [hb, Bool.false_eq_true, if_false, Prod.mk.injEq] at hr
        exact absurd hr.2 (by decide)
  obtain ⟨r1, r2⟩ := hrows c.sats c.rows h12
  exact ⟨file, d, ends, lo, hi, pv, dir, k, h1, h2, h5, h7, h3, h11, hrange, hdrops, r1, r2⟩

omit [LinearOrder K] in
/-- C127. The initial saturations: a value for every cell; those of the capillary limit if these are asked for and exist, the same saturation everywhere if not. -/
theorem C127_start (e : Env K D) (st : State K D) (s : K) :
    (∀ b, (start e st b s).length = e.numCells st) ∧ start e st false s = List.replicate (e.numCells st) s ∧
    (e.capLimit st s = none → start e st true s = List.replicate (e.numCells st) s) ∧
    (∀ l, e.capLimit st s = some l → l.length = e.numCells st → start e st true s = l) := by
  have hlen : ∀ (l : List K) n x, (resize l n x).length = n := by
    intro l n x; simp [resize]; omega
  refine ⟨fun b => hlen _ _ _, by simp [start, resize], fun h => ?_, fun l h hl => ?_⟩
  · simp [start, h, resize]
  · simp [start, h, resize, hl]

/-- C127. With a readable deck and rock list, the usage is printed exactly if the deck lacks a keyword, the direction or the conditions are unknown, or the number of rocks is not
the largest rock number. -/
theorem C127_usage (e : Env K D) (a : Args K) (file : String) (d : D) (ends : List (List Char × K × K)) (n : Int) (h1 : a.grid = some file) (h2 : e.parse file = some d)
    (h3 : getExtremeSats e (a.rockList.getD "no_list") false = .ok ends) (h4 : largest (satnums e d) = some n) :
    main e a = .usage ↔ e.complete d = false ∨ a.flowdir.getD "x" ∉ ["x", "y", "z"] ∨ a.bc.getD "fixed" ∉ ["fixed", "f", "linear", "l", "periodic", "p"] ∨ n ≠ (ends.length : Int) := by
  have hdir : (∃ x, direction (a.flowdir.getD "x") = .ok x ∧ a.flowdir.getD "x" ∈ ["x", "y", "z"]) ∨ (direction (a.flowdir.getD "x") = .usage ∧ a.flowdir.getD "x" ∉ ["x", "y", "z"]) := by
    generalize a.flowdir.getD "x" = s
    unfold direction
    by_cases e1 : s = "x"
    · exact Or.inl ⟨0, by simp [e1], by simp [e1]⟩
    · by_cases e2 : s = "y"
      · exact Or.inl ⟨1, by simp [e2], by simp [e2]⟩
      · by_cases e3 : s = "z"
        · exact Or.inl ⟨2, by simp [e3], by simp [e3]⟩
        · exact Or.inr ⟨by simp [e1, e2, e3], by simp [e1, e2, e3]⟩
  have hbc : (∃ x, condition (a.bc.getD "fixed") = .ok x ∧ a.bc.getD "fixed" ∈ ["fixed", "f", "linear", "l", "periodic", "p"]) ∨
      (condition (a.bc.getD "fixed") = .usage ∧ a.bc.getD "fixed" ∉ ["fixed", "f", "linear", "l", "periodic", "p"]) := by
    generalize a.bc.getD "fixed" = s
    unfold condition
    by_cases e1 : s = "fixed" ∨ s = "f"
    · exact Or.inl ⟨(0, 3), if_pos e1, by rcases e1 with e | e <;> simp [e]⟩
    · by_cases e2 : s = "periodic" ∨ s = "p"
      · exact Or.inl ⟨(2, 6), by rw [if_neg e1, if_pos e2], by rcases e2 with e | e <;> simp [e]⟩
      · by_cases e3 : s = "linear" ∨ s = "l"
        · exact Or.inl ⟨(1, 9), by rw [if_neg e1, if_neg e2, if_pos e3], by rcases e3 with e | e <;> simp [e]⟩
        · refine Or.inr ⟨by rw [if_neg e1, if_neg e2, if_neg e3], ?_⟩
          simp only [not_or] at e1 e2 e3
          simp [e1, e2, e3]
  have hlim : limitsOf (e.poros d) (satnums e d) ends (e.cells d) ≠ .usage := by
    unfold limitsOf
    split
    · simp
    · simp only; split <;> simp
  have hcomp : ∀ x y lo hi, compute e a x y lo hi ≠ .usage := by
    intro x y lo hi
    unfold compute
    cases Control.linRange (a.numSats.getD 10) lo hi with
    | none => simp [Res.ofOption, Res.bind]
    | some sats =>
      simp only [Res.ofOption, Res.bind]
      cases Control.expRange e.exp e.log (a.numDrops.getD 10) (a.minDrop.getD 100) (a.maxDrop.getD 1000000) with
      | none => simp
      | some drops =>
        simp only
        cases steadyInit e.parse e.mD e.useJ { a.solver with bct := some y } Base.new UInit.Steady.new false (1 / 1000, 3 / 1000) (10139 / 10, 8347 / 10) with
        | none => simp
        | some st =>
          simp only
          cases e.perm st with
          | none => simp
          | some k => simp only; split <;> simp
  unfold main
  simp only [h1, h2, Res.ofOption, Res.bind]
  by_cases hc : e.complete d = true
  · simp only [hc, if_true, Bool.true_eq_false, false_or]
    rcases hdir with ⟨x, x1, x2⟩ | ⟨x1, x2⟩
    · simp only [x1, x2, not_true_eq_false, false_or]
      rcases hbc with ⟨y, y1, y2⟩ | ⟨y1, y2⟩
      · simp only [y1, y2, not_true_eq_false, false_or, h3, h4]
        by_cases hn : n = (ends.length : Int)
        · simp only [hn, if_true, ne_eq, not_true_eq_false, iff_false]
          cases hL : limitsOf (e.poros d) (satnums e d) ends (e.cells d) with
          | usage => exact absurd hL hlim
          | ok lim =>
            simp only
            cases hC : compute e a x y.1 lim.1 lim.2.1 with
            | usage => exact absurd hC (hcomp _ _ _ _)
            | _ => simp
          | _ => simp
        · simp [hn]
      · simp [y1, y2]
    · simp [x1, x2]
  · simp [hc]

/-! ### Violations -/

/-- C127, violated: the results are not written anywhere. Whatever the computations give, the report is the same, and no files are written, also if `outputWater` and
`outputOil` name some. -/
theorem C127_violated_results (e : Env K D) (a : Args K) (solve' : State K D → Fin 3 → Tensor K → K → K → List K → Option (Control.Outcome (K := K) (List K) (Tensor K)))
    (c c' : Computed K D) (p p' : Printed K) (h : main e a = .ok (c, p)) (h' : main { e with solve := solve' } a = .ok (c', p')) : p' = p ∧ p.files = [] := by
  obtain ⟨file, d, dir, bc, n, ends, lo, hi, pv, k, h1, h2, -, h3, h4, h5, h6, h7, h8, h9, h10, h11, h12, hp⟩ := main_inv e a c p h
  obtain ⟨file', d', dir', bc', n', ends', lo', hi', pv', k', g1, g2, -, g3, g4, g5, g6, g7, g8, g9, g10, g11, g12, hp'⟩ := main_inv _ a c' p' h'
  have e1 : file' = file := Option.some.inj (g1.symm.trans h1)
  subst e1
  have e2 : d' = d := Option.some.inj (g2.symm.trans h2)
  subst e2
  have hrock : ∀ b spec, rock { e with solve := solve' } b spec = rock e b spec := fun _ _ => rfl
  have hrocks : ∀ b n ls, rocks { e with solve := solve' } b n ls = rocks e b n ls := by
    intro b n
    induction n with
    | zero => intro ls; rfl
    | succ n ih =>
      intro ls
      unfold rocks
      cases RockTables.nextSpec ls with
      | none => rfl
      | some x => simp only [hrock, ih]
  have hget : getExtremeSats { e with solve := solve' } (a.rockList.getD "no_list") false = getExtremeSats e (a.rockList.getD "no_list") false := by
    unfold getExtremeSats
    simp only [hrocks]
  rw [hget, h5] at g5
  have e3 : ends = ends' := Res.ok.inj g5
  subst e3
  have e4 := Res.ok.inj (h7.symm.trans g7)
  simp only [Prod.mk.injEq] at e4
  obtain ⟨-, -, e4⟩ := e4
  subst e4
  have e5 := Res.ok.inj (h4.symm.trans g4)
  simp only [Prod.mk.injEq] at e5
  obtain ⟨e5, -⟩ := e5
  subst e5
  have e6 : c.state = c'.state := Option.some.inj (h10.symm.trans g10)
  rw [← e6] at g11
  have e7 : k = k' := Option.some.inj (h11.symm.trans g11)
  subst e7
  rw [hp, hp', e6]
  exact ⟨rfl, rfl⟩

/-- C127, violated: unless the parameter `fileformat` is given as well, the upscaling is not done on the grid of the deck that `gridfilename` names but on a box, by default one cell. -/
theorem C127_violated_grid (e : Env K D) (a : Args K) (c : Computed K D) (p : Printed K) (h : main e a = .ok (c, p)) (hf : a.solver.format = none) :
    c.state.2.2.grid = .box (a.solver.nx.getD 1, a.solver.ny.getD 1, a.solver.nz.getD 1) (a.solver.dx.getD 1, a.solver.dy.getD 1, a.solver.dz.getD 1) := by
  obtain ⟨file, d, dir, bc, n, ends, lo, hi, pv, k, h1, h2, -, h3, h4, h5, h6, h7, h8, h9, h10, -⟩ := main_inv e a c p h
  have hs : ∀ p : Params K, (supported bc p).format = p.format ∧ (supported bc p).nx = p.nx ∧ (supported bc p).ny = p.ny ∧ (supported bc p).nz = p.nz ∧
      (supported bc p).dx = p.dx ∧ (supported bc p).dy = p.dy ∧ (supported bc p).dz = p.dz := by
    intro p
    unfold supported
    by_cases x : bc = 1
    · subst x; simp
    · by_cases y : bc = 2
      · subst y; simp
      · simp [x, y]
  obtain ⟨q, hq⟩ : ∃ q, q = { a.solver with bct := some bc } := ⟨_, rfl⟩
  have q0 : q.bct = some bc := by rw [hq]
  have q1 : q.format = none := by rw [hq]; exact hf
  have q2 : q.nx = a.solver.nx ∧ q.ny = a.solver.ny ∧ q.nz = a.solver.nz ∧ q.dx = a.solver.dx ∧ q.dy = a.solver.dy ∧ q.dz = a.solver.dz := by
    rw [hq]; exact ⟨rfl, rfl, rfl, rfl, rfl, rfl⟩
  obtain ⟨s1, s2, s3, s4, s5, s6, s7⟩ := hs q
  obtain ⟨t2, t3, t4, t5, t6, t7⟩ := q2
  rw [← hq] at h10
  unfold steadyInit initImpl setupGridAndProps at h10
  simp only [q0, s1, q1, Option.bind_eq_bind, Option.bind_some, Option.getD_none] at h10
  rw [if_neg (by decide), if_pos trivial] at h10
  simp only [Option.bind_some, Option.some.injEq] at h10
  rw [← h10]
  simp only [s2, s3, s4, s5, s6, s7, t2, t3, t4, t5, t6, t7]

/-- C127, violated: the option `anisotropicrocks` of the usage has no effect. -/
theorem C127_violated_aniso (e : Env K D) (a : Args K) (b : Option Bool) : main e { a with aniso := b } = main e a := rfl

/-! ### Instances -/

/-- A model with two cells of two rocks; the computation returns what it gets. -/
def exEnv : Env ℚ Unit where
  parse f := if f = "grid" then some () else none
  complete _ := true
  poros _ := [1 / 5, 3 / 10]
  satnum _ := some [1, 2]
  rocktype _ := none
  cells _ := [(0, 3), (1, 2)]
  list f := if f = "rocks" then some (some 2, ["".toList, "a.txt".toList, "b.txt".toList]) else if f = "short" then some (some 3, ["".toList, "a.txt".toList, "b.txt".toList])
    else if f = "data/rocks" then some (some 1, ["".toList, "c.txt".toList]) else none
  opens f := f = "a.txt".toList || f = "b.txt".toList || f = "data/c.txt".toList
  extremes f x y := if x = 1 ∧ y = 4 then (if f = "a.txt".toList then some (1 / 10, 9 / 10) else some (2 / 10, 8 / 10)) else none
  exp x := x
  log x := x
  mD := 1 / 1000
  useJ := true
  numCells _ := 2
  perm _ := some fun i j => if i = j then 1 else 0
  porosity _ := 1 / 4
  capLimit _ s := some [s, s]
  limits _ l := l
  solve _ _ _ s p l := some ⟨(fun _ _ => s, fun _ _ => p), l.map (· + 1), s, true⟩

/-- Parameters without any choice. -/
def exSolver : Params ℚ := ⟨none, none, none, none, none, none, none, none, none, none, none, none, none, none, none, none, none, none, none, none, none, none, none, none, none,
  none, none, none, none, none, none, none, none, none, none, none, none, none, none, none, none, none, none, none, none⟩

def exArgs : Args ℚ := ⟨some "grid", some "rocks", none, none, some 3, some 2, none, none, none, none, none, none, none, exSolver⟩

/-- What a result shows. -/
def shown : Res (Computed ℚ Unit × Printed ℚ) → Option (List ℚ × List ℚ × List (ℚ × ℚ) × ℚ)
  | .ok (c, p) => some (c.sats, c.drops, c.rows.map fun r => (r.1, r.2.1), p.report.poreVolume)
  | _ => none

example : shown (main exEnv exArgs) = some ([3 / 20, 1 / 2, 17 / 20], [100, 1000000],
    [(100, 3 / 20), (1000000, 3 / 20), (100, 1 / 2), (1000000, 1 / 2), (100, 17 / 20), (1000000, 17 / 20)], 6 / 5) := by decide +kernel

theorem exEnv_sound : Sound (exEnv.poros ()) [1, 2] [("a.txt".toList, 1 / 10, 9 / 10), ("b.txt".toList, 2 / 10, 8 / 10)] (exEnv.cells ()) :=
  ⟨by decide +kernel, by decide +kernel, by decide +kernel⟩

example := C127_limits _ _ _ _ exEnv_sound (by decide +kernel)
example := C127_bounds _ _ _ _ exEnv_sound (by decide +kernel) (by decide +kernel) (by decide +kernel) (1 / 10) (9 / 10) (by decide +kernel)

/-- The program ends well here. -/
theorem ex_ok : ∃ c p, main exEnv exArgs = .ok (c, p) := by
  have h : (match main exEnv exArgs with | .ok _ => true | _ => false) = true := by decide +kernel
  cases hm : main exEnv exArgs with
  | ok r => exact ⟨r.1, r.2, rfl⟩
  | _ => rw [hm] at h; cases h

example : ∃ c p, main exEnv exArgs = .ok (c, p) ∧ c.rows.length = c.sats.length * c.drops.length := by
  obtain ⟨c, p, h⟩ := ex_ok
  obtain ⟨_, _, _, _, _, _, _, _, _, _, _, _, _, _, _, _, hr, _⟩ := C127_sampling exEnv exArgs c p h (fun _ _ => rfl)
  exact ⟨c, p, h, hr⟩

example : main exEnv { exArgs with bc := some "open" } = .usage :=
  (C127_usage exEnv { exArgs with bc := some "open" } "grid" () [("a.txt".toList, 1 / 10, 9 / 10), ("b.txt".toList, 2 / 10, 8 / 10)] 2 rfl rfl (by decide +kernel) (by decide)).mpr
    (Or.inr (Or.inr (Or.inl (by decide))))

/-- C127, violated: a rock list with fewer rocks than it announces is read for ever. -/
theorem C127_violated_endless : main exEnv { exArgs with rockList := some "short" } = .endless := by
  have h : (match main exEnv { exArgs with rockList := some "short" } with | .endless => true | _ => false) = true := by decide +kernel
  cases hm : main exEnv { exArgs with rockList := some "short" } with
  | endless => rfl
  | _ => rw [hm] at h; cases h

/-- C127, violated: the names in the rock list are relative to the working directory when the limits are computed, but relative to the directory of the list when the upscaler reads
the rocks. With a list in another directory one of the two fails. -/
theorem C127_violated_directory : getExtremeSats exEnv "data/rocks" false = .thrown ∧
    (match exEnv.list "data/rocks" with
      | some (n, lines) => RockTables.readRocks (fun dir spec => if exEnv.opens (dir ++ (RockTables.nextWord spec).1) then .ok () else .error .open) "data/rocks".toList n lines = .ok [()]
      | none => False) := by
  constructor
  · decide +kernel
  · rfl

/-- C127, violated, an instance: other computations, the same report. -/
example : ∃ c c' p p', main exEnv exArgs = .ok (c, p) ∧ main { exEnv with solve := fun _ _ _ s p l => some ⟨(fun _ _ => 2 * s, fun _ _ => p), l, 7, true⟩ } exArgs = .ok (c', p') ∧
    c.rows.map (·.2.1) ≠ c'.rows.map (·.2.1) ∧ p' = p := by
  obtain ⟨c, p, h⟩ := ex_ok
  have h2 : shown (main { exEnv with solve := fun _ _ _ s p l => some ⟨(fun _ _ => 2 * s, fun _ _ => p), l, 7, true⟩ } exArgs) = some ([3 / 20, 1 / 2, 17 / 20], [100, 1000000],
    [(100, 7), (1000000, 7), (100, 7), (1000000, 7), (100, 7), (1000000, 7)], 6 / 5) := by decide +kernel
  have h1 : shown (main exEnv exArgs) = some ([3 / 20, 1 / 2, 17 / 20], [100, 1000000],
    [(100, 3 / 20), (1000000, 3 / 20), (100, 1 / 2), (1000000, 1 / 2), (100, 17 / 20), (1000000, 17 / 20)], 6 / 5) := by decide +kernel
  cases hm : main { exEnv with solve := fun _ _ _ s p l => some ⟨(fun _ _ => 2 * s, fun _ _ => p), l, 7, true⟩ } exArgs with
  | ok r =>
    obtain ⟨c', p'⟩ := r
    refine ⟨c, c', p, p', h, rfl, ?_, (C127_violated_results exEnv exArgs _ c c' p p' h hm).1⟩
    rw [h] at h1
    rw [hm] at h2
    simp only [shown, Option.some.injEq, Prod.mk.injEq] at h1 h2
    intro he
    have e1 := congrArg (List.map Prod.snd) h1.2.2.1
    have e2 := congrArg (List.map Prod.snd) h2.2.2.1
    rw [List.map_map] at e1 e2
    have : c.rows.map (·.2.1) = c'.rows.map (·.2.1) := he
    rw [show (Prod.snd ∘ fun r : ℚ × ℚ × (Tensor ℚ × Tensor ℚ) × Bool => (r.1, r.2.1)) = (fun r => r.2.1) from rfl] at e1 e2
    rw [this, e2] at e1
    revert e1
    decide +kernel
  | _ => rw [hm] at h2; cases h2

end Verif.SteadyTool
