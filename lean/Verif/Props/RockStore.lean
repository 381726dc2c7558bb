import Verif.Spec.RockStore
import Verif.Props.Reservoir
import Mathlib.Tactic.IntervalCases
import Mathlib.Tactic.NormNum

/-!
Theorems about `Rock<3>` (C116).
-/

namespace Verif.RockStore

open Verif.Reservoir

variable {K : Type} [Field K] [LinearOrder K]

theorem put_ok {l : List K} {i : Nat} (h : i < l.length) (v : K) :
    put l i v = some (l.set i v) := if_pos h

theorem range3 : List.range 3 = [0, 1, 2] := rfl

/-- The loop over a row with an abstract source of values. -/
def rowG (rd : Nat → Nat → Option K) (thr : K) (off : Nat) (perm : List K) (i : Nat) : Option (List K) :=
  ((List.range 3).foldlM (fun (perm : List K) j => (rd i j).bind fun v => put perm (off + (i * 3 + j)) v) perm).bind
    fun perm => (perm[off + (i * 3 + i)]?).bind fun v => put perm (off + (i * 3 + i)) (if v < thr then thr else v)

/-- The value read for a position. -/
def rdOf (kmap : Fin 9 → Nat) (tensor : List (List K)) (glob i j : Nat) : Option K :=
  (kmapAt kmap (3 * i + j)).bind fun m => (tensor[m]?).bind fun t => t[glob]?

theorem rowLoop_eq (kmap : Fin 9 → Nat) (tensor : List (List K)) (thr : K) (glob off : Nat) :
    rowLoop kmap tensor thr glob off = rowG (rdOf kmap tensor glob) thr off := by
  funext perm i
  simp only [rowLoop, rowG, rdOf, Option.bind_assoc]

theorem row_none {rd : Nat → Nat → Option K} {thr : K} {off : Nat} {perm : List K} {i : Nat} (h : ∃ j < 3, rd i j = none)
    : rowG rd thr off perm i = none := by
  obtain ⟨j, hj, hn⟩ := h
  unfold rowG
  have : (List.range 3).foldlM (fun (perm : List K) j => (rd i j).bind fun v => put perm (off + (i * 3 + j)) v) perm = none := by
    rw [range3]
    simp only [List.foldlM_cons, List.foldlM_nil]
    interval_cases j
    · simp [hn]
    · cases h0 : rd i 0 with
      | none => simp
      | some v => cases h1 : put perm (off + (i * 3 + 0)) v <;> simp_all
    · cases h0 : rd i 0 with
      | none => simp
      | some v =>
        cases h1 : put perm (off + (i * 3 + 0)) v with
        | none => simp_all
        | some l =>
          cases h2 : rd i 1 with
          | none => simp_all
          | some v' => cases h3 : put l (off + (i * 3 + 1)) v' <;> simp_all
  rw [this]; rfl

theorem row_ok {rd : Nat → Nat → Option K} {w : Nat → Nat → K} {thr : K} {off : Nat} {perm : List K} {i : Nat} (hi : i < 3)
    (h : ∀ j < 3, rd i j = some (w i j)) (hlen : off + 9 ≤ perm.length) :
    ∃ perm', rowG rd thr off perm i = some perm' ∧ perm'.length = perm.length ∧
      (∀ j < 3, perm'[off + (i * 3 + j)]? = some (if i = j then max (w i j) thr else w i j)) ∧
      ∀ p, p < off + i * 3 ∨ off + i * 3 + 3 ≤ p → perm'[p]? = perm[p]? := by
  have e : rowG rd thr off perm i =
      some ((((perm.set (off + (i * 3 + 0)) (w i 0)).set (off + (i * 3 + 1)) (w i 1)).set (off + (i * 3 + 2)) (w i 2)).set (off + (i * 3 + i))
        (max (w i i) thr)) := by
    unfold rowG
    rw [range3]
    simp only [List.foldlM_cons, List.foldlM_nil, h 0 (by omega), h 1 (by omega), h 2 (by omega), Option.bind_some, Option.bind_eq_bind]
    rw [put_ok (by omega), Option.bind_some, put_ok (by simp; omega), Option.bind_some, put_ok (by simp; omega), Option.bind_some]
    show Option.bind (some _) _ = _
    have hget : (((perm.set (off + (i * 3 + 0)) (w i 0)).set (off + (i * 3 + 1)) (w i 1)).set (off + (i * 3 + 2)) (w i 2))[off + (i * 3 + i)]? =
        some (w i i) := by
      simp only [List.getElem?_set, List.length_set]
      interval_cases i <;> simp <;> omega
    rw [Option.bind_some, hget, Option.bind_some, put_ok (by simp; omega)]
    congr 2
    by_cases hlt : w i i < thr
    · rw [if_pos hlt, max_eq_right hlt.le]
    · rw [if_neg hlt, max_eq_left (not_lt.mp hlt)]
  refine ⟨_, e, by simp, fun j hj => ?_, fun p hp => ?_⟩
  · simp only [List.getElem?_set, List.length_set]
    interval_cases i <;> interval_cases j <;> simp <;> omega
  · simp only [List.getElem?_set, List.length_set]
    rw [if_neg (by omega), if_neg (by omega), if_neg (by omega), if_neg (by omega)]

/-- The three rows of a cell. -/
theorem cell_ok {rd : Nat → Nat → Option K} {w : Nat → Nat → K} {thr : K} {off : Nat} {perm : List K}
    (h : ∀ i < 3, ∀ j < 3, rd i j = some (w i j)) (hlen : off + 9 ≤ perm.length) :
    ∃ perm', (List.range 3).foldlM (rowG rd thr off) perm = some perm' ∧ perm'.length = perm.length ∧
      (∀ i < 3, ∀ j < 3, perm'[off + (i * 3 + j)]? = some (if i = j then max (w i j) thr else w i j)) ∧
      ∀ p, p < off ∨ off + 9 ≤ p → perm'[p]? = perm[p]? := by
  obtain ⟨p0, e0, l0, a0, b0⟩ := row_ok (thr := thr) (i := 0) (by omega) (h 0 (by omega)) hlen
  obtain ⟨p1, e1, l1, a1, b1⟩ := row_ok (thr := thr) (off := off) (i := 1) (perm := p0) (by omega) (h 1 (by omega)) (by omega)
  obtain ⟨p2, e2, l2, a2, b2⟩ := row_ok (thr := thr) (off := off) (i := 2) (perm := p1) (by omega) (h 2 (by omega)) (by omega)
  refine ⟨p2, ?_, by omega, fun i hi j hj => ?_, fun p hp => ?_⟩
  · rw [range3]
    simp [List.foldlM_cons, List.foldlM_nil, e0, e1, e2]
  · have : i = 0 ∨ i = 1 ∨ i = 2 := by omega
    rcases this with rfl | rfl | rfl
    · rw [b2 _ (by omega), b1 _ (by omega), a0 j hj]
    · rw [b2 _ (by omega), a1 j hj]
    · rw [a2 j hj]
  · rw [b2 _ (by omega), b1 _ (by omega), b0 _ (by omega)]

theorem cell_none {rd : Nat → Nat → Option K} {thr : K} {off : Nat} {perm : List K} (hlen : off + 9 ≤ perm.length)
    (h : ∃ i < 3, ∃ j < 3, rd i j = none) : (List.range 3).foldlM (rowG rd thr off) perm = none := by
  have hr : ∀ i < 3, ∀ perm : List K, off + 9 ≤ perm.length →
      rowG rd thr off perm i = none ∨ ((∀ j < 3, rd i j ≠ none) ∧ ∃ p', rowG rd thr off perm i = some p' ∧ off + 9 ≤ p'.length) := by
    intro i hi perm hl
    by_cases hn : ∃ j < 3, rd i j = none
    · exact Or.inl (row_none hn)
    · right
      push Not at hn
      refine ⟨hn, ?_⟩
      obtain ⟨p', e, l, _⟩ := row_ok (rd := rd) (w := fun i j => (rd i j).getD 0) (thr := thr) (perm := perm) hi (fun j hj => by
        cases hv : rd i j with
        | none => exact absurd hv (hn j hj)
        | some v => simp [hv]) hl
      exact ⟨p', e, by omega⟩
  obtain ⟨i, hi, j, hj, hn⟩ := h
  rw [range3]
  simp only [List.foldlM_cons, List.foldlM_nil]
  rcases hr 0 (by omega) perm hlen with h0 | ⟨h0, p0, e0, l0⟩
  · simp [h0]
  rcases hr 1 (by omega) p0 l0 with h1 | ⟨h1, p1, e1, l1⟩
  · simp [e0, h1]
  rcases hr 2 (by omega) p1 l1 with h2 | ⟨h2, p2, e2, l2⟩
  · simp [e0, e1, h2]
  exfalso
  have : i = 0 ∨ i = 1 ∨ i = 2 := by omega
  rcases this with rfl | rfl | rfl
  · exact h0 j hj hn
  · exact h1 j hj hn
  · exact h2 j hj hn

/-- The loop over the cells, up to cell `n`. -/
theorem cells_ok {rd : Nat → Nat → Nat → Option K} {w : Nat → Nat → Nat → K} {thr : K} (gc : List Nat)
    (h : ∀ g ∈ gc, ∀ i < 3, ∀ j < 3, rd g i j = some (w g i j)) (n : Nat) (hn : n ≤ gc.length) :
    ∃ s : List K × List Bool, (List.range n).foldlM (fun (s : List K × List Bool) c => (gc[c]?).bind fun glob =>
        ((List.range 3).foldlM (rowG (rd glob) thr (3 * 3 * c)) s.1).map fun perm => (perm, s.2.set c true))
        (List.replicate (3 * 3 * gc.length) 0, List.replicate gc.length false) = some s ∧
      s.1.length = 9 * gc.length ∧ s.2.length = gc.length ∧
      ∀ c g : Nat, c < n → gc[c]? = some g → s.2[c]? = some true ∧
        ∀ i < 3, ∀ j < 3, s.1[9 * c + (i * 3 + j)]? = some (if i = j then max (w g i j) thr else w g i j) := by
  induction n with
  | zero => exact ⟨_, rfl, by simp, by simp, fun c g hc => by omega⟩
  | succ n ih =>
    obtain ⟨s, e, l1, l2, hs⟩ := ih (by omega)
    have hg : gc[n]? = some gc[n] := List.getElem?_eq_getElem (by omega)
    obtain ⟨p', e', l', a', b'⟩ := cell_ok (rd := rd gc[n]) (w := w gc[n]) (thr := thr) (off := 3 * 3 * n) (perm := s.1)
      (h _ (List.getElem_mem _)) (by omega)
    refine ⟨(p', s.2.set n true), ?_, by simp only; omega, by simp [l2], fun c g hc hcg => ?_⟩
    · rw [List.range_succ (n := n), List.foldlM_append, e]
      simp [hg, e']
    · by_cases hcn : c = n
      · subst hcn
        rw [hg] at hcg
        injection hcg with hcg
        subst hcg
        refine ⟨by simp only; rw [List.getElem?_set_self (by rw [l2]; omega)], fun i hi j hj => ?_⟩
        have := a' i hi j hj
        simpa using this
      · obtain ⟨h1, h2⟩ := hs c g (by omega) hcg
        refine ⟨?_, fun i hi j hj => ?_⟩
        · simp only
          rw [List.getElem?_set_ne (by omega), h1]
        · simp only
          rw [b' _ (by omega), h2 i hi j hj]

theorem cells_none {rd : Nat → Nat → Nat → Option K} {thr : K} (gc : List Nat) (h : ∃ g ∈ gc, ∃ i < 3, ∃ j < 3, rd g i j = none) :
    (List.range gc.length).foldlM (fun (s : List K × List Bool) c => (gc[c]?).bind fun glob =>
        ((List.range 3).foldlM (rowG (rd glob) thr (3 * 3 * c)) s.1).map fun perm => (perm, s.2.set c true))
        (List.replicate (3 * 3 * gc.length) 0, List.replicate gc.length false) = none := by
  obtain ⟨g, hg, hb⟩ := h
  obtain ⟨c, hc, hcg⟩ := List.mem_iff_getElem.mp hg
  have key : ∀ n ≤ gc.length, ∀ s : List K × List Bool, (List.range n).foldlM (fun (s : List K × List Bool) c => (gc[c]?).bind fun glob =>
        ((List.range 3).foldlM (rowG (rd glob) thr (3 * 3 * c)) s.1).map fun perm => (perm, s.2.set c true))
        (List.replicate (3 * 3 * gc.length) 0, List.replicate gc.length false) = some s → s.1.length = 9 * gc.length ∧ n ≤ c := by
    intro n
    induction n with
    | zero =>
      intro _ s hs
      simp only [List.range_zero, List.foldlM_nil] at hs
      injection hs with hs
      subst hs
      simp
    | succ n ih =>
      intro hn s hs
      rw [List.range_succ (n := n), List.foldlM_append, Option.bind_eq_bind, Option.bind_eq_some_iff] at hs
      obtain ⟨t, ht, hs⟩ := hs
      obtain ⟨l, hle⟩ := ih (by omega) t ht
      have hgn : gc[n]? = some gc[n] := List.getElem?_eq_getElem (by omega)
      simp only [List.foldlM_cons, List.foldlM_nil, hgn, Option.bind_some, Option.bind_eq_bind, Option.bind_eq_some_iff,
        Option.map_eq_some_iff] at hs
      obtain ⟨u, ⟨p, hp, rfl⟩, hs⟩ := hs
      injection hs with hs
      subst hs
      have hbad : ¬ ∃ i < 3, ∃ j < 3, rd gc[n] i j = none := by
        intro hbad
        rw [cell_none (by omega) hbad] at hp
        cases hp
      obtain ⟨p', e', l', _⟩ := cell_ok (rd := rd gc[n]) (w := fun i j => (rd gc[n] i j).getD 0) (thr := thr) (off := 3 * 3 * n) (perm := t.1)
        (fun i hi j hj => by
          cases hv : rd gc[n] i j with
          | none => exact absurd ⟨i, hi, j, hj, hv⟩ hbad
          | some v => simp) (by omega)
      rw [hp] at e'
      injection e' with e'
      subst e'
      refine ⟨by simp only; omega, ?_⟩
      by_contra hlt
      have : n = c := by omega
      subst this
      rw [hcg] at hbad
      exact hbad hb
  cases hr : (List.range gc.length).foldlM (fun (s : List K × List Bool) c => (gc[c]?).bind fun glob =>
        ((List.range 3).foldlM (rowG (rd glob) thr (3 * 3 * c)) s.1).map fun perm => (perm, s.2.set c true))
        (List.replicate (3 * 3 * gc.length) 0, List.replicate gc.length false) with
  | none => rfl
  | some s => have := (key _ le_rfl s hr).2; omega

/-- What is read for a position. -/
theorem rd_spec (ncell : Nat) (d : Fin 9 → Option (List K)) (g i j : Nat) (hi : i < 3) (hj : j < 3) :
    rdOf (fill (List.replicate ncell 0) d).1 (fill (List.replicate ncell 0) d).2 g i j =
      if g < (Spec.source d i j).elim ncell List.length then some ((Spec.source d i j).elim 0 fun l => l.getD g 0) else none := by
  have hc : 3 * i + j < 9 := by omega
  unfold rdOf kmapAt
  rw [dif_pos hc, Option.bind_some, (fill_spec (List.replicate ncell (0 : K)) d).1, Option.bind_some]
  unfold Spec.source Spec.comp
  rw [dif_pos hc]
  cases hs : sourceOf (fun p => (d p).isSome) ⟨3 * i + j, hc⟩ with
  | none =>
    simp only [Option.elim_none, Option.bind_none, List.getElem?_replicate]
    show (if g < ncell then some (0 : K) else none) = if g < ncell then some 0 else none
    by_cases hg : g < ncell
    · rw [if_pos hg]
    · rw [if_neg hg]
  | some q =>
    obtain ⟨l, hl⟩ := Option.isSome_iff_exists.mp (source_given _ _ _ hs)
    simp only [Option.elim_some, Option.bind_some, hl, Option.getD_some]
    by_cases hg : g < l.length
    · rw [if_pos hg, List.getElem?_eq_getElem hg, List.getD_eq_getElem?_getD, List.getElem?_eq_getElem hg, Option.getD_some]
    · rw [if_neg hg, List.getElem?_eq_none (by omega)]

/-- What the concrete object and the user's picture of it have in common. -/
structure Rel (w : World K) (s : Spec.Store K) : Prop where
  poroLen : w.rock.porosity.length = s.cells
  poro : ∀ c < s.cells, w.rock.porosity[c]? = some (s.poro c)
  validLen : w.rock.valid.length = s.cells
  valid : ∀ c < s.cells, ∃ b, w.rock.valid[c]? = some b ∧ (b = true ↔ s.known c)
  permLen : w.rock.perm.length = 9 * s.cells
  perm : ∀ c < s.cells, ∀ i < 3, ∀ j < 3, w.rock.perm[9 * c + (i * 3 + j)]? = some (s.tens c i j)
  viewsLen : w.views.length = s.views.length
  views : ∀ (k : Nat) (v : View), w.views[k]? = some v → v.epoch ≤ w.rock.epoch ∧
    ((v.epoch = w.rock.epoch ∧ ∃ c < s.cells, v.base = 9 * c ∧ s.views[k]? = some (some c)) ∨
     (v.epoch ≠ w.rock.epoch ∧ s.views[k]? = some none))

theorem porosity_spec (poro : Option (List K)) (gc : List Nat) :
    ((∃ v, assignPorosity poro gc = some v) ↔ ∀ l, poro = some l → ∀ g ∈ gc, g < l.length) ∧
    ∀ v, assignPorosity poro gc = some v → v.length = gc.length ∧
      ∀ c < gc.length, v[c]? = some (poro.elim 1 fun l => l.getD (gc.getD c 0) 0) := by
  cases poro with
  | none =>
    refine ⟨⟨fun _ l h => (by cases h), fun _ => ⟨_, rfl⟩⟩, fun v hv => ?_⟩
    injection hv with hv
    subst hv
    exact ⟨by simp, fun c hc => by simp [List.getElem?_replicate, hc]⟩
  | some l =>
    have hok : (∀ g ∈ gc, g < l.length) → assignPorosity (some l) gc = some (gc.map fun g => l.getD g 0) := fun h =>
      mapM_some (fun g => l[g]?) (fun g => l.getD g 0) gc fun g hg => by simp [List.getElem?_eq_getElem (h g hg)]
    have hno : (∃ v, assignPorosity (some l) gc = some v) → ∀ g ∈ gc, g < l.length := by
      rintro ⟨v, hv⟩ g hg
      change gc.mapM (fun g => l[g]?) = some v at hv
      clear hok
      induction gc generalizing v with
      | nil => cases hg
      | cons a gc ih =>
        rw [List.mapM_cons] at hv
        simp only [Option.bind_eq_bind, Option.bind_eq_some_iff] at hv
        obtain ⟨x, hx, v', hv', _⟩ := hv
        rcases List.mem_cons.mp hg with rfl | hg
        · exact (List.getElem?_eq_some_iff.mp hx).1
        · exact ih v' hg hv'
    refine ⟨⟨fun h l' hl' => ?_, fun h => ⟨_, hok (h l rfl)⟩⟩, fun v hv => ?_⟩
    · injection hl' with hl'
      subst hl'
      exact hno h
    · rw [hok (hno ⟨v, hv⟩)] at hv
      injection hv with hv
      subst hv
      refine ⟨by simp, fun c hc => ?_⟩
      simp [List.getElem?_eq_getElem hc, List.getD_eq_getElem?_getD]

/-- Permeabilities from a deck. -/
theorem perm_spec (ncell : Nat) (d : Fin 9 → Option (List K)) (gc : List Nat) (thr : K) :
    ((∃ r, assignPerm ncell d gc thr = some r) ↔ ncell ≠ 0 ∧ (Admissible fun p => (d p).isSome) ∧
      (Spec.Given d → ∀ i j : Nat, i < 3 → j < 3 → ∀ g ∈ gc, g < ((Spec.source d i j).elim ncell List.length))) ∧
    ∀ r, assignPerm ncell d gc thr = some r → r.2.1.length = 9 * gc.length ∧ r.2.2.length = gc.length ∧
      r.1 = classify (fun p => (d p).isSome) ∧
      (Spec.Given d → ∀ c g : Nat, gc[c]? = some g → r.2.2[c]? = some true ∧ ∀ i < 3, ∀ j < 3, r.2.1[9 * c + (i * 3 + j)]? =
        some (if i = j then max ((Spec.source d i j).elim 0 fun l => l.getD g 0) thr else (Spec.source d i j).elim 0 fun l => l.getD g 0)) ∧
      (¬ Spec.Given d → r.2 = (List.replicate (9 * gc.length) 0, List.replicate gc.length false)) := by
  unfold assignPerm
  by_cases h0 : ncell = 0
  · simp [h0]
  rw [if_neg h0]
  by_cases h1 : classify (fun p => (d p).isSome) = Kind.invalid
  · rw [if_pos h1]
    have := (C50_classify _).1.mp h1
    exact ⟨⟨fun ⟨_, h⟩ => (by cases h), fun h => absurd h.2.1 this⟩, fun r h => by cases h⟩
  rw [if_neg h1]
  have hadm : Admissible fun p => (d p).isSome := by
    by_contra hn
    exact h1 ((C50_classify _).1.mpr hn)
  simp only [rowLoop_eq]
  by_cases hany : Spec.Given d
  · rw [if_pos ((fill_spec (List.replicate ncell (0 : K)) d).2.2.2.mpr hany)]
    by_cases hb : ∀ i j : Nat, i < 3 → j < 3 → ∀ g ∈ gc, g < ((Spec.source d i j).elim ncell List.length)
    · obtain ⟨s, e, l1, l2, hs⟩ := cells_ok (thr := thr) gc (rd := rdOf (fill (List.replicate ncell 0) d).1 (fill (List.replicate ncell 0) d).2)
        (w := fun g i j => (Spec.source d i j).elim 0 fun l => l.getD g 0)
        (fun g hg i hi j hj => by rw [rd_spec ncell d g i j hi hj, if_pos (hb i j hi hj g hg)]) gc.length le_rfl
      rw [e]
      refine ⟨⟨fun _ => ⟨h0, hadm, fun _ => hb⟩, fun _ => ⟨_, rfl⟩⟩, fun r hr => ?_⟩
      injection hr with hr
      subst hr
      exact ⟨l1, l2, rfl, fun _ c g hc => hs c g (List.getElem?_eq_some_iff.mp hc).1 hc, fun h => absurd hany h⟩
    · rw [cells_none gc (by
        push Not at hb
        obtain ⟨i, j, hi, hj, g, hg, hlt⟩ := hb
        exact ⟨g, hg, i, hi, j, hj, by rw [rd_spec ncell d g i j hi hj, if_neg (by omega)]⟩)]
      exact ⟨⟨fun ⟨_, h⟩ => (by cases h), fun h => absurd (h.2.2 hany) hb⟩, fun r h => by cases h⟩
  · rw [if_neg fun h => hany ((fill_spec (List.replicate ncell (0 : K)) d).2.2.2.mp h)]
    refine ⟨⟨fun _ => ⟨h0, hadm, fun h => absurd h hany⟩, fun _ => ⟨_, rfl⟩⟩, fun r hr => ?_⟩
    injection hr with hr
    subst hr
    exact ⟨by simp, by simp, rfl, fun h => absurd h hany, fun _ => rfl⟩

/-- One cell of a uniform rock. -/
theorem uniform_cell {r : Rock K} {i n : Nat} (perm : K) (hi : i < n) (hv : r.valid.length = n) (hp : r.perm.length = 9 * n) :
    ∃ r', ((r.modifiable i).bind fun w => (List.range 3).foldlM (fun (r : Rock K) dd => r.write w.1 dd dd perm) w.2) = some r' ∧
      r'.valid = r.valid.set i true ∧ r'.porosity = r.porosity ∧ r'.epoch = r.epoch ∧ r'.perm.length = r.perm.length ∧
      (∀ p, r'.perm[p]? = if p = 9 * i ∨ p = 9 * i + 4 ∨ p = 9 * i + 8 then some perm else r.perm[p]?) := by
  refine ⟨⟨r.porosity, ((r.perm.set (9 * i) perm).set (9 * i + 4) perm).set (9 * i + 8) perm, r.valid.set i true, r.kind, r.epoch⟩,
    ?_, rfl, rfl, rfl, by simp, fun p => ?_⟩
  · unfold Rock.modifiable
    rw [if_pos (by omega), Option.bind_some, range3]
    simp only [List.foldlM_cons, List.foldlM_nil, Rock.write, View.idx]
    simp only [if_true, Option.bind_some, Option.bind_eq_bind, Nat.reduceMul, Nat.reduceAdd, Nat.reduceLT, and_self]
    rw [put_ok (by omega), Option.map_some, Option.bind_some]
    simp only
    rw [put_ok (by simp; omega), Option.map_some, if_pos trivial, Option.bind_some]
    simp only
    rw [put_ok (by simp; omega), Option.map_some, if_pos trivial]
    rfl
  · simp only [List.getElem?_set, List.length_set]
    by_cases h8 : p = 9 * i + 8
    · subst h8
      simp; omega
    by_cases h4 : p = 9 * i + 4
    · subst h4
      simp; omega
    by_cases h0 : p = 9 * i
    · subst h0
      simp; omega
    · rw [if_neg (by omega), if_neg (by omega), if_neg (by omega), if_neg (by omega)]

theorem uniform_spec (r : Rock K) (n : Nat) (poro perm : K) :
    ∃ r', r.initUniform n poro perm = some r' ∧ r'.porosity = List.replicate n poro ∧ r'.valid = List.replicate n true ∧
      r'.epoch = r.epoch + 1 ∧ r'.perm.length = 9 * n ∧
      ∀ c < n, ∀ i < 3, ∀ j < 3, r'.perm[9 * c + (i * 3 + j)]? = some (if i = j then perm else 0) := by
  unfold Rock.initUniform
  generalize hr0 : ({ r with valid := List.replicate n true, porosity := List.replicate n poro, perm := List.replicate (3 * 3 * n) 0, epoch := r.epoch + 1 } : Rock K) = r0
  have key : ∀ m ≤ n, ∃ r', (List.range m).foldlM (fun (r : Rock K) i => (r.modifiable i).bind fun w =>
      (List.range 3).foldlM (fun (r : Rock K) dd => r.write w.1 dd dd perm) w.2) r0 = some r' ∧
      r'.porosity = List.replicate n poro ∧ r'.valid = List.replicate n true ∧ r'.epoch = r.epoch + 1 ∧ r'.perm.length = 9 * n ∧
      ∀ c < n, ∀ i < 3, ∀ j < 3, r'.perm[9 * c + (i * 3 + j)]? = some (if i = j ∧ c < m then perm else 0) := by
    intro m
    induction m with
    | zero =>
      intro _
      subst hr0
      refine ⟨_, rfl, rfl, rfl, rfl, by simp, fun c hc i hi j hj => ?_⟩
      simp only [List.getElem?_replicate, Nat.not_lt_zero, and_false, if_false]
      rw [if_pos (by omega)]
    | succ m ih =>
      intro hm
      obtain ⟨r1, e1, a1, b1, c1, d1, f1⟩ := ih (by omega)
      obtain ⟨r2, e2, b2, a2, c2, d2, f2⟩ := uniform_cell (r := r1) (i := m) (n := n) perm (by omega) (by simp [b1]) d1
      refine ⟨r2, ?_, by rw [a2, a1], ?_, by rw [c2, c1], by rw [d2, d1], fun c hc i hi j hj => ?_⟩
      · rw [List.range_succ (n := m), List.foldlM_append, e1]
        simp [e2]
      · rw [b2, b1]
        apply List.ext_getElem? 
        intro k
        rw [List.getElem?_set]
        simp only [List.getElem?_replicate, List.length_replicate]
        split <;> simp_all
      · rw [f2, f1 c hc i hi j hj]
        by_cases hcm : c = m
        · subst hcm
          by_cases hij : i = j
          · subst hij
            rw [if_pos (by omega), if_pos ⟨rfl, by omega⟩]
          · rw [if_neg (by omega), if_neg fun h => hij h.1, if_neg fun h => hij h.1]
        · rw [if_neg (by omega)]
          by_cases hij : i = j ∧ c < m
          · rw [if_pos hij, if_pos ⟨hij.1, by omega⟩]
          · rw [if_neg hij, if_neg fun h => hij ⟨h.1, by omega⟩]
  obtain ⟨r', e, a, b, c, d, f⟩ := key n le_rfl
  refine ⟨r', e, a, b, c, d, fun c hc i hi j hj => ?_⟩
  rw [f c hc i hi j hj]
  by_cases hij : i = j
  · rw [if_pos ⟨hij, hc⟩, if_pos hij]
  · rw [if_neg fun h => hij h.1, if_neg hij]

/-- After an initialization all views dangle. -/
theorem views_dangle {w : World K} {s : Spec.Store K} (h : Rel w s) (k : Nat) (v : View) (hv : w.views[k]? = some v) :
    v.epoch ≤ w.rock.epoch + 1 ∧ v.epoch ≠ w.rock.epoch + 1 ∧ (s.views.map fun _ => (none : Option Nat))[k]? = some none := by
  have h1 := (h.views k v hv).1
  refine ⟨by omega, by omega, ?_⟩
  have hk := (List.getElem?_eq_some_iff.mp hv).1
  rw [List.getElem?_map, List.getElem?_eq_getElem (by rw [← h.viewsLen]; exact hk)]
  rfl

/-- One call keeps object and picture in step. -/
theorem step_rel {w : World K} {s : Spec.Store K} (h : Rel w s) (o : Op K) :
    (w.step o = none ∧ s.step o = none) ∨ ∃ w' s', w.step o = some w' ∧ s.step o = some s' ∧ Rel w' s' := by
  cases o with
  | deck d gc thr =>
    obtain ⟨p1, p2⟩ := porosity_spec d.poro gc
    obtain ⟨q1, q2⟩ := perm_spec d.ncell d.perm gc thr
    by_cases hacc : Spec.Accepts d gc
    · right
      obtain ⟨v, hv⟩ := p1.mpr hacc.2.2.1
      obtain ⟨r, hr⟩ := q1.mpr ⟨hacc.1, hacc.2.1, hacc.2.2.2⟩
      obtain ⟨v1, v2⟩ := p2 v hv
      obtain ⟨r1, r2, r3, r4, r5⟩ := q2 r hr
      refine ⟨⟨⟨v, r.2.1, r.2.2, r.1, w.rock.epoch + 1⟩, w.views⟩, _, ?_, if_pos hacc, ?_⟩
      · simp [World.step, Rock.initDeck, hv, hr]
      · refine ⟨v1, v2, r2, fun c hc => ?_, r1, fun c hc i hi j hj => ?_, by simp [h.viewsLen], fun k x hx => ?_⟩
        · simp only at hc ⊢
          by_cases hg : Spec.Given d.perm
          · exact ⟨true, (r4 hg c gc[c] (List.getElem?_eq_getElem hc)).1, by simp [hg]⟩
          · exact ⟨false, by rw [r5 hg]; simp [List.getElem?_replicate, hc], by simp [hg]⟩
        · simp only at hc ⊢
          by_cases hg : Spec.Given d.perm
          · rw [if_pos hg, (r4 hg c gc[c] (List.getElem?_eq_getElem hc)).2 i hi j hj]
            simp [Spec.tensor, List.getElem?_eq_getElem hc, List.getD_eq_getElem?_getD]
          · rw [if_neg hg, r5 hg]
            simp only [List.getElem?_replicate]
            rw [if_pos (by omega)]
        · obtain ⟨a, b, c⟩ := views_dangle h k x hx
          exact ⟨a, Or.inr ⟨b, c⟩⟩
    · left
      refine ⟨?_, if_neg hacc⟩
      simp only [World.step, Rock.initDeck, Option.map_eq_none_iff, Option.bind_eq_none_iff]
      intro v hv
      cases hr : assignPerm d.ncell d.perm gc thr with
      | none => rfl
      | some r =>
        obtain ⟨a, b, c⟩ := q1.mp ⟨r, hr⟩
        exact absurd ⟨a, b, p1.mp ⟨v, hv⟩, c⟩ hacc
  | uniform n poro perm =>
    right
    obtain ⟨r', e, a, b, c, d, f⟩ := uniform_spec w.rock n poro perm
    refine ⟨⟨r', w.views⟩, _, by simp [World.step, e], rfl, ?_⟩
    refine ⟨by simp [a], fun c hc => ?_, by simp [b], fun c hc => ?_, d, fun c hc i hi j hj => f c hc i hi j hj, by simp [h.viewsLen], fun k x hx => ?_⟩
    · simp only at hc ⊢
      simp [a, List.getElem?_replicate, hc]
    · simp only at hc ⊢
      exact ⟨true, by simp [b, List.getElem?_replicate, hc], by simp⟩
    · obtain ⟨a', b', c'⟩ := views_dangle h k x hx
      exact ⟨by simp only [c]; exact a', Or.inr ⟨by simp only [c]; exact b', c'⟩⟩
  | view c =>
    by_cases hc : c < s.cells
    · right
      refine ⟨⟨{ w.rock with valid := w.rock.valid.set c true }, w.views ++ [⟨w.rock.epoch, 3 * 3 * c⟩]⟩, _, ?_, if_pos hc, ?_⟩
      · simp [World.step, Rock.modifiable, h.validLen, hc]
      · refine ⟨h.poroLen, h.poro, by simp [h.validLen], fun c' hc' => ?_, h.permLen, h.perm, by simp [h.viewsLen], fun k x hx => ?_⟩
        · simp only at hc' ⊢
          by_cases hcc : c' = c
          · subst hcc
            exact ⟨true, by rw [List.getElem?_set_self (by rw [h.validLen]; exact hc)], by simp⟩
          · rw [List.getElem?_set_ne (Ne.symm hcc)]
            obtain ⟨b, hb, hk⟩ := h.valid c' hc'
            exact ⟨b, hb, by rw [hk]; simp [hcc]⟩
        · simp only at hx ⊢
          by_cases hk : k < w.views.length
          · rw [List.getElem?_append_left hk] at hx
            rw [List.getElem?_append_left (by rw [← h.viewsLen]; exact hk)]
            exact h.views k x hx
          · rw [List.getElem?_append_right (by omega)] at hx
            have : k - w.views.length = 0 := by
              have := (List.getElem?_eq_some_iff.mp hx).1
              simp at this; omega
            rw [this] at hx
            injection hx with hx
            subst hx
            refine ⟨le_rfl, Or.inl ⟨rfl, c, hc, by simp, ?_⟩⟩
            rw [List.getElem?_append_right (by rw [← h.viewsLen]; omega), ← h.viewsLen, this]
            rfl
    · left
      exact ⟨by simp only [World.step, Rock.modifiable]; rw [h.validLen, if_neg hc]; rfl, if_neg hc⟩
  | write k i j x =>
    cases hv : w.views[k]? with
    | none =>
      left
      refine ⟨by simp [World.step, hv], ?_⟩
      have : s.views[k]? = none := by
        rw [List.getElem?_eq_none_iff] at hv ⊢
        rw [← h.viewsLen]; exact hv
      simp [Spec.Store.step, this]
    | some v =>
      obtain ⟨_, ⟨he, c, hc, hb, hs⟩ | ⟨he, hs⟩⟩ := h.views k v hv
      · by_cases hij : i < 3 ∧ j < 3
        · right
          have hp : put w.rock.perm (v.base + (i * 3 + j)) x = some (w.rock.perm.set (9 * c + (i * 3 + j)) x) := by
            rw [hb]
            exact put_ok (by rw [h.permLen]; omega) x
          refine ⟨⟨{ w.rock with perm := w.rock.perm.set (9 * c + (i * 3 + j)) x }, w.views⟩,
            { s with tens := fun c' i' j' => if c' = c ∧ i' = i ∧ j' = j then x else s.tens c' i' j' }, ?_, ?_, ?_⟩
          · simp [World.step, hv, Rock.write, he, View.idx, hij, hp]
          · simp [Spec.Store.step, hs, hij]
          · refine ⟨h.poroLen, h.poro, h.validLen, h.valid, by simp [h.permLen], fun c' hc' i' hi' j' hj' => ?_, h.viewsLen, h.views⟩
            simp only at hc' ⊢
            by_cases heq : c' = c ∧ i' = i ∧ j' = j
            · obtain ⟨rfl, rfl, rfl⟩ := heq
              rw [List.getElem?_set_self (by rw [h.permLen]; omega), if_pos ⟨rfl, rfl, rfl⟩]
            · rw [if_neg heq, List.getElem?_set_ne (by omega), h.perm c' hc' i' hi' j' hj']
        · left
          exact ⟨by simp [World.step, hv, Rock.write, he, View.idx, hij], by simp [Spec.Store.step, hs, hij]⟩
      · left
        exact ⟨by simp [World.step, hv, Rock.write, he], by simp [Spec.Store.step, hs]⟩

theorem run_rel (l : List (Op K)) {w : World K} {s : Spec.Store K} (h : Rel w s) :
    (l.foldlM World.step w = none ∧ l.foldlM Spec.Store.step s = none) ∨
    ∃ w' s', l.foldlM World.step w = some w' ∧ l.foldlM Spec.Store.step s = some s' ∧ Rel w' s' := by
  induction l generalizing w s with
  | nil => exact Or.inr ⟨w, s, rfl, rfl, h⟩
  | cons o l ih =>
    simp only [List.foldlM_cons, Option.bind_eq_bind]
    rcases step_rel h o with ⟨e1, e2⟩ | ⟨w', s', e1, e2, h'⟩
    · left; simp [e1, e2]
    · rw [e1, e2]
      exact ih h'

theorem fresh_rel : Rel (⟨Rock.fresh, []⟩ : World K) Spec.Store.empty :=
  ⟨rfl, fun c hc => absurd hc (Nat.not_lt_zero c), rfl, fun c hc => absurd hc (Nat.not_lt_zero c), rfl,
    fun c hc => absurd hc (Nat.not_lt_zero c), rfl, fun k v hv => by simp at hv⟩

/-- **C116** (histories). For every history of calls, the object fails exactly if the user's picture of it has no continuation. Otherwise
porosities and permeabilities that are read are those of the picture: reading fails outside of the grid and for cells whose
permeability was never set. -/
theorem C116_history (l : List (Op K)) :
    (run l = none ↔ Spec.run l = none) ∧
    ∀ w s, run l = some w → Spec.run l = some s →
      (∀ c, w.rock.porosityAt c = if c < s.cells then some (s.poro c) else none) ∧
      ∀ c i j, i < 3 → j < 3 →
        (c < s.cells ∧ s.known c → w.rock.permeability c i j = some (s.tens c i j)) ∧
        (¬ (c < s.cells ∧ s.known c) → w.rock.permeability c i j = none) := by
  rcases run_rel l (fresh_rel (K := K)) with ⟨e1, e2⟩ | ⟨w, s, e1, e2, h⟩
  · exact ⟨⟨fun _ => e2, fun _ => e1⟩, fun w s h _ => by rw [run, e1] at h; cases h⟩
  refine ⟨⟨fun h => (by rw [run, e1] at h; cases h), fun h => (by rw [Spec.run, e2] at h; cases h)⟩, fun w' s' hw hs => ?_⟩
  rw [run, e1] at hw
  rw [Spec.run, e2] at hs
  injection hw with hw
  injection hs with hs
  subst hw
  subst hs
  refine ⟨fun c => ?_, fun c i j hi hj => ⟨fun ⟨hc, hk⟩ => ?_, fun hn => ?_⟩⟩
  · by_cases hc : c < s.cells
    · rw [if_pos hc]; exact h.poro c hc
    · rw [if_neg hc]; exact List.getElem?_eq_none (by rw [h.poroLen]; omega)
  · obtain ⟨b, hb, hbk⟩ := h.valid c hc
    have : b = true := hbk.mpr hk
    subst this
    simp only [Rock.permeability, hb, Option.bind_some, if_true, View.idx]
    rw [if_pos ⟨hi, hj⟩, Option.bind_some]
    exact h.perm c hc i hi j hj
  · by_cases hc : c < s.cells
    · obtain ⟨b, hb, hbk⟩ := h.valid c hc
      have : b = false := by
        cases b
        · rfl
        · exact absurd ⟨hc, hbk.mp rfl⟩ hn
      subst this
      simp [Rock.permeability, hb]
    · have : w.rock.valid[c]? = none := List.getElem?_eq_none (by rw [h.validLen]; omega)
      simp [Rock.permeability, this]

/-- A uniform rock of two cells, a view of the second one, one number changed. -/
example : (run [.uniform 2 (1 / 4 : ℚ) 10, .view 1, .write 0 0 2 3]).map (fun w =>
    (w.rock.porosityAt 1, w.rock.permeability 1 0 2, w.rock.permeability 1 0 0, w.rock.permeability 0 0 2)) =
    some (some (1 / 4), some 3, some 10, some 0) := by decide +kernel

/-- A view taken before an initialization cannot be used afterwards. -/
example : (run [.uniform 2 (1 / 4 : ℚ) 10, .view 1, .uniform 2 (1 / 4) 20, .write 0 0 2 3]).isNone = true := by decide +kernel

variable [IsStrictOrderedRing K]

theorem source_val (d : Fin 9 → Option (List K)) (g i j : Nat) (hi : i < 3) (hj : j < 3) :
    sourceVal d g ⟨3 * i + j, by omega⟩ = (Spec.source d i j).elim 0 fun l => l.getD g 0 := by
  unfold sourceVal Spec.source Spec.comp
  rw [dif_pos (by omega)]
  cases hs : sourceOf (fun p => (d p).isSome) ⟨3 * i + j, by omega⟩ with
  | none => rfl
  | some q =>
    obtain ⟨l, hl⟩ := Option.isSome_iff_exists.mp (source_given _ _ _ hs)
    simp [hl]

/-- **C116** (same as the reservoir properties). A deck accepted by the class of reservoir properties is accepted by this class too, with
the same porosities, and each number of each permeability tensor is the same, or can be read from neither. -/
theorem C116_same {d : Deck K} {gc : List Nat} (hgc : ∀ g ∈ gc, g < d.ncell) {thr : K} {st : State K}
    (h : Verif.Reservoir.initDeck d gc thr = some st) (r : Rock K) :
    ∃ r', r.initDeck d gc thr = some r' ∧ (∀ c, r'.porosityAt c = st.porosity[c]?) ∧
      ∀ c i j : Nat, i < 3 → j < 3 → r'.permeability c i j = (st.permeability c).bind fun l => l[3 * i + j]? := by
  have h' := h
  unfold Verif.Reservoir.initDeck at h'
  simp only [Option.bind_eq_some_iff, Option.map_eq_some_iff] at h'
  obtain ⟨po, hpo, _, _, _, _, _, _, p, hp, _, _, rfl⟩ := h'
  obtain ⟨h0, h1, h2, h3⟩ := assign_inv hp
  have hpo' : assignPorosity d.poro gc = some po := by
    cases hd : d.poro with
    | none => rw [hd] at hpo; exact hpo
    | some l =>
      rw [hd] at hpo
      unfold assignField at hpo
      simp only at hpo
      split at hpo
      · cases hpo
      · exact hpo
  obtain ⟨q1, q2⟩ := perm_spec d.ncell d.perm gc thr
  obtain ⟨x, hx⟩ := q1.mpr ⟨h0, h1, fun _ i j hi hj g hg => by
    have hlt := hgc g hg
    cases hs : Spec.source d.perm i j with
    | none => exact hlt
    | some l =>
      unfold Spec.source at hs
      obtain ⟨q, _, hq⟩ := Option.bind_eq_some_iff.mp hs
      have := h2 q l hq
      simp only [Option.elim_some]
      omega⟩
  obtain ⟨l1, l2, _, a, b⟩ := q2 x hx
  refine ⟨⟨po, x.2.1, x.2.2, x.1, r.epoch + 1⟩, by simp [Rock.initDeck, hpo', hx], fun c => rfl, fun c i j hi hj => ?_⟩
  by_cases hany : ∃ q, (d.perm q).isSome = true
  · obtain ⟨p', hp', _, hv, hl, hc⟩ := C50_tensor h2 h1 hgc h0 hany thr
    rw [hp] at hp'
    injection hp' with hp'
    subst hp'
    by_cases hlt : c < gc.length
    · obtain ⟨l, hl', h9, hval⟩ := hc c gc[c] (List.getElem?_eq_getElem hlt)
      obtain ⟨v1, v2⟩ := a hany c gc[c] (List.getElem?_eq_getElem hlt)
      simp only [Rock.permeability, v1, Option.bind_some, if_true, View.idx, State.permeability, hv, List.getElem?_replicate, if_pos hlt, hl']
      rw [if_pos ⟨hi, hj⟩, Option.bind_some]
      have e1 := v2 i hi j hj
      have e2 := hval ⟨3 * i + j, by omega⟩
      rw [source_val d.perm _ i j hi hj] at e2
      replace e2 : l[3 * i + j]? = _ := e2
      rw [show 3 * 3 * c + (i * 3 + j) = 9 * c + (i * 3 + j) by omega, e1, e2]
      have hd : rowOf ⟨3 * i + j, by omega⟩ = colOf ⟨3 * i + j, by omega⟩ ↔ i = j := by
        simp only [rowOf, colOf]; omega
      by_cases hij : i = j
      · rw [if_pos hij, if_pos (hd.mpr hij)]
      · rw [if_neg hij, if_neg fun h => hij (hd.mp h)]
    · have e1 : x.2.2[c]? = none := List.getElem?_eq_none (by omega)
      have e2 : p.valid[c]? = none := List.getElem?_eq_none (by rw [hv]; simp; omega)
      simp [Rock.permeability, State.permeability, e1, e2]
  · have hno : ∀ q, d.perm q = none := fun q => by
      cases hq : d.perm q with
      | none => rfl
      | some l => exact absurd ⟨q, by simp [hq]⟩ hany
    rw [h3 hno]
    by_cases hlt : c < gc.length
    · simp [Rock.permeability, State.permeability, b hany, List.getElem?_replicate, hlt]
    · simp [Rock.permeability, State.permeability, b hany, List.getElem?_replicate, hlt]

/-- **C116** (violated: sizes). Arrays whose size is not that of the grid are refused by the class of reservoir properties but accepted by
this class, which then takes values of the wrong cells or reads past the end. -/
theorem C116_violated_sizes : ∃ (d : Deck ℚ) (r : Rock ℚ), d.ncell = 2 ∧ Verif.Reservoir.initDeck d [0] 0 = none ∧
    Rock.fresh.initDeck d [0] 0 = some r ∧ r.porosityAt 0 = some (1 / 4) ∧ r.permeability 0 0 0 = some 10 :=
  ⟨⟨2, some [1 / 4], none, none, none, ![some [10, 20, 30], none, none, none, none, none, none, none, none], none, none⟩, _,
    rfl, by decide +kernel, rfl, by decide +kernel, by decide +kernel⟩

end Verif.RockStore
