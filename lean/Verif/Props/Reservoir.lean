import Verif.Lemmas.Reservoir
import Mathlib.Tactic.FinCases
import Mathlib.Tactic.IntervalCases
import Mathlib.Tactic.Linarith
import Mathlib.Tactic.NormNum
import Mathlib.Tactic.Ring
import Mathlib.Data.List.FinRange
import Mathlib.Algebra.Order.Field.Rat
import Mathlib.Algebra.Order.Ring.Unbundled.Rat

/-!
C50, C51: permeability and cell data of the deck. C84: the legacy output. C85: uniform properties.
-/

namespace Verif.Reservoir

/-- **C50** (classification). Which components are given decides the kind: off-diagonal components without the diagonal ones of their row
and column are invalid; otherwise any off-diagonal component makes a tensor, one diagonal component a scalar, more of them a diagonal, and
nothing is "none". -/
theorem C50_classify (has : Fin 9 → Bool) :
    (classify has = .invalid ↔ ¬ Admissible has) ∧
    (classify has = .tensor ↔ Admissible has ∧ ∃ p, has p = true ∧ Off p) ∧
    (classify has = .none ↔ ∀ p, has p = false) ∧
    (classify has = .scalar ↔ (∀ p, has p = true → ¬ Off p) ∧ ∃ p, has p = true ∧ ∀ q, has q = true → q = p) ∧
    (classify has = .diagonal ↔ (∀ p, has p = true → ¬ Off p) ∧ ∃ p q, p ≠ q ∧ has p = true ∧ has q = true) := by
  exact classify_spec has

example : classify (ofBits true false false false true false false false false) = .diagonal := by decide
example : classify (ofBits true true false false false false false false false) = .invalid := by decide

section Fill

variable {α β : Type}

theorem fillDiag_map (f : α → β) (d : Fin 9 → Option α) (i j k : Fin 9) (s : (Fin 9 → Nat) × List α) :
    fillDiag (fun p => (d p).map f) i j k (s.1, s.2.map f) = ((fillDiag d i j k s).1, (fillDiag d i j k s).2.map f) := by
  unfold fillDiag
  cases h : d i <;> simp [h]

theorem fillCross_map (f : α → β) (d : Fin 9 → Option α) (i j : Fin 9) (s : (Fin 9 → Nat) × List α) :
    fillCross (fun p => (d p).map f) i j (s.1, s.2.map f) = ((fillCross d i j s).1, (fillCross d i j s).2.map f) := by
  unfold fillCross
  cases h : d i <;> simp [h]

theorem fill_map (f : α → β) (z : α) (d : Fin 9 → Option α) :
    fill (f z) (fun p => (d p).map f) = ((fill z d).1, (fill z d).2.map f) := by
  have h0 : ((fun _ => 0, [f z]) : (Fin 9 → Nat) × List β) =
      (((fun _ => 0, [z]) : (Fin 9 → Nat) × List α).1, ((fun _ => 0, [z]) : (Fin 9 → Nat) × List α).2.map f) := rfl
  unfold fill
  rw [h0, fillDiag_map, fillCross_map, fillCross_map, fillCross_map, fillDiag_map, fillCross_map, fillCross_map, fillCross_map, fillDiag_map]

theorem fill_ids (z : α) (d : Fin 9 → Option α) :
    fill z d = ((ids fun p => (d p).isSome).1,
      (ids fun p => (d p).isSome).2.map fun o => o.elim z fun q => (d q).getD z) := by
  have h := fill_map (fun o : Option (Fin 9) => o.elim z fun q => (d q).getD z) none
    (fun p => if (d p).isSome then some (some p) else none)
  have h2 : (fun p => ((if (d p).isSome then some (some p) else none : Option (Option (Fin 9)))).map
      (fun o : Option (Fin 9) => o.elim z fun q => (d q).getD z)) = d := by
    funext p
    cases hp : d p <;> simp [hp]
  rw [h2] at h
  exact h

/-- The filled list, in terms of the sources. -/
theorem fill_spec (z : α) (d : Fin 9 → Option α) :
    (∀ p, (fill z d).2[(fill z d).1 p]? = some ((sourceOf (fun p => (d p).isSome) p).elim z fun q => (d q).getD z)) ∧
    (∀ t ∈ (fill z d).2.tail, ∃ q, d q = some t) ∧
    (∀ q t, d q = some t → t ∈ (fill z d).2.tail) ∧
    (1 < (fill z d).2.length ↔ ∃ q, (d q).isSome = true) := by
  obtain ⟨h1, h2, h3, h4⟩ := ids_spec fun p => (d p).isSome
  rw [fill_ids]
  refine ⟨fun p => ?_, fun t ht => ?_, fun q t ht => ?_, ?_⟩
  · rw [List.getElem?_map, h1]; rfl
  · rw [← List.map_tail, List.mem_map] at ht
    obtain ⟨o, ho, rfl⟩ := ht
    obtain ⟨q, hq, rfl⟩ := h2 o ho
    obtain ⟨a, ha⟩ := Option.isSome_iff_exists.mp hq
    exact ⟨q, by simp [ha]⟩
  · rw [← List.map_tail, List.mem_map]
    exact ⟨some q, h3 q (by simp [ht]), by simp [ht]⟩
  · simpa using h4

end Fill

variable {K : Type} [Field K] [LinearOrder K] [IsStrictOrderedRing K]

theorem mapM_some {ι β : Type} (g : ι → Option β) (h : ι → β) (l : List ι) (hg : ∀ i ∈ l, g i = some (h i)) :
    l.mapM g = some (l.map h) := by
  induction l with
  | nil => rfl
  | cons a l ih =>
    rw [List.mapM_cons, hg a (by simp), ih fun i hi => hg i (by simp [hi])]
    rfl

/-- The number at a position of the tensor of global cell `g`, before the lower bound is applied. -/
def sourceVal (d : Fin 9 → Option (List K)) (g : Nat) (p : Fin 9) : K :=
  (sourceOf (fun p => (d p).isSome) p).elim 0 fun q => ((d q).getD []).getD g 0

/-- The arrays all have one entry for each cell of the Cartesian grid. -/
def Sized (ncell : Nat) (d : Fin 9 → Option (List K)) : Prop := ∀ p l, d p = some l → l.length = ncell

theorem cellPerm_eq {ncell : Nat} {d : Fin 9 → Option (List K)} (hs : Sized ncell d) {thr : K} {g : Nat} (hg : g < ncell) :
    cellPerm (fill (List.replicate ncell 0) d).1 (fill (List.replicate ncell 0) d).2 thr g =
      some ((List.finRange 9).map fun p => if rowOf p = colOf p then max (sourceVal d g p) thr else sourceVal d g p) := by
  unfold cellPerm
  refine mapM_some _ _ _ fun p _ => ?_
  rw [(fill_spec (List.replicate ncell 0) d).1 p]
  have hv : ((sourceOf (fun p => (d p).isSome) p).elim (List.replicate ncell 0) fun q => (d q).getD (List.replicate ncell 0))[g]? =
      some (sourceVal d g p) := by
    unfold sourceVal
    cases h : sourceOf (fun p => (d p).isSome) p with
    | none => simp [List.getElem?_replicate, hg]
    | some q =>
      have hq := source_given _ _ _ h
      obtain ⟨l, hl⟩ := Option.isSome_iff_exists.mp hq
      have hlen := hs q l hl
      simp [hl, List.getD_eq_getElem?_getD, List.getElem?_eq_getElem (hlen ▸ hg : g < l.length)]
  simp only [Option.bind_some, hv, Option.map_some]
  congr 1
  by_cases hd : p.val / 3 = p.val % 3
  · rw [if_pos hd, if_pos (show rowOf p = colOf p from hd)]
    by_cases hlt : sourceVal d g p < thr
    · rw [if_pos hlt, max_eq_right hlt.le]
    · rw [if_neg hlt, max_eq_left (not_lt.mp hlt)]
  · rw [if_neg hd, if_neg (show ¬ rowOf p = colOf p from hd)]

/-- **C50** (accepted inputs). An input whose components are admissible and whose arrays all have the size of the Cartesian grid is
accepted. If it has any component then each cell's number at row `i`, column `j` is the value, in the cell's global cell, of the
component described by `sourceOf` (zero if there is none), on the diagonal raised to the threshold. -/
theorem C50_tensor {ncell : Nat} {d : Fin 9 → Option (List K)} (hs : Sized ncell d) (hadm : Admissible fun p => (d p).isSome)
    {gc : List Nat} (hgc : ∀ g ∈ gc, g < ncell) (hn : ncell ≠ 0) (hany : ∃ p, (d p).isSome = true) (thr : K) :
    ∃ r, assignPermeability ncell d gc thr = some r ∧ r.kind = classify (fun p => (d p).isSome) ∧ r.valid = List.replicate gc.length true ∧
      r.perm.length = gc.length ∧
      ∀ c g : Nat, gc[c]? = some g → ∃ l, r.perm[c]? = some l ∧ l.length = 9 ∧
        ∀ p : Fin 9, l[p.val]? = some (if rowOf p = colOf p then max (sourceVal d g p) thr else sourceVal d g p) := by
  have hc : classify (fun p => (d p).isSome) ≠ Kind.invalid := fun h => (C50_classify _).1.mp h hadm
  have hf := fill_spec (List.replicate ncell (0 : K)) d
  have hsz : ¬ ∃ t ∈ (fill (List.replicate ncell (0 : K)) d).2.tail, t.length ≠ ncell := by
    rintro ⟨t, ht, hne⟩
    obtain ⟨q, hq⟩ := hf.2.1 t ht
    exact hne (hs q t hq)
  have hm := mapM_some (cellPerm (fill (List.replicate ncell (0 : K)) d).1 (fill (List.replicate ncell (0 : K)) d).2 thr) _ gc
    fun g hg => cellPerm_eq hs (thr := thr) (hgc g hg)
  refine ⟨_, (if_neg hn).trans ((if_neg hc).trans ((if_neg hsz).trans ((if_pos (hf.2.2.2.mpr hany)).trans
    (congrArg (Option.map _) hm)))), rfl, rfl, by simp, fun c g hcg => ⟨(List.finRange 9).map fun p =>
      if rowOf p = colOf p then max (sourceVal d g p) thr else sourceVal d g p, ?_, ?_, fun p => ?_⟩⟩
  · rw [List.getElem?_map, hcg]; rfl
  · simp
  · simp

/-- A small input: `PERMX` and `PERMZ` on a grid of three cells. -/
def exPerm : Fin 9 → Option (List ℚ) := fun p => if p = 0 then some [10, 20, 30] else if p = 8 then some [1, 2, 3] else none

example : Sized 3 exPerm ∧ (Admissible fun p => (exPerm p).isSome) ∧ (∃ p, (exPerm p).isSome = true) ∧
    (assignPermeability 3 exPerm [2, 0] 2).map Perm.perm =
      some [[30, 0, 0, 0, 30, 0, 0, 0, 3], [10, 0, 0, 0, 10, 0, 0, 0, 2]] := by
  refine ⟨?_, ?_, ⟨0, rfl⟩, by decide +kernel⟩
  · intro p l h
    unfold exPerm at h
    split_ifs at h <;> (injection h with h; subst h; rfl)
  · unfold Admissible; decide +kernel

theorem assign_inv {ncell : Nat} {d : Fin 9 → Option (List K)} {gc : List Nat} {thr : K} {r : Perm K}
    (h : assignPermeability ncell d gc thr = some r) :
    ncell ≠ 0 ∧ (Admissible fun p => (d p).isSome) ∧ Sized ncell d ∧
    ((∀ p, d p = none) → r = ⟨Kind.none, List.replicate gc.length (List.replicate 9 0), List.replicate gc.length false⟩) := by
  have hf := fill_spec (List.replicate ncell (0 : K)) d
  unfold assignPermeability at h
  by_cases h0 : ncell = 0
  · rw [if_pos h0] at h; cases h
  rw [if_neg h0] at h
  by_cases h1 : classify (fun p => (d p).isSome) = Kind.invalid
  · rw [if_pos h1] at h; cases h
  rw [if_neg h1] at h
  simp only at h
  by_cases h2 : ∃ t ∈ (fill (List.replicate ncell (0 : K)) d).2.tail, t.length ≠ ncell
  · rw [if_pos h2] at h; cases h
  rw [if_neg h2] at h
  refine ⟨h0, ?_, fun p l hp => ?_, fun hno => ?_⟩
  · by_contra hn
    exact h1 ((C50_classify _).1.mpr hn)
  · by_contra hn
    exact h2 ⟨l, hf.2.2.1 p l hp, hn⟩
  · have hlen : ¬ (fill (List.replicate ncell (0 : K)) d).2.length > 1 := by
      intro hgt
      obtain ⟨q, hq⟩ := hf.2.2.2.mp hgt
      rw [hno q] at hq; cases hq
    rw [if_neg hlen] at h
    injection h with h
    rw [← h, (C50_classify _).2.2.1.mpr (fun p => by rw [hno p]; rfl)]

theorem assign_cell {ncell : Nat} {d : Fin 9 → Option (List K)} {gc : List Nat} (hgc : ∀ g ∈ gc, g < ncell) {thr : K} {r : Perm K}
    (h : assignPermeability ncell d gc thr = some r) (hany : ∃ p, (d p).isSome = true) {c g : Nat} (hc : gc[c]? = some g) :
    ∃ l, r.perm[c]? = some l ∧ l.length = 9 ∧
      ∀ p : Fin 9, l[p.val]? = some (if rowOf p = colOf p then max (sourceVal d g p) thr else sourceVal d g p) := by
  obtain ⟨h0, h1, h2, _⟩ := assign_inv h
  obtain ⟨r', hr', _, _, _, hl⟩ := C50_tensor h2 h1 hgc h0 hany thr
  rw [h] at hr'
  injection hr' with hr'
  subst hr'
  exact hl c g hc

/-- **C50** (rejected inputs). An input with inadmissible components, with an array of the wrong size or for a grid without cells is
rejected. -/
theorem C50_reject {ncell : Nat} {d : Fin 9 → Option (List K)} {gc : List Nat} {thr : K}
    (h : ncell = 0 ∨ ¬ (Admissible fun p => (d p).isSome) ∨ ∃ p l, d p = some l ∧ l.length ≠ ncell) :
    assignPermeability ncell d gc thr = none := by
  cases hr : assignPermeability ncell d gc thr with
  | none => rfl
  | some r =>
    obtain ⟨h0, h1, h2, _⟩ := assign_inv hr
    rcases h with h | h | ⟨p, l, hp, hl⟩
    · exact absurd h h0
    · exact absurd h1 h
    · exact absurd (h2 p l hp) hl

example : ¬ Admissible fun p => (![none, some [(1 : ℚ)], none, none, none, none, none, none, none] p).isSome := by
  unfold Admissible; decide +kernel

/-- **C50** (symmetry). Each cell's tensor is symmetric. -/
theorem C50_symmetric {ncell : Nat} {d : Fin 9 → Option (List K)} {gc : List Nat} (hgc : ∀ g ∈ gc, g < ncell) {thr : K} {r : Perm K}
    (h : assignPermeability ncell d gc thr = some r) {c g : Nat} (hc : gc[c]? = some g) (i j : Nat) (hi : i < 3) (hj : j < 3) :
    ∃ l v, r.perm[c]? = some l ∧ l[3 * i + j]? = some v ∧ l[3 * j + i]? = some v := by
  by_cases hany : ∃ p, (d p).isSome = true
  · obtain ⟨l, h1, _, h3⟩ := assign_cell hgc h hany hc
    have hm : ∀ p : Fin 9, l[(mirror p).val]? = l[p.val]? := by
      intro p
      by_cases hp : Off p
      · have hp' : Off (mirror p) := by revert p; decide
        rw [h3, h3, if_neg hp, if_neg hp']
        unfold sourceVal
        rw [source_mirror _ p hp]
      · have : mirror p = p := by revert p; decide
        rw [this]
    have hv : mirror ⟨3 * i + j, by omega⟩ = ⟨3 * j + i, by omega⟩ := by
      interval_cases i <;> interval_cases j <;> rfl
    refine ⟨l, _, h1, h3 ⟨3 * i + j, by omega⟩, ?_⟩
    have := hm ⟨3 * i + j, by omega⟩
    rw [hv, h3 ⟨3 * i + j, by omega⟩] at this
    exact this
  · have hno : ∀ p, d p = none := by
      intro p
      cases hp : d p with
      | none => rfl
      | some l => exact absurd ⟨p, by rw [hp]; rfl⟩ hany
    rw [(assign_inv h).2.2.2 hno]
    have hlt : c < gc.length := (List.getElem?_eq_some_iff.mp hc).1
    refine ⟨List.replicate 9 0, 0, ?_, ?_, ?_⟩
    · simp [List.getElem?_replicate, hlt]
    · rw [List.getElem?_replicate, if_pos (by omega)]
    · rw [List.getElem?_replicate, if_pos (by omega)]

/-- **C50** (each component at its place). The values of a supplied component are found at its row and column, on the diagonal raised to
the threshold. What is missing: of two supplied components at mirrored positions only the one below the diagonal is used. -/
theorem C50_position_partial {ncell : Nat} {d : Fin 9 → Option (List K)} {gc : List Nat} (hgc : ∀ g ∈ gc, g < ncell) {thr : K} {r : Perm K}
    (h : assignPermeability ncell d gc thr = some r) {c g : Nat} (hc : gc[c]? = some g) {p : Fin 9} {f : List K} (hp : d p = some f)
    (hm : rowOf p < colOf p → d (mirror p) = none) :
    ∃ l v, r.perm[c]? = some l ∧ f[g]? = some v ∧ l[p.val]? = some (if rowOf p = colOf p then max v thr else v) := by
  obtain ⟨l, h1, _, h3⟩ := assign_cell hgc h ⟨p, by rw [hp]; rfl⟩ hc
  have hlen := (assign_inv h).2.2.1 p f hp
  have hg : g < f.length := hlen ▸ hgc g (List.mem_of_getElem? hc)
  refine ⟨l, f[g], h1, List.getElem?_eq_getElem hg, ?_⟩
  rw [h3]
  have hs := source_own (fun p => (d p).isSome) p (by simp [hp]) (fun hlt => by simp [hm hlt])
  have : sourceVal d g p = f[g] := by
    unfold sourceVal
    rw [hs]
    simp [hp, List.getD_eq_getElem?_getD, List.getElem?_eq_getElem hg]
  rw [this]

/-- **C50** fails for mirrored components that differ: `PERMXY` is silently replaced by `PERMYX`. -/
theorem C50_violated_pair : ∃ (d : Fin 9 → Option (List ℚ)) (r : Perm ℚ) (l : List ℚ),
    assignPermeability 1 d [0] 0 = some r ∧ d 1 = some [1] ∧ r.perm[0]? = some l ∧ l[1]? = some 2 :=
  ⟨![some [10], some [1], none, some [2], some [10], none, none, none, some [10]], _, _, rfl, rfl, rfl, by decide +kernel⟩

/-- **C50** (lower bound). In an input with any component, every diagonal number is at least the threshold. -/
theorem C50_threshold {ncell : Nat} {d : Fin 9 → Option (List K)} {gc : List Nat} (hgc : ∀ g ∈ gc, g < ncell) {thr : K} {r : Perm K}
    (h : assignPermeability ncell d gc thr = some r) (hany : ∃ p, (d p).isSome = true) {c g : Nat} (hc : gc[c]? = some g)
    (i : Nat) (hi : i < 3) : ∃ l v, r.perm[c]? = some l ∧ l[3 * i + i]? = some v ∧ thr ≤ v := by
  obtain ⟨l, h1, _, h3⟩ := assign_cell hgc h hany hc
  refine ⟨l, _, h1, h3 ⟨3 * i + i, by omega⟩, ?_⟩
  have : rowOf ⟨3 * i + i, by omega⟩ = colOf ⟨3 * i + i, by omega⟩ := by
    simp only [rowOf, colOf]; omega
  rw [if_pos this]
  exact le_max_right _ _

/-- **C50** (no permeability). Without any component the input is accepted, but asking for the permeability of any cell fails an
assertion. -/
theorem C50_none {d : Deck K} {gc : List Nat} {thr : K} {s : State K} (h : initDeck d gc thr = some s) (hno : ∀ p, d.perm p = none) (c : Nat) :
    s.permeability c = none := by
  unfold initDeck at h
  simp only [Option.bind_eq_some_iff, Option.map_eq_some_iff] at h
  obtain ⟨_, _, _, _, _, _, _, _, p, hp, _, _, rfl⟩ := h
  rw [(assign_inv hp).2.2.2 hno]
  unfold State.permeability
  by_cases hc : c < gc.length
  · simp [List.getElem?_replicate, hc]
  · simp [List.getElem?_replicate, hc]

/-- What a cell's value should be: the default, or the entry of the cell's global cell. -/
def Shows {α : Type} (dflt : α) (field : Option (List α)) (g : Nat) (v : Option α) : Prop :=
  (field = none → v = some dflt) ∧ ∀ l, field = some l → v = l[g]? ∧ v.isSome = true

theorem field_ok {α : Type} {ncell : Nat} {dflt : α} {field : Option (List α)} {gc : List Nat} (hgc : ∀ g ∈ gc, g < ncell)
    (hl : ∀ l, field = some l → l.length = ncell) :
    ∃ v, assignField ncell dflt field gc = some v ∧ v.length = gc.length ∧ ∀ c g : Nat, gc[c]? = some g → Shows dflt field g v[c]? := by
  cases field with
  | none =>
    refine ⟨_, rfl, by simp, fun c g hc => ⟨fun _ => ?_, fun l h => (by cases h)⟩⟩
    have hlt : c < gc.length := (List.getElem?_eq_some_iff.mp hc).1
    simp [List.getElem?_replicate, hlt]
  | some l =>
    have hlen := hl l rfl
    have hm := mapM_some (fun g => l[g]?) (fun g => l.getD g dflt) gc (fun g hg => by
      have : g < l.length := hlen ▸ hgc g hg
      simp [List.getElem?_eq_getElem this])
    refine ⟨_, (if_neg (not_not.mpr hlen)).trans hm, by simp, fun c g hc => ⟨fun h => (by cases h), fun l' h => ?_⟩⟩
    injection h with h
    subst h
    have : g < l.length := hlen ▸ hgc g (List.mem_of_getElem? hc)
    simp [hc, List.getElem?_eq_getElem this]

theorem field_reject {α : Type} {ncell : Nat} {dflt : α} {gc : List Nat} {l : List α} (hl : l.length ≠ ncell) :
    assignField ncell dflt (some l) gc = none := if_pos hl

/-- The rock numbers of the deck, starting from one: `SATNUM` if it is given, else `ROCKTYPE`. -/
def Deck.rocks (d : Deck K) : Option (List Int) := if d.satnum.isSome then d.satnum else d.rocktype

theorem rock_eq (ncell : Nat) (a b : Option (List Int)) (gc : List Nat) :
    assignRock ncell a b gc = assignField ncell 0 ((if a.isSome then a else b).map fun l => l.map (· - 1)) gc := by
  unfold assignRock assignField
  cases a with
  | some l => simp
  | none =>
    cases b with
    | none => rfl
    | some l => simp

/-- The arrays that are read from the deck all have one entry for each cell of the Cartesian grid. -/
def Deck.Sized (d : Deck K) : Prop :=
  (∀ l, d.poro = some l → l.length = d.ncell) ∧ (∀ l, d.ntg = some l → l.length = d.ncell) ∧
  (∀ l, d.swcr = some l → l.length = d.ncell) ∧ (∀ l, d.sowcr = some l → l.length = d.ncell) ∧
  (∀ p l, d.perm p = some l → l.length = d.ncell) ∧ (∀ l, d.rocks = some l → l.length = d.ncell)

/-- **C51** (accepted decks). A deck with arrays of the right size and admissible permeability components is accepted. Each active cell then
shows the values of its global cell: porosity and net-to-gross (default one), the critical saturations (default zero) and the rock number
minus one (default zero), `SATNUM` taking precedence over `ROCKTYPE`. -/
theorem C51_fields {d : Deck K} {gc : List Nat} (hgc : ∀ g ∈ gc, g < d.ncell) (hn : d.ncell ≠ 0) (hs : d.Sized)
    (hadm : Admissible fun p => (d.perm p).isSome) (thr : K) :
    ∃ s, initDeck d gc thr = some s ∧ s.kind = classify (fun p => (d.perm p).isSome) ∧
      s.porosity.length = gc.length ∧ s.ntg.length = gc.length ∧ s.swcr.length = gc.length ∧ s.sowcr.length = gc.length ∧
      s.rock.length = gc.length ∧
      ∀ c g : Nat, gc[c]? = some g →
        Shows 1 d.poro g s.porosity[c]? ∧ Shows 1 d.ntg g s.ntg[c]? ∧ Shows 0 d.swcr g s.swcr[c]? ∧ Shows 0 d.sowcr g s.sowcr[c]? ∧
        (d.rocks = none → s.rock[c]? = some 0) ∧
        ∀ l, d.rocks = some l → ∃ r, l[g]? = some r ∧ s.rock[c]? = some (r - 1) := by
  obtain ⟨h1, h2, h3, h4, h5, h6⟩ := hs
  obtain ⟨v1, e1, l1, w1⟩ := field_ok (dflt := (1 : K)) hgc h1
  obtain ⟨v2, e2, l2, w2⟩ := field_ok (dflt := (1 : K)) hgc h2
  obtain ⟨v3, e3, l3, w3⟩ := field_ok (dflt := (0 : K)) hgc h3
  obtain ⟨v4, e4, l4, w4⟩ := field_ok (dflt := (0 : K)) hgc h4
  obtain ⟨v6, e6, l6, w6⟩ := field_ok (dflt := (0 : Int)) (field := d.rocks.map fun l => l.map (· - 1)) hgc (by
    intro l hl
    cases hr : d.rocks with
    | none => rw [hr] at hl; cases hl
    | some l' =>
      rw [hr] at hl
      injection hl with hl
      rw [← hl, List.length_map]; exact h6 l' hr)
  have e6' : assignRock d.ncell d.satnum d.rocktype gc = some v6 := (rock_eq _ _ _ _).trans e6
  obtain ⟨p, hp, hk⟩ : ∃ p, assignPermeability d.ncell d.perm gc thr = some p ∧ p.kind = classify (fun p => (d.perm p).isSome) := by
    by_cases hany : ∃ p, (d.perm p).isSome = true
    · obtain ⟨r, hr, hk, _⟩ := C50_tensor h5 hadm hgc hn hany thr
      exact ⟨r, hr, hk⟩
    · have hc : classify (fun p => (d.perm p).isSome) ≠ Kind.invalid := fun h => (C50_classify _).1.mp h hadm
      have hf := fill_spec (List.replicate d.ncell (0 : K)) d.perm
      have hsz : ¬ ∃ t ∈ (fill (List.replicate d.ncell (0 : K)) d.perm).2.tail, t.length ≠ d.ncell := by
        rintro ⟨t, ht, hne⟩
        obtain ⟨q, hq⟩ := hf.2.1 t ht
        exact hne (h5 q t hq)
      exact ⟨_, (if_neg hn).trans ((if_neg hc).trans ((if_neg hsz).trans (if_neg fun hgt => hany (hf.2.2.2.mp hgt)))), rfl⟩
  refine ⟨⟨v1, v2, v3, v4, p.perm, p.valid, v6, p.kind⟩, ?_, hk, l1, l2, l3, l4, l6, fun c g hc =>
    ⟨w1 c g hc, w2 c g hc, w3 c g hc, w4 c g hc, fun hr => ?_, fun l hr => ?_⟩⟩
  · unfold initDeck
    rw [e1, e2, e3, e4, hp, e6']
    rfl
  · exact (w6 c g hc).1 (by rw [hr]; rfl)
  · obtain ⟨a, b⟩ := (w6 c g hc).2 _ (by rw [hr]; rfl)
    have hlt : g < l.length := h6 l hr ▸ hgc g (List.mem_of_getElem? hc)
    refine ⟨l[g], List.getElem?_eq_getElem hlt, ?_⟩
    change v6[c]? = _
    rw [a, List.getElem?_map, List.getElem?_eq_getElem hlt]
    rfl

/-- A deck with porosity, `PERMX`, `SATNUM` and `ROCKTYPE`. -/
def exDeck : Deck ℚ :=
  { ncell := 3, poro := some [1/10, 2/10, 3/10], ntg := none, swcr := some [0, 1/20, 1/10], sowcr := none,
    perm := exPerm, satnum := some [1, 2, 3], rocktype := some [7, 7, 7] }

example : (initDeck exDeck [2, 0] 0).map State.porosity = some [3/10, 1/10] ∧ (initDeck exDeck [2, 0] 0).map State.rock = some [2, 0] := by
  decide +kernel

/-- **C51** (rejected decks). A deck with an array of the wrong size is rejected. -/
theorem C51_reject {d : Deck K} {gc : List Nat} {thr : K} (hs : ¬ d.Sized) : initDeck d gc thr = none := by
  cases h : initDeck d gc thr with
  | none => rfl
  | some s =>
    exfalso
    apply hs
    unfold initDeck at h
    simp only [Option.bind_eq_some_iff, Option.map_eq_some_iff] at h
    obtain ⟨v1, e1, v2, e2, v3, e3, v4, e4, p, hp, v6, e6, _⟩ := h
    have key : ∀ {α : Type} {dflt : α} {field : Option (List α)} {v : List α}, assignField d.ncell dflt field gc = some v →
        ∀ l, field = some l → l.length = d.ncell := by
      intro α dflt field v e l hl
      by_contra hne
      rw [hl, field_reject hne] at e
      cases e
    refine ⟨key e1, key e2, key e3, key e4, (assign_inv hp).2.2.1, fun l hl => ?_⟩
    rw [rock_eq] at e6
    have := key e6 (l.map (· - 1)) (by
      change Option.map _ d.rocks = _
      rw [hl]; rfl)
    rwa [List.length_map] at this

example : ¬ ({ exDeck with poro := some [1, 2] } : Deck ℚ).Sized := fun h => absurd (h.1 _ rfl) (by decide)

/-- **C51** fails as a guarantee of usable rock numbers: the numbers are not checked, zero becomes minus one. -/
theorem C51_violated_rock : ∃ (d : Deck ℚ) (s : State ℚ), initDeck d [0] 0 = some s ∧ s.rock = [-1] :=
  ⟨⟨1, none, none, none, none, fun _ => none, some [0], none⟩, _, rfl, by decide +kernel⟩

/-- **C85** (uniform properties). After a uniform initialization every cell has the given porosity, the given permeability times the
identity, which can be read, and the first rock. -/
theorem C85_uniform (s : State K) (n : Nat) (poro perm : K) {c : Nat} (hc : c < n) :
    (s.initUniform n poro perm).porosity[c]? = some poro ∧ (s.initUniform n poro perm).rock[c]? = some 0 ∧
    ∃ l, (s.initUniform n poro perm).permeability c = some l ∧ l.length = 9 ∧
      ∀ i j : Nat, i < 3 → j < 3 → l[3 * i + j]? = some (if i = j then perm else 0) := by
  refine ⟨by simp [State.initUniform, List.getElem?_replicate, hc], by simp [State.initUniform, List.getElem?_replicate, hc],
    (List.range 9).map (fun p => if p / 3 = p % 3 then perm else 0), ?_, by simp, fun i j hi hj => ?_⟩
  · simp [State.permeability, State.initUniform, List.getElem?_replicate, hc]
  · interval_cases i <;> interval_cases j <;> rfl

/-- **C85** fails for the other members: net-to-gross and critical saturations of a fresh object are not set, and the legacy output fails. -/
theorem C85_violated_unset (n : Nat) (poro perm : K) (c : Nat) :
    ((State.fresh : State K).initUniform n poro perm).ntg[c]? = none ∧
    ((State.fresh : State K).initUniform n poro perm).swcr[c]? = none ∧
    ((State.fresh : State K).initUniform n poro perm).sowcr[c]? = none ∧
    ((State.fresh : State K).initUniform n poro perm).writePerm = none := ⟨rfl, rfl, rfl, rfl⟩

/-- The numbers that are written for a cell. -/
def part (k : Kind) (l : List K) : List K :=
  match k with
  | .tensor => l
  | .diagonal => [l.getD 0 0, l.getD 4 0, l.getD 8 0]
  | _ => [l.getD 0 0]

theorem flat_part {α : Type} {n : Nat} (ll : List (List α)) (h : ∀ l ∈ ll, l.length = n) {c : Nat} {l : List α} (hl : ll[c]? = some l) :
    (ll.flatten.drop (n * c)).take n = l := by
  induction ll generalizing c with
  | nil => simp at hl
  | cons a ll ih =>
    cases c with
    | zero =>
      simp only [List.getElem?_cons_zero, Option.some.injEq] at hl
      subst hl
      have := h a (by simp)
      simp [← this]
    | succ c =>
      rw [List.getElem?_cons_succ] at hl
      have ha := h a (by simp)
      rw [List.flatten_cons, show n * (c + 1) = a.length + n * c by rw [ha]; ring, List.drop_append]
      rw [List.drop_eq_nil_of_le (by omega), List.nil_append, Nat.add_sub_cancel_left]
      exact ih (fun l hl => h l (by simp [hl])) hl

theorem flat_length {α : Type} {n : Nat} (ll : List (List α)) (h : ∀ l ∈ ll, l.length = n) : ll.flatten.length = n * ll.length := by
  induction ll with
  | nil => simp
  | cons a ll ih =>
    rw [List.flatten_cons, List.length_append, ih (fun l hl => h l (by simp [hl])), h a (by simp), List.length_cons]
    ring

theorem nine {α : Type} (l : List α) (h : l.length = 9) :
    ∃ a0 a1 a2 a3 a4 a5 a6 a7 a8, l = [a0, a1, a2, a3, a4, a5, a6, a7, a8] := by
  match l, h with
  | [a0, a1, a2, a3, a4, a5, a6, a7, a8], _ => exact ⟨a0, a1, a2, a3, a4, a5, a6, a7, a8, rfl⟩

theorem range_reads {α β : Type} (ll : List α) (f : α → Option β) (g : α → β) (h : ∀ a ∈ ll, f a = some (g a)) :
    ((List.range ll.length).mapM fun c => (ll[c]?).bind f) = some (ll.map g) := by
  cases hll : ll with
  | nil => rfl
  | cons a0 ll0 =>
  rw [← hll]
  have h1 := mapM_some (fun c => (ll[c]?).bind f) (fun c => if hc : c < ll.length then g ll[c] else g a0) (List.range ll.length)
    (fun c hc => by
      have hc := List.mem_range.mp hc
      rw [List.getElem?_eq_getElem hc, dif_pos hc]
      exact h _ (List.getElem_mem hc))
  rw [h1]
  congr 1
  apply List.ext_getElem
  · simp
  · intro i h1 h2
    have : i < ll.length := by simpa using h2
    simp [this]

theorem writePerm_eq (s : State K) (h9 : ∀ l ∈ s.perm, l.length = 9) (hlen : s.porosity.length = s.perm.length) (hk : s.kind ≠ .invalid) :
    s.writePerm = some (s.perm.map (part s.kind)).flatten := by
  have hone : ((List.range s.porosity.length).mapM fun c => (s.perm[c]?).bind fun l => l[0]?) =
      some (s.perm.map (fun l => [l.getD 0 0])).flatten := by
    rw [hlen, range_reads s.perm (fun l => l[0]?) (fun l => l.getD 0 0) (fun l hl => by
      obtain ⟨a0, a1, a2, a3, a4, a5, a6, a7, a8, rfl⟩ := nine l (h9 l hl)
      rfl)]
    congr 1
    induction s.perm with
    | nil => rfl
    | cons a ll ih => rw [List.map_cons, List.map_cons, List.flatten_cons, ih]; rfl
  unfold State.writePerm
  cases hkk : s.kind with
  | tensor => rw [show s.perm.map (part .tensor) = s.perm from List.map_id _]
  | diagonal =>
    simp only
    have : ((List.range s.porosity.length).mapM fun c => (List.range 3).mapM fun dd => (s.perm[c]?).bind fun l => l[(3 + 1) * dd]?) =
        ((List.range s.perm.length).mapM fun c => (s.perm[c]?).bind fun l => (List.range 3).mapM fun dd => l[(3 + 1) * dd]?) := by
      rw [hlen]
      congr 1
      funext c
      cases s.perm[c]? with
      | none => rfl
      | some l => rfl
    rw [this, range_reads s.perm _ (part .diagonal) (fun l hl => by
      obtain ⟨a0, a1, a2, a3, a4, a5, a6, a7, a8, rfl⟩ := nine l (h9 l hl)
      rfl)]
    rfl
  | scalar => exact hone
  | none => exact hone
  | invalid => exact absurd hkk hk

/-- **C84** (legacy output). For every accepted deck the permeability file is written; it has a fixed number of values per cell (nine, three
or one, depending on the kind), from which the tensor of every cell is recovered. -/
theorem C84_legacy {d : Deck K} {gc : List Nat} (hgc : ∀ g ∈ gc, g < d.ncell) {thr : K} {s : State K} (h : initDeck d gc thr = some s) :
    ∃ t, s.writePerm = some t ∧ t.length = perCell s.kind * gc.length ∧
      ∀ (c : Nat) (l : List K), s.perm[c]? = some l →
        reconstruct s.kind ((t.drop (perCell s.kind * c)).take (perCell s.kind)) = l := by
  have hsz : d.Sized := by
    by_contra hn
    rw [C51_reject hn] at h; cases h
  obtain ⟨p, hp, e1, e2, e3⟩ : ∃ p, assignPermeability d.ncell d.perm gc thr = some p ∧ s.perm = p.perm ∧ s.kind = p.kind ∧
      s.porosity.length = gc.length := by
    have h' := h
    unfold initDeck at h'
    simp only [Option.bind_eq_some_iff, Option.map_eq_some_iff] at h'
    obtain ⟨v1, w1, _, _, _, _, _, _, p, hp, _, _, rfl⟩ := h'
    obtain ⟨v, hv, hl, _⟩ := field_ok (dflt := (1 : K)) hgc hsz.1
    rw [w1] at hv
    injection hv with hv
    exact ⟨p, hp, rfl, rfl, by rw [hv]; exact hl⟩
  obtain ⟨h0, hadm, _, hnone⟩ := assign_inv hp
  -- the tensor of each cell
  have key : p.kind ≠ .invalid ∧ p.perm.length = gc.length ∧ ∀ l ∈ p.perm, l.length = 9 ∧ reconstruct p.kind (part p.kind l) = l := by
    by_cases hany : ∃ q, (d.perm q).isSome = true
    · obtain ⟨r, hr, hk, _, hlen, hcell⟩ := C50_tensor hsz.2.2.2.2.1 hadm hgc h0 hany thr
      rw [hp] at hr
      injection hr with hr
      subst hr
      refine ⟨fun hi => (C50_classify _).1.mp (hk ▸ hi) hadm, hlen, fun l hl => ?_⟩
      obtain ⟨c, hc⟩ := List.mem_iff_getElem?.mp hl
      have hcl : c < gc.length := by
        rw [← hlen]; exact (List.getElem?_eq_some_iff.mp hc).1
      obtain ⟨l', h1, h9, hv⟩ := hcell c gc[c] (List.getElem?_eq_getElem hcl)
      rw [hc] at h1
      injection h1 with h1
      subst h1
      refine ⟨h9, ?_⟩
      obtain ⟨a0, a1, a2, a3, a4, a5, a6, a7, a8, rfl⟩ := nine l h9
      have off : ∀ q : Fin 9, Off q → sourceOf (fun q => (d.perm q).isSome) q = none →
          [a0, a1, a2, a3, a4, a5, a6, a7, a8][q.val]? = some 0 := by
        intro q hq hs
        rw [hv q, if_neg hq]
        unfold sourceVal
        rw [hs]; rfl
      have offs : (∀ q, Off q → sourceOf (fun q => (d.perm q).isSome) q = none) →
          a1 = 0 ∧ a2 = 0 ∧ a3 = 0 ∧ a5 = 0 ∧ a6 = 0 ∧ a7 = 0 := by
        intro ho
        have o1 := off 1 (by decide) (ho 1 (by decide))
        have o2 := off 2 (by decide) (ho 2 (by decide))
        have o3 := off 3 (by decide) (ho 3 (by decide))
        have o5 := off 5 (by decide) (ho 5 (by decide))
        have o6 := off 6 (by decide) (ho 6 (by decide))
        have o7 := off 7 (by decide) (ho 7 (by decide))
        refine ⟨?_, ?_, ?_, ?_, ?_, ?_⟩
        · simpa using o1
        · simpa using o2
        · simpa using o3
        · simpa using o5
        · simpa using o6
        · simpa using o7
      cases hkk : p.kind with
      | tensor => rfl
      | invalid => exact absurd hadm ((C50_classify _).1.mp (hk ▸ hkk))
      | none =>
        obtain ⟨q, hq⟩ := hany
        have := (C50_classify _).2.2.1.mp (hk ▸ hkk) q
        rw [this] at hq; cases hq
      | diagonal =>
        obtain ⟨rfl, rfl, rfl, rfl, rfl, rfl⟩ := offs (diagonal_source _ (hk ▸ hkk))
        rfl
      | scalar =>
        obtain ⟨s1, s2⟩ := scalar_source _ (hk ▸ hkk)
        obtain ⟨rfl, rfl, rfl, rfl, rfl, rfl⟩ := offs s1
        have v0 := hv 0
        have v4 := hv 4
        have v8 := hv 8
        rw [if_pos (by decide)] at v0 v4 v8
        unfold sourceVal at v0 v4 v8
        rw [s2 4 (by decide)] at v4
        rw [s2 8 (by decide)] at v8
        have e4 : a4 = a0 := by
          have := v4.trans v0.symm
          simpa using this
        have e8 : a8 = a0 := by
          have := v8.trans v0.symm
          simpa using this
        subst e4 e8
        rfl
    · have hno : ∀ q, d.perm q = none := by
        intro q
        cases hq : d.perm q with
        | none => rfl
        | some l => exact absurd ⟨q, by rw [hq]; rfl⟩ hany
      rw [hnone hno]
      refine ⟨fun hk => (by cases hk), by simp, fun l hl => ?_⟩
      rw [List.eq_of_mem_replicate hl]
      exact ⟨by simp, rfl⟩
  obtain ⟨hk, hlen, h9⟩ := key
  have hw := writePerm_eq s (fun l hl => (h9 l (e1 ▸ hl)).1) (by rw [e3, e1, hlen]) (e2 ▸ hk)
  have hpart : ∀ l ∈ s.perm.map (part s.kind), l.length = perCell s.kind := by
    intro l hl
    obtain ⟨l', hl', rfl⟩ := List.mem_map.mp hl
    have := (h9 l' (e1 ▸ hl')).1
    cases s.kind <;> simp [part, perCell, this]
  refine ⟨_, hw, ?_, fun c l hc => ?_⟩
  · rw [flat_length _ hpart, List.length_map, e1, hlen]
  · rw [flat_part _ hpart (c := c) (l := part s.kind l) (by rw [List.getElem?_map, hc]; rfl), e2]
    exact (h9 l (e1 ▸ List.mem_of_getElem? hc)).2

example : (initDeck exDeck [2, 0] 0).bind State.writePerm = some [30, 30, 3, 10, 10, 1] := by decide +kernel

end Verif.Reservoir
