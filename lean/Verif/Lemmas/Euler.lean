import Verif.Spec.Euler
import Mathlib.Tactic.Ring
import Mathlib.Tactic.FieldSimp
import Mathlib.Tactic.Linarith
import Mathlib.Algebra.Order.BigOperators.Group.List

/-! Lemmas on the explicit transport residual. -/

namespace Verif.Euler

open Spec
open scoped BigOperators

section Additive
variable {K E : Type} [AddCommGroup K]

/-- A step on a cell vector that adds an amount not depending on the vector. -/
def Additive (F : (Nat → K) → E → Except Err (Nat → K)) (D : E → Except Err (Nat → K)) : Prop :=
  ∀ r e, F r e = (D e).map (fun d i => r i + d i)

theorem foldlM_additive {F : (Nat → K) → E → Except Err (Nat → K)} {D : E → Except Err (Nat → K)}
    (h : Additive F D) (l : List E) (r r' : Nat → K) :
    l.foldlM F r = .ok r' ↔
      (∀ e ∈ l, ∃ d, D e = .ok d) ∧
      ∀ i, r' i = r i + (l.map fun e => match D e with | .ok d => d i | .error _ => 0).sum := by
  induction l generalizing r with
  | nil =>
    simp [List.foldlM, pure, Except.pure]
    constructor
    · intro h i; rw [h]
    · intro h; funext i; rw [h i]
  | cons e l ih =>
    rw [List.foldlM_cons, h r e]
    cases hD : D e with
    | error x =>
      simp [Except.map, bind, Except.bind, hD]
    | ok d =>
      simp only [Except.map, bind, Except.bind]
      rw [ih]
      simp only [List.mem_cons, forall_eq_or_imp, hD, List.map_cons, List.sum_cons]
      constructor
      · rintro ⟨h1, h2⟩
        exact ⟨⟨⟨d, rfl⟩, h1⟩, fun i => by rw [h2 i, add_assoc]⟩
      · rintro ⟨⟨_, h1⟩, h2⟩
        exact ⟨h1, fun i => by rw [h2 i, add_assoc]⟩

theorem additive_foldlM {F : (Nat → K) → E → Except Err (Nat → K)} {D : E → Except Err (Nat → K)}
    (h : Additive F D) (l : List E) (r : Nat → K) :
    l.foldlM F r = (l.foldlM F (fun _ => 0)).map (fun d i => r i + d i) := by
  cases h0 : l.foldlM F (fun _ => 0) with
  | ok d =>
    have := (foldlM_additive h l _ d).1 h0
    simp only [Except.map]
    rw [foldlM_additive h]
    refine ⟨this.1, fun i => ?_⟩
    rw [this.2 i, zero_add]
  | error x =>
    simp only [Except.map]
    induction l generalizing r x with
    | nil => simp [List.foldlM, pure, Except.pure] at h0
    | cons e l ih =>
      rw [List.foldlM_cons, h] at h0 ⊢
      cases hD : D e with
      | error y =>
        rw [hD] at h0
        simp only [Except.map, bind, Except.bind] at h0 ⊢
        exact h0
      | ok d =>
        rw [hD] at h0
        simp only [Except.map, bind, Except.bind] at h0 ⊢
        cases h1 : l.foldlM F (fun _ => 0) with
        | error y =>
          have a := ih (fun i => 0 + d i) y h1
          rw [a] at h0
          rw [ih _ y h1]; exact h0
        | ok d' =>
          have := (foldlM_additive h l _ d').1 h1
          have k := (foldlM_additive h l (fun i => 0 + d i) (fun i => (0 + d i) + d' i)).2
            ⟨this.1, fun i => by rw [this.2 i]; simp⟩
          rw [k] at h0; cases h0

end Additive

variable {K M : Type} [Field K] [LinearOrder K]

/-- Amount added by `addAt`. -/
def addDelta (n i : Nat) (x : K) : Except Err (Nat → K) :=
  if i < n then .ok (fun j => if j = i then x else 0) else .error .ub

theorem addAt_eq (n : Nat) (r : Nat → K) (i : Nat) (x : K) :
    addAt n r i x = (addDelta n i x).map (fun d j => r j + d j) := by
  unfold addAt addDelta
  by_cases h : i < n
  · simp only [h, if_true, Except.map]
    congr 1; funext j; by_cases hj : j = i <;> simp [hj]
  · simp [h, Except.map]

/-- Amount added by `applyFlux`. -/
def fluxDelta (n c c1 : Nat) (q : K) : Except Err (Nat → K) :=
  if c < n ∧ c1 < n then
    .ok (fun j => (if j = c then -q else 0) + (if c ≠ c1 ∧ j = c1 then q else 0)) else .error .ub

theorem applyFlux_eq (n : Nat) (r : Nat → K) (c c1 : Nat) (q : K) :
    applyFlux n r c c1 q = (fluxDelta n c c1 q).map (fun d j => r j + d j) := by
  unfold applyFlux fluxDelta addAt
  by_cases h : c < n
  · by_cases h1 : c1 < n
    · by_cases hc : c = c1
      · subst hc
        simp only [ne_eq, not_true_eq_false, if_false, h, and_self, if_true, Except.map, false_and, add_zero]
        congr 1; funext j; by_cases hj : j = c <;> simp [hj]
      · simp only [ne_eq, hc, not_false_eq_true, if_true, h, h1, and_self, Except.map, bind, Except.bind, true_and]
        congr 1; funext j
        by_cases hj : j = c
        · subst hj; simp [hc]
        · by_cases hj1 : j = c1
          · subst hj1; simp [hj]
          · simp [hj, hj1]
    · have hc : c ≠ c1 := fun e => h1 (e ▸ h)
      simp [h, h1, hc, Except.map, bind, Except.bind]
  · by_cases hc : c = c1 <;> simp [h, hc, Except.map, bind, Except.bind] <;> (try (subst hc; simp [h]))

/-- Amount added by one face. -/
def faceDelta (S : Setup K M) (sat : Nat → K) (c : Nat) (e : Face K × Nat) : Except Err (Nat → K) :=
  match otherSide S sat c e.2 e.1 with
  | .error x => .error x
  | .ok none => .ok (fun _ => 0)
  | .ok (some o) =>
    match waterFlux S sat c e.1 o with
    | .error x => .error x
    | .ok q => fluxDelta S.grid.length c o.cell q

theorem faceStep_additive (S : Setup K M) (sat : Nat → K) (c : Nat) :
    Additive (faceStep S sat c) (faceDelta S sat c) := by
  intro r e
  unfold faceStep faceDelta
  cases h : otherSide S sat c e.2 e.1 with
  | error x => simp [bind, Except.bind, Except.map]
  | ok o =>
    cases o with
    | none => simp [bind, Except.bind, Except.map, pure, Except.pure]
    | some o =>
      simp only [bind, Except.bind]
      cases hq : waterFlux S sat c e.1 o with
      | error x => simp [Except.map]
      | ok q => simp only; rw [applyFlux_eq]

/-- Amount added by one cell. -/
def cellDelta (S : Setup K M) (sat : Nat → K) (c : Nat) : Except Err (Nat → K) := updateCell S sat (fun _ => 0) c

theorem updateCell_additive (S : Setup K M) (sat : Nat → K) :
    Additive (updateCell S sat) (cellDelta S sat) := by
  intro r c
  unfold cellDelta updateCell
  cases hc : S.grid[c]? with
  | none => simp [Except.map]
  | some cell =>
    simp only
    rw [additive_foldlM (faceStep_additive S sat c) _ r]
    cases hf : cell.faces.zipIdx.foldlM (faceStep S sat c) (fun _ => 0) with
    | error x => simp [bind, Except.bind, Except.map]
    | ok d =>
      simp only [bind, Except.bind, Except.map]
      rw [addAt_eq, addAt_eq]
      cases addDelta S.grid.length c (sourceTerm S sat c) with
      | error x => simp [Except.map]
      | ok d' =>
        simp only [Except.map]
        congr 1; funext j; rw [add_assoc]

/-- Processing order does not matter. -/
theorem updateCells_perm (S : Setup K M) (sat : Nat → K) {l l' : List Nat} (h : l.Perm l') {r r' : Nat → K}
    (ho : updateCells S sat r l = .ok r') : updateCells S sat r l' = .ok r' := by
  unfold updateCells at *
  rw [foldlM_additive (updateCell_additive S sat)] at ho ⊢
  refine ⟨fun e he => ho.1 e (h.mem_iff.2 he), fun i => ?_⟩
  rw [ho.2 i]
  congr 1
  exact (h.map _).sum_eq

/-- What a processed face adds to cell `i`, in terms of the specification. -/
def specEff (S : Setup K M) (sat : Nat → K) (c : Nat) (f : Face K) (i : Nat) : K :=
  match neighbour S f with
  | none => if i = c then - outFlux S sat c f else 0
  | some j => if c < j then (if i = c then - outFlux S sat c f else 0) + (if i = j then outFlux S sat c f else 0) else 0

theorem faceDelta_spec (S : Setup K M) (sat : Nat → K) (c : Nat) (e : Face K × Nat) (d : Nat → K)
    (h : faceDelta S sat c e = .ok d) (i : Nat) : d i = specEff S sat c e.1 i := by
  unfold faceDelta otherSide at h
  unfold specEff outFlux neighbour outsideSat outsideFace
  cases hk : e.1.kind with
  | interior nb =>
    simp only [hk] at h ⊢
    by_cases h1 : c = nb
    · simp [h1] at h
    · rw [if_neg h1] at h
      by_cases h2 : c > nb
      · rw [if_pos h2] at h
        simp only [Except.ok.injEq] at h
        rw [← h, if_neg (by omega)]
      · rw [if_neg h2] at h
        simp only at h
        rw [if_pos (by omega)]
        simp only [Option.getD_some]
        cases hq : waterFlux S sat c e.1 ⟨nb, sat nb, e.1⟩ with
        | error x => simp [hq] at h
        | ok q =>
          simp only [hq] at h
          unfold fluxDelta at h
          split at h
          · simp only [Except.ok.injEq] at h
            rw [← h]
            simp [h1]
          · cases h
  | boundary bid =>
    simp only [hk] at h ⊢
    cases hb : S.bcs.cond bid with
    | dirichlet s =>
      simp only [hb] at h ⊢
      simp only [Option.getD_none]
      cases hq : waterFlux S sat c e.1 ⟨c, s, e.1⟩ with
      | error x => simp [hq] at h
      | ok q =>
        simp only [hq] at h
        unfold fluxDelta at h
        split at h
        · simp only [Except.ok.injEq] at h
          rw [← h]
          simp
        · cases h
    | periodic =>
      simp only [hb] at h ⊢
      cases hp : bidToFace S.grid S.bcs (S.bcs.partner bid) with
      | none => simp [hp] at h
      | some t =>
        obtain ⟨c1, lf1, nbf⟩ := t
        simp only [hp] at h ⊢
        simp only [Option.map_some, Option.getD_some]
        by_cases h0 : c1 = c ∧ lf1 = e.2
        · rw [if_pos h0] at h; cases h
        · rw [if_neg h0] at h
          by_cases h1 : c = c1
          · rw [if_pos h1] at h; cases h
          · rw [if_neg h1] at h
            by_cases h2 : c > c1
            · rw [if_pos h2] at h
              simp only [Except.ok.injEq] at h
              rw [← h, if_neg (by omega)]
            · rw [if_neg h2] at h
              simp only at h
              rw [if_pos (by omega)]
              cases hq : waterFlux S sat c e.1 ⟨c1, sat c1, nbf⟩ with
              | error x => simp [hq] at h
              | ok q =>
                simp only [hq] at h
                unfold fluxDelta at h
                split at h
                · simp only [Except.ok.injEq] at h
                  rw [← h]
                  simp [h1]
                · cases h

/-- What processing a cell adds to cell `i`. -/
def specCell (S : Setup K M) (sat : Nat → K) (c i : Nat) : K :=
  ((facesOf S.grid c).map fun f => specEff S sat c f i).sum + (if i = c then sourceTerm S sat c else 0)

theorem sum_zipIdx_map {α : Type} (l : List α) (n : Nat) (φ : α → K) :
    ((l.zipIdx n).map fun e => φ e.1).sum = (l.map φ).sum := by
  induction l generalizing n with
  | nil => rfl
  | cons a l ih => simp [List.zipIdx_cons, ih]

theorem cellDelta_spec (S : Setup K M) (sat : Nat → K) (c : Nat) (d : Nat → K)
    (h : cellDelta S sat c = .ok d) (i : Nat) : d i = specCell S sat c i := by
  unfold cellDelta updateCell at h
  unfold specCell facesOf
  cases hc : S.grid[c]? with
  | none => simp [hc] at h
  | some cell =>
    simp only [hc] at h ⊢
    cases hf : cell.faces.zipIdx.foldlM (faceStep S sat c) (fun _ => 0) with
    | error x => simp [hf, bind, Except.bind] at h
    | ok r =>
      simp only [hf, bind, Except.bind] at h
      rw [addAt_eq] at h
      unfold addDelta at h
      split at h
      · simp only [Except.map, Except.ok.injEq] at h
        have h2 := (foldlM_additive (faceStep_additive S sat c) _ _ _).1 hf
        rw [← h]
        show r i + _ = _
        rw [h2.2 i, zero_add]
        congr 1
        rw [← sum_zipIdx_map cell.faces 0]
        congr 1
        apply List.map_congr_left
        intro e he
        obtain ⟨d', hd'⟩ := h2.1 e he
        rw [hd']
        exact faceDelta_spec S sat c e d' hd' i
      · simp [Except.map] at h

theorem updateCells_spec (S : Setup K M) (sat : Nat → K) (l : List Nat) (r r' : Nat → K)
    (h : updateCells S sat r l = .ok r') (i : Nat) :
    r' i = r i + (l.map fun c => specCell S sat c i).sum := by
  unfold updateCells at h
  have h2 := (foldlM_additive (updateCell_additive S sat) _ _ _).1 h
  rw [h2.2 i]
  congr 2
  apply List.map_congr_left
  intro c hc
  obtain ⟨d, hd⟩ := h2.1 c hc
  rw [hd]
  exact cellDelta_spec S sat c d hd i

theorem sum_range_map (n : Nat) (φ : Nat → K) : ((List.range n).map φ).sum = ∑ c ∈ Finset.range n, φ c := by
  induction n with
  | zero => simp
  | succ n ih => rw [List.range_succ, Finset.sum_range_succ, List.map_append, List.sum_append, ih]; simp

/-- Sum over the grid of what processing one cell adds. -/
theorem specCell_total (S : Setup K M) (sat : Nat → K) (c n : Nat) (hc : c < n)
    (hn : ∀ f ∈ facesOf S.grid c, ∀ j, neighbour S f = some j → c < j → j < n) :
    ∑ i ∈ Finset.range n, specCell S sat c i =
      sourceTerm S sat c - (((facesOf S.grid c).filter fun f => (neighbour S f).isNone).map (outFlux S sat c)).sum := by
  unfold specCell
  rw [Finset.sum_add_distrib]
  have h1 : ∑ i ∈ Finset.range n, (if i = c then sourceTerm S sat c else 0) = sourceTerm S sat c := by
    rw [Finset.sum_ite_eq']; simp [hc]
  rw [h1]
  have h2 : ∀ l : List (Face K), (∀ f ∈ l, ∀ j, neighbour S f = some j → c < j → j < n) →
      ∑ i ∈ Finset.range n, (l.map fun f => specEff S sat c f i).sum =
        - ((l.filter fun f => (neighbour S f).isNone).map (outFlux S sat c)).sum := by
    intro l
    induction l with
    | nil => intro _; simp
    | cons f l ih =>
      intro hl
      simp only [List.map_cons, List.sum_cons, Finset.sum_add_distrib]
      rw [ih (fun g hg => hl g (List.mem_cons_of_mem _ hg))]
      cases hf : neighbour S f with
      | none =>
        rw [List.filter_cons_of_pos (by simp [hf])]
        simp only [specEff, hf, List.map_cons, List.sum_cons]
        rw [Finset.sum_ite_eq']; simp [hc]; ring
      | some j =>
        rw [List.filter_cons_of_neg (by simp [hf])]
        have hj := hl f List.mem_cons_self j hf
        have : ∑ i ∈ Finset.range n, specEff S sat c f i = 0 := by
          simp only [specEff, hf]
          by_cases hcj : c < j
          · simp only [hcj, if_true]
            rw [Finset.sum_add_distrib, Finset.sum_ite_eq', Finset.sum_ite_eq']
            simp [hc, hj hcj]
          · simp [hcj]
        rw [this, zero_add]
  rw [h2 _ hn]; ring

/-- A successful cell update only involves existing cells. -/
theorem cellDelta_nb (S : Setup K M) (sat : Nat → K) (c : Nat) (d : Nat → K) (h : cellDelta S sat c = .ok d) :
    c < S.grid.length ∧ ∀ f ∈ facesOf S.grid c, ∀ j, neighbour S f = some j → c < j → j < S.grid.length := by
  unfold cellDelta updateCell at h
  unfold facesOf
  cases hc : S.grid[c]? with
  | none => simp [hc] at h
  | some cell =>
    have hlt : c < S.grid.length := by
      rw [List.getElem?_eq_some_iff] at hc; exact hc.1
    refine ⟨hlt, ?_⟩
    simp only [hc] at h ⊢
    cases hf : cell.faces.zipIdx.foldlM (faceStep S sat c) (fun _ => 0) with
    | error x => simp [hf, bind, Except.bind] at h
    | ok r =>
      have h2 := ((foldlM_additive (faceStep_additive S sat c) _ _ _).1 hf).1
      intro f hfm j hj hcj
      obtain ⟨k, hk⟩ := List.getElem?_of_mem hfm
      have hm : (f, k) ∈ cell.faces.zipIdx := by
        rw [List.mem_zipIdx_iff_getElem?]; simpa using hk
      obtain ⟨d', hd'⟩ := h2 _ hm
      unfold faceDelta otherSide at hd'
      unfold neighbour at hj
      cases hkd : f.kind with
      | interior nb =>
        simp only [hkd, Option.some.injEq] at hj hd'
        subst hj
        rw [if_neg (by omega), if_neg (by omega)] at hd'
        simp only at hd'
        cases hq : waterFlux S sat c f ⟨nb, sat nb, f⟩ with
        | error x => simp [hq] at hd'
        | ok q =>
          simp only [hq] at hd'
          unfold fluxDelta at hd'
          split at hd'
          · rename_i hh; exact hh.2
          · cases hd'
      | boundary bid =>
        simp only [hkd] at hj hd'
        cases hb : S.bcs.cond bid with
        | dirichlet s => simp [hb] at hj
        | periodic =>
          simp only [hb] at hj hd'
          cases hp : bidToFace S.grid S.bcs (S.bcs.partner bid) with
          | none => simp [hp] at hj
          | some t =>
            obtain ⟨c1, lf1, nbf⟩ := t
            simp only [hp, Option.map_some, Option.some.injEq] at hj hd'
            subst hj
            rw [if_neg (by omega), if_neg (by omega), if_neg (by omega)] at hd'
            simp only at hd'
            cases hq : waterFlux S sat c f ⟨c1, sat c1, nbf⟩ with
            | error x => simp [hq] at hd'
            | ok q =>
              simp only [hq] at hd'
              unfold fluxDelta at hd'
              split at hd'
              · rename_i hh; exact hh.2
              · cases hd'

end Verif.Euler
