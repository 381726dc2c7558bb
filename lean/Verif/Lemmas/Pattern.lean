import Verif.Spec.Pattern
import Verif.Props.Numbering

/-! Helper lemmas for C103. -/

namespace Verif.Pattern

open Verif.Numbering Verif.Pattern.Spec

theorem mapM_total {α β : Type} (l : List α) (F : α → Option β) (h : α → β) (hF : ∀ a ∈ l, F a = some (h a)) : l.mapM F = some (l.map h) := by
  induction l with
  | nil => rfl
  | cons a l ih =>
    rw [List.mapM_cons, hF a (by simp), ih fun b hb => hF b (by simp [hb])]
    rfl

theorem foldlM_total {α β : Type} (l : List α) (F : β → α → Option β) (G : β → α → β) (hF : ∀ s, ∀ a ∈ l, F s a = some (G s a)) (s : β) :
    l.foldlM F s = some (l.foldl G s) := by
  induction l generalizing s with
  | nil => rfl
  | cons a l ih =>
    rw [List.foldlM_cons, hF s a (by simp)]
    exact ih (fun s b hb => hF s b (by simp [hb])) _

/-- The number of a periodic face, its partner and the row of its cell. -/
def dofN (cf : List (List Nat)) (f : PFace) : Nat := (dofOf cf f).getD 0

def mate (per : List PFace) (f : PFace) : PFace := (lookup per f.partner).getD f

def rowN (cf : List (List Nat)) (f : PFace) : List Nat := cf[f.cell]?.getD []

def coup (cf : List (List Nat)) (per : List PFace) (f : PFace) : Coupling := ⟨dofN cf f, dofN cf (mate per f), rowN cf (mate per f)⟩

section

variable {n : Nat} {cf : List (List Nat)} {per : List PFace} (G : Good n cf per)
include G

theorem dof_spec {f : PFace} (hf : f ∈ per) : cf[f.cell]? = some (rowN cf f) ∧ (rowN cf f)[f.loc]? = some (dofN cf f) ∧ dofOf cf f = some (dofN cf f) := by
  obtain ⟨row, d, h1, h2⟩ := G.inside f hf
  have e : dofOf cf f = some d := by unfold dofOf; rw [h1]; exact h2
  have e1 : rowN cf f = row := by unfold rowN; rw [h1]; rfl
  have e2 : dofN cf f = d := by unfold dofN; rw [e]; rfl
  rw [e1, e2]
  exact ⟨h1, h2, e⟩

theorem mate_spec {f : PFace} (hf : f ∈ per) :
    lookup per f.partner = some (mate per f) ∧ mate per f ∈ per ∧ (mate per f).bid = f.partner ∧ (mate per f).partner = f.bid ∧ mate per f ≠ f := by
  obtain ⟨g, hg, e1, e2, e3⟩ := G.back f hf
  have : lookup per f.partner = some g := by
    unfold lookup
    cases h : per.find? (fun x => x.bid == f.partner) with
    | none =>
      have := List.find?_eq_none.mp h g hg
      simp [e1] at this
    | some g' =>
      have h1 : g'.bid = f.partner := by simpa using List.find?_some h
      have h2 := List.mem_of_find?_eq_some h
      rw [List.inj_on_of_nodup_map G.bids h2 hg (h1.trans e1.symm)]
  have e : mate per f = g := by unfold mate; rw [this]; rfl
  rw [e]
  exact ⟨this, hg, e1, e2, fun h => e3 (by rw [h])⟩

theorem mate_mate {f : PFace} (hf : f ∈ per) : mate per (mate per f) = f := by
  obtain ⟨-, h2, h3, h4, -⟩ := mate_spec G hf
  obtain ⟨-, k2, k3, -, -⟩ := mate_spec G h2
  exact List.inj_on_of_nodup_map G.bids k2 hf (k3.trans h4)

theorem dof_inj {f g : PFace} (hf : f ∈ per) (hg : g ∈ per) (h : dofN cf f = dofN cf g) : f = g := by
  obtain ⟨a1, a2, -⟩ := dof_spec G hf
  obtain ⟨b1, b2, -⟩ := dof_spec G hg
  rw [← h] at b2
  obtain ⟨e1, e2⟩ := G.once f hf _ _ _ _ _ a1 a2 b1 b2
  exact (List.inj_on_of_nodup_map G.places hg hf (Prod.ext e1 e2)).symm

theorem couplings_eq : couplings cf per = some ((per.map (coup cf per)).filter fun e => decide (e.d1 < e.d2)) := by
  unfold couplings
  rw [mapM_total per _ (coup cf per) fun f hf => by
    obtain ⟨h1, h2, -⟩ := mate_spec G hf
    obtain ⟨g1, -, g3⟩ := dof_spec G h2
    rw [(dof_spec G hf).2.2, h1]
    simp only [Option.bind_some, g3, g1, Option.map_some]
    rfl]
  rfl

theorem partners_eq : ∃ pp, partners cf per = some pp ∧
    ∀ k v, pp k = some v ↔ ∃ f ∈ per, dofN cf f = k ∧ dofN cf (mate per f) = v := by
  have e : (per.mapM fun f => (dofOf cf f).map fun d => (⟨f.bid, f.partner, d⟩ : PerFace)) =
      some (per.map fun f => ⟨f.bid, f.partner, dofN cf f⟩) :=
    mapM_total _ _ _ fun f hf => by rw [(dof_spec G hf).2.2]; rfl
  have hdof : (per.map (dofN cf)).Nodup := List.Nodup.map_on (fun f hf g hg h => dof_inj G hf hg h) (List.Nodup.of_map _ G.bids)
  obtain ⟨pp, h1, h2, -⟩ := C39_partners (per.map fun f => ⟨f.bid, f.partner, dofN cf f⟩) ⟨by rw [List.map_map]; exact G.bids,
    by rw [List.map_map]; exact hdof, by
      intro x hx
      obtain ⟨f, hf, rfl⟩ := List.mem_map.mp hx
      obtain ⟨-, m1, m2, m3, -⟩ := mate_spec G hf
      exact ⟨_, List.mem_map.mpr ⟨_, m1, rfl⟩, m2, m3⟩⟩
  refine ⟨pp, by unfold partners; rw [e]; exact h1, fun k v => ?_⟩
  rw [h2]
  constructor
  · rintro ⟨x, hx, x', hx', e1, e2, e3⟩
    obtain ⟨f, hf, rfl⟩ := List.mem_map.mp hx
    obtain ⟨g, hg, rfl⟩ := List.mem_map.mp hx'
    obtain ⟨-, m1, m2, m3, -⟩ := mate_spec G hf
    have : g = mate per f := List.inj_on_of_nodup_map G.bids hg m1 (e1.trans m2.symm)
    subst this
    exact ⟨f, hf, e2, e3⟩
  · rintro ⟨f, hf, e1, e2⟩
    obtain ⟨-, m1, m2, m3, -⟩ := mate_spec G hf
    exact ⟨_, List.mem_map.mpr ⟨f, hf, rfl⟩, _, List.mem_map.mpr ⟨_, m1, rfl⟩, m2, e1, e2⟩

end

/-! ### row sizes -/

theorem fold_sum {α : Type} (F : (Nat → Nat) → α → Nat → Nat) (w : α → Nat → Nat) (hF : ∀ s a r, F s a r = s r + w a r) (l : List α) (s : Nat → Nat)
    (r : Nat) : l.foldl F s r = s r + (l.map fun a => w a r).sum := by
  induction l generalizing s with
  | nil => simp
  | cons a l ih => rw [List.foldl_cons, ih, hF, List.map_cons, List.sum_cons]; omega

theorem incr_apply (s : Nat → Nat) (i k r : Nat) : incr s i k r = s r + if i = r then k else 0 := by
  unfold incr
  by_cases h : i = r
  · subst h; rw [Function.update_self, if_pos rfl]
  · rw [Function.update_of_ne (Ne.symm h), if_neg h]; rfl

/-- Columns for which room is made in row `r`. -/
def gridSlots (r : Nat) (row : List Nat) : List Nat := row.flatMap fun f => if f = r then row.erase f else []

def faceSlots (pp : Nat → Option Nat) (r : Nat) (e : Coupling) (ii : Nat) : List Nat :=
  ((replaced pp e ii).elim [] fun p => if p = r then [e.d1] else []) ++ if ii = r then [e.d1] else []

def bcSlots (pp : Nat → Option Nat) (r : Nat) (e : Coupling) : List Nat := (if e.d1 = r then e.row else []) ++ e.row.flatMap (faceSlots pp r e)

def slots (cf : List (List Nat)) (pp : Nat → Option Nat) (es : List Coupling) (r : Nat) : List Nat :=
  r :: (cf.flatMap (gridSlots r) ++ es.flatMap (bcSlots pp r))

theorem gridSlots_length (r : Nat) (row : List Nat) : (gridSlots r row).length = (row.map fun f => if f = r then row.length - 1 else 0).sum := by
  unfold gridSlots
  rw [List.length_flatMap]
  refine congrArg _ (List.map_congr_left fun f hf => ?_)
  split
  · exact List.length_erase_of_mem hf
  · rfl

theorem size_eq (cf : List (List Nat)) (pp : Nat → Option Nat) (es : List Coupling) (r : Nat) :
    allocBC pp es (allocGrid cf) r = (slots cf pp es r).length := by
  unfold allocBC allocGrid slots
  rw [fold_sum _ (fun e r => (bcSlots pp r e).length), fold_sum _ (fun row r => (gridSlots r row).length)]
  · rw [List.length_cons, List.length_append, List.length_flatMap, List.length_flatMap]
    have : ∀ {α : Type} (l : List α) (f : α → List Nat), (l.map fun a => (f a).length) = l.map (fun a => (f a).length) := fun _ _ => rfl
    omega
  · intro s row r
    rw [fold_sum _ (fun f r => if f = r then row.length - 1 else 0) (fun s f r => incr_apply s f _ r), gridSlots_length]
  · intro s e r
    rw [fold_sum _ (fun ii r => (faceSlots pp r e ii).length)]
    · rw [incr_apply]
      unfold bcSlots
      rw [List.length_append, List.length_flatMap]
      have : (if e.d1 = r then e.row else []).length = if e.d1 = r then e.row.length else 0 := by split <;> rfl
      rw [this]
      omega
    · intro s ii r
      unfold allocFace faceSlots
      rw [incr_apply, List.length_append]
      have : (if ii = r then [e.d1] else []).length = if ii = r then 1 else 0 := by split <;> rfl
      rw [this]
      cases replaced pp e ii with
      | none => simp
      | some p =>
        simp only [Option.elim_some]
        rw [incr_apply]
        have : (if p = r then [e.d1] else []).length = if p = r then 1 else 0 := by split <;> rfl
        rw [this]
        omega

/-! ### positions -/

section

variable {n : Nat} {cf : List (List Nat)} {per : List PFace} (G : Good n cf per)
include G

/-- The couplings of a good input. -/
def coupList (cf : List (List Nat)) (per : List PFace) : List Coupling := (per.map (coup cf per)).filter fun e => decide (e.d1 < e.d2)

theorem coup_mem {e : Coupling} (he : e ∈ coupList cf per) : ∃ f ∈ per, e = coup cf per f ∧ dofN cf f < dofN cf (mate per f) := by
  obtain ⟨h1, h2⟩ := List.mem_filter.mp he
  obtain ⟨f, hf, rfl⟩ := List.mem_map.mp h1
  exact ⟨f, hf, rfl, of_decide_eq_true h2⟩

theorem coup_facts {pp : Nat → Option Nat} (hpp : ∀ k v, pp k = some v ↔ ∃ f ∈ per, dofN cf f = k ∧ dofN cf (mate per f) = v) {e : Coupling}
    (he : e ∈ coupList cf per) :
    e.row ∈ cf ∧ e.d2 ∈ e.row ∧ pp e.d2 = some e.d1 ∧ e.d1 < e.d2 ∧ (∃ row ∈ cf, e.d1 ∈ row) ∧
    (∀ ii p, ii ∈ e.row → pp ii = some p → p < ii → ∃ e' ∈ coupList cf per, e'.d1 = p ∧ e'.d2 = ii ∧ e'.row = e.row) := by
  obtain ⟨f, hf, rfl, hlt⟩ := coup_mem G he
  obtain ⟨-, m1, m2, m3, -⟩ := mate_spec G hf
  obtain ⟨a1, a2, -⟩ := dof_spec G m1
  obtain ⟨b1, b2, -⟩ := dof_spec G hf
  refine ⟨List.mem_of_getElem? a1, List.mem_of_getElem? a2, (hpp _ _).mpr ⟨_, m1, rfl, by rw [mate_mate G hf]; rfl⟩, hlt,
    ⟨_, List.mem_of_getElem? b1, List.mem_of_getElem? b2⟩, fun ii p hii hp hlt' => ?_⟩
  obtain ⟨x, hx, rfl, rfl⟩ := (hpp _ _).mp hp
  obtain ⟨-, x1, x2, x3, -⟩ := mate_spec G hx
  obtain ⟨c1, c2, -⟩ := dof_spec G hx
  obtain ⟨k, hk⟩ := List.mem_iff_getElem?.mp hii
  have hcell := (G.once x hx _ _ _ _ _ c1 c2 a1 hk).1
  refine ⟨coup cf per (mate per x), List.mem_filter.mpr ⟨List.mem_map.mpr ⟨_, x1, rfl⟩, ?_⟩, rfl, ?_, ?_⟩
  · simp only [coup, mate_mate G hx, decide_eq_true_eq]; exact hlt'
  · simp only [coup, mate_mate G hx]
  · simp only [coup, mate_mate G hx]
    unfold rowN
    rw [hcell]

theorem replaced_some {pp : Nat → Option Nat} {e : Coupling} {ii p : Nat} (h : replaced pp e ii = some p) : pp ii = some p ∧ p ≠ e.d1 ∧ p < ii := by
  unfold replaced at h
  rw [Option.filter_eq_some_iff] at h
  exact ⟨h.1, by simpa using h.2⟩

theorem positions_ok {pp : Nat → Option Nat} (hpp : ∀ k v, pp k = some v ↔ ∃ f ∈ per, dofN cf f = k ∧ dofN cf (mate per f) = v) :
    ∀ ij ∈ gridPositions cf ++ bcPositions pp (coupList cf per), ij.1 < n ∧ ij.2 < n ∧ ij.2 ∈ slots cf pp (coupList cf per) ij.1 := by
  have hgrid : ∀ row ∈ cf, ∀ i ∈ row, ∀ j ∈ row, i < n ∧ j < n ∧ j ∈ slots cf pp (coupList cf per) i := by
    intro row hrow i hi j hj
    refine ⟨G.lt row hrow i hi, G.lt row hrow j hj, ?_⟩
    unfold slots
    by_cases hij : j = i
    · subst hij; simp
    · refine List.mem_cons_of_mem _ (List.mem_append_left _ (List.mem_flatMap.mpr ⟨row, hrow, List.mem_flatMap.mpr ⟨i, hi, ?_⟩⟩))
      rw [if_pos rfl]
      exact (List.mem_erase_of_ne hij).mpr hj
  have hbc : ∀ (e : Coupling) (r j : Nat), e ∈ coupList cf per → j ∈ bcSlots pp r e → j ∈ slots cf pp (coupList cf per) r :=
    fun e r j he hj => List.mem_cons_of_mem _ (List.mem_append_right _ (List.mem_flatMap.mpr ⟨e, he, hj⟩))
  have hrow : ∀ (e : Coupling) (j : Nat), e ∈ coupList cf per → j ∈ e.row → j ∈ slots cf pp (coupList cf per) e.d1 := fun e j he hj =>
    hbc e _ _ he (List.mem_append_left _ (by rw [if_pos rfl]; exact hj))
  have hself : ∀ (e : Coupling) (ii : Nat), e ∈ coupList cf per → ii ∈ e.row → e.d1 ∈ slots cf pp (coupList cf per) ii := fun e ii he hj =>
    hbc e _ _ he (List.mem_append_right _ (List.mem_flatMap.mpr ⟨ii, hj, List.mem_append_right _ (by rw [if_pos rfl]; simp)⟩))
  have hrep : ∀ (e : Coupling) (ii p : Nat), e ∈ coupList cf per → ii ∈ e.row → replaced pp e ii = some p → e.d1 ∈ slots cf pp (coupList cf per) p :=
    fun e ii p he hj hr => hbc e _ _ he (List.mem_append_right _ (List.mem_flatMap.mpr ⟨ii, hj, List.mem_append_left _ (by
      rw [hr]; simp)⟩))
  intro ij hij
  rcases List.mem_append.mp hij with hij | hij
  · obtain ⟨row, h1, h2⟩ := List.mem_flatMap.mp hij
    obtain ⟨i, hi, h3⟩ := List.mem_flatMap.mp h2
    obtain ⟨j, hj, rfl⟩ := List.mem_map.mp h3
    exact hgrid row h1 i hi j hj
  · obtain ⟨e, he, h2⟩ := List.mem_flatMap.mp hij
    obtain ⟨ii, hii, h3⟩ := List.mem_flatMap.mp h2
    obtain ⟨f1, f2, f3, f4, ⟨row1, f5, f5'⟩, f6⟩ := coup_facts G hpp he
    have hd1 := G.lt _ f5 _ f5'
    have hd2 := G.lt _ f1 _ f2
    have hin := G.lt _ f1 _ hii
    dsimp only at h3
    cases hr : replaced pp e ii with
    | none =>
      rw [hr] at h3
      simp only [Option.getD_none, List.mem_cons, List.not_mem_nil, or_false] at h3
      rcases h3 with rfl | rfl | rfl | rfl
      · exact ⟨hd1, hin, hrow e ii he hii⟩
      · exact ⟨hin, hd1, hself e ii he hii⟩
      · exact hgrid _ f1 _ f2 _ hii
      · exact hgrid _ f1 _ hii _ f2
    | some p =>
      rw [hr] at h3
      obtain ⟨r1, r2, r3⟩ := replaced_some G hr
      obtain ⟨e', he', e1, e2, e3⟩ := f6 ii p hii r1 r3
      obtain ⟨-, -, -, -, ⟨row2, g5, g5'⟩, -⟩ := coup_facts G hpp he'
      have hp : p < n := by rw [← e1]; exact G.lt _ g5 _ g5'
      have hr' : replaced pp e' e.d2 = some e.d1 := by
        unfold replaced
        rw [f3, Option.filter_some, if_pos (by simp only [e1, decide_eq_true_eq]; exact ⟨r2.symm, f4⟩)]
      have hd2' : e.d2 ∈ e'.row := by rw [e3]; exact f2
      simp only [Option.getD_some, List.mem_cons, List.not_mem_nil, or_false] at h3
      rcases h3 with rfl | rfl | rfl | rfl
      · exact ⟨hd1, hp, by rw [← e1]; exact hrep e' _ _ he' hd2' hr'⟩
      · exact ⟨hp, hd1, hrep e ii p he hii hr⟩
      · exact ⟨hd2, hp, by rw [← e1]; exact hself e' _ he' hd2'⟩
      · exact ⟨hp, hd2, by rw [← e1]; exact hrow e' _ he' hd2'⟩

end

theorem addIndex_fold (n : Nat) (size : Nat → Nat) (sl : Nat → List Nat) (hsize : ∀ r, size r = (sl r).length) (l : List (Nat × Nat))
    (hl : ∀ ij ∈ l, ij.1 < n ∧ ij.2 < n ∧ ij.2 ∈ sl ij.1) (P : Nat → List Nat) (hP : ∀ i, (P i).Nodup ∧ P i ⊆ sl i) :
    ∃ Q, l.foldlM (addIndex n size) P = some Q ∧ ∀ i j, j ∈ Q i ↔ j ∈ P i ∨ (i, j) ∈ l := by
  induction l generalizing P with
  | nil => exact ⟨P, rfl, fun i j => by simp⟩
  | cons ij l ih =>
    obtain ⟨h1, h2, h3⟩ := hl ij (by simp)
    rw [List.foldlM_cons]
    unfold addIndex
    rw [if_pos ⟨h1, h2⟩]
    have hl' := fun x hx => hl x (List.mem_cons_of_mem ij hx)
    by_cases hm : ij.2 ∈ P ij.1
    · rw [if_pos hm]
      obtain ⟨Q, e, hQ⟩ := ih hl' P hP
      refine ⟨Q, e, fun i j => ?_⟩
      rw [hQ, List.mem_cons]
      constructor
      · rintro (h | h)
        · exact .inl h
        · exact .inr (.inr h)
      · rintro (h | h | h)
        · exact .inl h
        · subst h; exact .inl hm
        · exact .inr h
    · rw [if_neg hm]
      have hn : (ij.2 :: P ij.1).Nodup := List.nodup_cons.mpr ⟨hm, (hP ij.1).1⟩
      have hs : (ij.2 :: P ij.1) ⊆ sl ij.1 := by
        intro x hx
        rcases List.mem_cons.mp hx with rfl | hx
        · exact h3
        · exact (hP ij.1).2 hx
      have hlen := (List.subperm_of_subset hn hs).length_le
      rw [if_pos (by rw [hsize]; exact hlen)]
      obtain ⟨Q, e, hQ⟩ := ih hl' (Function.update P ij.1 (ij.2 :: P ij.1)) (by
        intro i
        by_cases hi : i = ij.1
        · subst hi; rw [Function.update_self]; exact ⟨hn, hs⟩
        · rw [Function.update_of_ne hi]; exact hP i)
      refine ⟨Q, e, fun i j => ?_⟩
      rw [hQ, List.mem_cons]
      by_cases hi : i = ij.1
      · subst hi
        rw [Function.update_self, List.mem_cons]
        constructor
        · rintro ((rfl | h) | h)
          · exact .inr (.inl rfl)
          · exact .inl h
          · exact .inr (.inr h)
        · rintro (h | h | h)
          · exact .inl (.inr h)
          · exact .inl (.inl (by rw [← h]))
          · exact .inr h
      · rw [Function.update_of_ne hi]
        constructor
        · rintro (h | h)
          · exact .inl h
          · exact .inr (.inr h)
        · rintro (h | h | h)
          · exact .inl h
          · exact absurd (by rw [← h]) hi
          · exact .inr h

theorem structure_eq {n : Nat} {cf : List (List Nat)} {per : List PFace} (G : Good n cf per) :
    ∃ P pp, structureOf n cf per = some P ∧ (∀ k v, pp k = some v ↔ ∃ f ∈ per, dofN cf f = k ∧ dofN cf (mate per f) = v) ∧
      (∀ ij ∈ gridPositions cf ++ bcPositions pp (coupList cf per), ij.1 < n ∧ ij.2 < n) ∧
      ∀ i j, j ∈ P i ↔ (i, j) ∈ gridPositions cf ++ bcPositions pp (coupList cf per) := by
  obtain ⟨pp, e1, hpp⟩ := partners_eq G
  have hpos := positions_ok G hpp
  obtain ⟨P, e, hP⟩ := addIndex_fold n _ (slots cf pp (coupList cf per)) (size_eq cf pp (coupList cf per)) _ hpos (fun _ => [])
    fun i => ⟨List.nodup_nil, by simp⟩
  refine ⟨P, pp, ?_, hpp, fun ij h => ⟨(hpos ij h).1, (hpos ij h).2.1⟩, fun i j => by rw [hP]; simp⟩
  unfold structureOf
  rw [e1, couplings_eq G]
  exact e

end Verif.Pattern
