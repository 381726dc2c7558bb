import Verif.Spec.TransportSource
import Mathlib.Data.List.Forall2

namespace Verif.TSource

open Verif.TSource.Spec

variable {K : Type}

/-- Contents of a pointer: NULL counts as the empty block. -/
def content (h : Heap K) : Option Nat → Option (List (Val K))
  | none => some []
  | some p => h.blk p

/-- The heap consists of exactly the blocks of the given pointers, with the given contents. -/
structure Owns (h : Heap K) (ps : List (Option Nat)) (bs : List (List (Val K))) : Prop where
  cont : List.Forall₂ (fun p b => content h p = some b) ps bs
  nodup : (ps.filterMap id).Nodup
  bound : ∀ p, some p ∈ ps → p < h.next
  only : ∀ q, h.blk q ≠ none → some q ∈ ps

theorem content_congr {h h' : Heap K} {ps : List (Option Nat)} {bs : List (List (Val K))}
    (hc : List.Forall₂ (fun p b => content h p = some b) ps bs)
    (he : ∀ q, some q ∈ ps → h'.blk q = h.blk q) :
    List.Forall₂ (fun p b => content h' p = some b) ps bs := by
  induction hc with
  | nil => exact .nil
  | @cons p b ps bs h1 h2 ih =>
    refine .cons ?_ (ih (fun q hq => he q (List.mem_cons_of_mem _ hq)))
    cases p with
    | none => exact h1
    | some p => simp only [content] at h1 ⊢; rw [he p List.mem_cons_self]; exact h1

theorem mem_filterMap_id {ps : List (Option Nat)} {q : Nat} : q ∈ ps.filterMap id ↔ some q ∈ ps := by
  simp [List.mem_filterMap]

/-- Splitting ownership at one pointer: the others do not alias it. -/
theorem Owns.split {h : Heap K} {ds ps : List (Option Nat)} {p : Nat} {bds bs : List (List (Val K))} {b : List (Val K)}
    (hl : ds.length = bds.length) (ho : Owns h (ds ++ some p :: ps) (bds ++ b :: bs)) :
    h.blk p = some b ∧ some p ∉ ds ∧ some p ∉ ps ∧
    List.Forall₂ (fun p b => content h p = some b) ds bds ∧ List.Forall₂ (fun p b => content h p = some b) ps bs := by
  have hc := ho.cont
  have h1 : List.Forall₂ (fun p b => content h p = some b) ds bds := by
    have := List.forall₂_take ds.length hc
    simpa [hl] using this
  have h2 : List.Forall₂ (fun p b => content h p = some b) (some p :: ps) (b :: bs) := by
    have := List.forall₂_drop ds.length hc
    simpa [hl] using this
  have hn := ho.nodup
  rw [List.filterMap_append, List.filterMap_cons] at hn
  simp only [id] at hn
  rw [List.nodup_append] at hn
  obtain ⟨n1, n2, n3⟩ := hn
  rw [List.nodup_cons] at n2
  cases h2 with
  | cons a c =>
    refine ⟨a, ?_, ?_, h1, c⟩
    · intro hm
      exact n3 p (mem_filterMap_id.2 hm) p List.mem_cons_self rfl
    · intro hm; exact n2.1 (mem_filterMap_id.2 hm)

theorem Owns.splitNone {h : Heap K} {ds ps : List (Option Nat)} {bds bs : List (List (Val K))} {b : List (Val K)}
    (hl : ds.length = bds.length) (ho : Owns h (ds ++ none :: ps) (bds ++ b :: bs)) :
    b = [] ∧ List.Forall₂ (fun p b => content h p = some b) ds bds ∧ List.Forall₂ (fun p b => content h p = some b) ps bs := by
  have hc := ho.cont
  have h1 : List.Forall₂ (fun p b => content h p = some b) ds bds := by
    have := List.forall₂_take ds.length hc
    simpa [hl] using this
  have h2 : List.Forall₂ (fun p b => content h p = some b) (none :: ps) (b :: bs) := by
    have := List.forall₂_drop ds.length hc
    simpa [hl] using this
  cases h2 with
  | cons a c => simp only [content, Option.some.injEq] at a; exact ⟨a.symm, h1, c⟩

theorem forall₂_mid {R : Option Nat → List (Val K) → Prop} {ds ps : List (Option Nat)} {bds bs : List (List (Val K))}
    {p : Option Nat} {b : List (Val K)} (h1 : List.Forall₂ R ds bds) (h2 : R p b) (h3 : List.Forall₂ R ps bs) :
    List.Forall₂ R (ds ++ p :: ps) (bds ++ b :: bs) := List.rel_append h1 (.cons h2 h3)

/-- Replacing a live pointer. -/
theorem Owns.fresh {h : Heap K} {ds ps : List (Option Nat)} {p0 : Option Nat} {bds bs : List (List (Val K))} {b b' : List (Val K)}
    (hl : ds.length = bds.length) (ho : Owns h (ds ++ p0 :: ps) (bds ++ b :: bs)) :
    Owns ⟨fun q => if q = h.next then some b' else if some q = p0 then none else h.blk q, h.next + 1⟩
      (ds ++ some h.next :: ps) (bds ++ b' :: bs) := by
  have hnm : ∀ q, some q ∈ ds ++ p0 :: ps → q ≠ h.next := fun q hq => Nat.ne_of_lt (ho.bound q hq)
  have hnd : some h.next ∉ ds := fun hm => hnm _ (List.mem_append_left _ hm) rfl
  have hnp : some h.next ∉ ps := fun hm => hnm _ (List.mem_append_right _ (List.mem_cons_of_mem _ hm)) rfl
  have hsplit : List.Forall₂ (fun p b => content h p = some b) ds bds ∧ List.Forall₂ (fun p b => content h p = some b) ps bs ∧
      (∀ q, some q ∈ ds → some q ≠ p0) ∧ (∀ q, some q ∈ ps → some q ≠ p0) := by
    cases p0 with
    | none => obtain ⟨_, a, b⟩ := ho.splitNone hl; exact ⟨a, b, by simp, by simp⟩
    | some p =>
      obtain ⟨_, a, b, c, d⟩ := ho.split hl
      exact ⟨c, d, fun q hq he => a (he ▸ hq), fun q hq he => b (he ▸ hq)⟩
  obtain ⟨c1, c2, n1, n2⟩ := hsplit
  refine ⟨forall₂_mid ?_ ?_ ?_, ?_, ?_, ?_⟩
  · refine content_congr c1 (fun q hq => ?_)
    simp only
    rw [if_neg (hnm q (List.mem_append_left _ hq)), if_neg (n1 q hq)]
  · simp [content]
  · refine content_congr c2 (fun q hq => ?_)
    simp only
    rw [if_neg (hnm q (List.mem_append_right _ (List.mem_cons_of_mem _ hq))), if_neg (n2 q hq)]
  · have hn := ho.nodup
    rw [List.filterMap_append, List.filterMap_cons] at hn ⊢
    simp only [id]
    rw [List.nodup_append] at hn ⊢
    obtain ⟨m1, m2, m3⟩ := hn
    have m2' : (ps.filterMap id).Nodup := by
      cases p0 with
      | none => exact m2
      | some p => exact (List.nodup_cons.1 m2).2
    have m3' : ∀ a ∈ ds.filterMap id, ∀ b ∈ ps.filterMap id, a ≠ b := by
      intro a ha b hb
      cases p0 with
      | none => exact m3 a ha b hb
      | some p => exact m3 a ha b (List.mem_cons_of_mem _ hb)
    refine ⟨m1, List.nodup_cons.2 ⟨fun hm => hnp (mem_filterMap_id.1 hm), m2'⟩, ?_⟩
    intro a ha b hb
    rw [List.mem_cons] at hb
    rcases hb with rfl | hb
    · rintro rfl; exact hnd (mem_filterMap_id.1 ha)
    · exact m3' a ha b hb
  · intro q hq
    simp only
    rw [List.mem_append, List.mem_cons] at hq
    rcases hq with hq | hq | hq
    · exact Nat.lt_succ_of_lt (ho.bound q (List.mem_append_left _ hq))
    · injection hq with hq; omega
    · exact Nat.lt_succ_of_lt (ho.bound q (List.mem_append_right _ (List.mem_cons_of_mem _ hq)))
  · intro q hq
    simp only at hq
    by_cases h1 : q = h.next
    · subst h1; simp
    · rw [if_neg h1] at hq
      by_cases h2 : some q = p0
      · rw [if_pos h2] at hq; exact absurd rfl hq
      · rw [if_neg h2] at hq
        have := ho.only q hq
        rw [List.mem_append, List.mem_cons] at this ⊢
        rcases this with h | h | h
        · exact Or.inl h
        · exact absurd h h2
        · exact Or.inr (Or.inr h)

/-- Changing the contents of a live block. -/
theorem Owns.update {h : Heap K} {ds ps : List (Option Nat)} {p : Nat} {bds bs : List (List (Val K))} {b b' : List (Val K)}
    (hl : ds.length = bds.length) (ho : Owns h (ds ++ some p :: ps) (bds ++ b :: bs)) :
    Owns ⟨fun q => if q = p then some b' else h.blk q, h.next⟩ (ds ++ some p :: ps) (bds ++ b' :: bs) := by
  obtain ⟨h1, n1, n2, c1, c2⟩ := ho.split hl
  refine ⟨forall₂_mid ?_ ?_ ?_, ho.nodup, ho.bound, ?_⟩
  · exact content_congr c1 (fun q hq => if_neg (fun e : q = p => n1 (e ▸ hq)))
  · simp [content]
  · exact content_congr c2 (fun q hq => if_neg (fun e : q = p => n2 (e ▸ hq)))
  · intro q hq
    simp only at hq
    by_cases e : q = p
    · subst e; simp
    · rw [if_neg e] at hq; exact ho.only q hq

/-- Freeing a pointer. -/
theorem Owns.freeMid {h : Heap K} {ds ps : List (Option Nat)} {p : Option Nat} {bds bs : List (List (Val K))} {b : List (Val K)}
    (hl : ds.length = bds.length) (ho : Owns h (ds ++ p :: ps) (bds ++ b :: bs)) :
    ∃ h', free h p = some h' ∧ Owns h' (ds ++ ps) (bds ++ bs) := by
  cases p with
  | none =>
    obtain ⟨_, c1, c2⟩ := ho.splitNone hl
    refine ⟨h, rfl, ⟨List.rel_append c1 c2, ?_, ?_, ?_⟩⟩
    · have := ho.nodup
      rw [List.filterMap_append, List.filterMap_cons] at this
      rw [List.filterMap_append]; exact this
    · intro q hq
      apply ho.bound q
      rw [List.mem_append] at hq ⊢
      rcases hq with hq | hq
      · exact Or.inl hq
      · exact Or.inr (List.mem_cons_of_mem _ hq)
    · intro q hq
      have := ho.only q hq
      rw [List.mem_append, List.mem_cons] at this
      rw [List.mem_append]
      rcases this with h | h | h
      · exact Or.inl h
      · cases h
      · exact Or.inr h
  | some p =>
    obtain ⟨h1, n1, n2, c1, c2⟩ := ho.split hl
    refine ⟨{ h with blk := fun q => if q = p then none else h.blk q }, by simp [free, h1], ⟨List.rel_append ?_ ?_, ?_, ?_, ?_⟩⟩
    · exact content_congr c1 (fun q hq => if_neg (fun e : q = p => n1 (e ▸ hq)))
    · exact content_congr c2 (fun q hq => if_neg (fun e : q = p => n2 (e ▸ hq)))
    · have := ho.nodup
      rw [List.filterMap_append, List.filterMap_cons] at this
      rw [List.filterMap_append]
      simp only [id] at this
      exact this.sublist (List.Sublist.append_left (List.sublist_cons_self _ _) _)
    · intro q hq
      apply ho.bound q
      rw [List.mem_append] at hq ⊢
      rcases hq with hq | hq
      · exact Or.inl hq
      · exact Or.inr (List.mem_cons_of_mem _ hq)
    · intro q hq
      simp only at hq
      by_cases e : q = p
      · rw [if_pos e] at hq; exact absurd rfl hq
      · rw [if_neg e] at hq
        have := ho.only q hq
        rw [List.mem_append, List.mem_cons] at this
        rw [List.mem_append]
        rcases this with h | h | h
        · exact Or.inl h
        · injection h with h; exact absurd h e
        · exact Or.inr h

theorem Owns.reverse {h : Heap K} {ps : List (Option Nat)} {bs : List (List (Val K))} (ho : Owns h ps bs) :
    Owns h ps.reverse bs.reverse := by
  refine ⟨List.rel_reverse ho.cont, ?_, ?_, ?_⟩
  · rw [List.filterMap_reverse]; exact List.nodup_reverse.2 ho.nodup
  · intro p hp; exact ho.bound p (List.mem_reverse.1 hp)
  · intro q hq; exact List.mem_reverse.2 (ho.only q hq)

theorem freeAll_ok {h : Heap K} {ps : List (Option Nat)} {bs : List (List (Val K))} (ho : Owns h ps bs) :
    ∃ h', freeAll h ps = some h' ∧ Spec.Empty h' := by
  induction ps generalizing h bs with
  | nil =>
    refine ⟨h, rfl, fun q => ?_⟩
    by_contra hq
    have := ho.only q hq
    simp at this
  | cons p ps ih =>
    cases hb : bs with
    | nil => have := ho.cont; rw [hb] at this; cases this
    | cons b bs' =>
      subst hb
      obtain ⟨h1, e1, o1⟩ := Owns.freeMid (ds := []) (bds := []) rfl ho
      obtain ⟨h2, e2, o2⟩ := ih (h := h1) (bs := bs') o1
      exact ⟨h2, by simp [freeAll, e1, e2], o2⟩

/-- All five reallocations succeed. -/
theorem reallocAll_ok (ps : List (Option Nat)) (ns : List Nat) (as : List Alloc) (h : Heap K) (ds : List (Option Nat))
    (bds bs : List (List (Val K))) (hl : ds.length = bds.length) (hn : ns.length = ps.length) (ha : as.length = ps.length)
    (hf : Alloc.fail ∉ as) (ho : Owns h (ds ++ ps) (bds ++ bs)) :
    ∃ h' qs, reallocAll h ps ns as = some (h', qs) ∧ none ∉ qs ∧
      Owns h' (ds ++ qs) (bds ++ List.zipWith resize bs ns) := by
  induction ps generalizing h ds bds bs ns as with
  | nil =>
    have : bs = [] := by
      have := ho.cont.length_eq; simp [hl] at this; exact this
    subst this
    exact ⟨h, [], by unfold reallocAll; rfl, by simp, by simpa using ho⟩
  | cons p ps ih =>
    match ns, as, bs, hn, ha with
    | n :: ns, a :: as, [], _, _ => have := ho.cont.length_eq; simp [hl] at this
    | n :: ns, a :: as, b :: bs, hn, ha =>
      rw [List.mem_cons, not_or] at hf
      have key : ∃ h1 q, realloc h p n a = some (h1, some q) ∧ Owns h1 (ds ++ some q :: ps) (bds ++ resize b n :: bs) := by
        cases p with
        | none =>
          obtain ⟨rfl, _⟩ := ho.splitNone hl
          have hfr := Owns.fresh (b' := resize [] n) hl ho
          refine ⟨⟨fun q => if q = h.next then some (resize [] n) else h.blk q, h.next + 1⟩, h.next, ?_, by simpa using hfr⟩
          cases a with
          | fail => exact absurd rfl hf.1
          | inplace => simp [realloc]
          | move => simp [realloc]
        | some p =>
          obtain ⟨hb, _⟩ := ho.split hl
          cases a with
          | fail => exact absurd rfl hf.1
          | inplace => exact ⟨_, p, by simp [realloc, hb], Owns.update hl ho⟩
          | move =>
            have hfr := Owns.fresh (b' := resize b n) hl ho
            refine ⟨⟨fun q => if q = h.next then some (resize b n) else if q = p then none else h.blk q, h.next + 1⟩, h.next, ?_, by simpa using hfr⟩
            simp [realloc, hb]
      obtain ⟨h1, q, e1, o1⟩ := key
      have o1' : Owns h1 ((ds ++ [some q]) ++ ps) ((bds ++ [resize b n]) ++ bs) := by simpa using o1
      obtain ⟨h2, qs, e2, nf, o2⟩ := ih ns as h1 (ds ++ [some q]) (bds ++ [resize b n]) bs (by simp [hl])
        (by simpa using hn) (by simpa using ha) hf.2 o1'
      exact ⟨h2, some q :: qs, by simp [reallocAll, e1, e2], by simp [nf], by simpa using o2⟩

/-- Reallocating NULL pointers leaves everything owned by the results, whatever fails. -/
theorem reallocAll_null (k : Nat) (ns : List Nat) (as : List Alloc) (h : Heap K) (ds : List (Option Nat))
    (bds : List (List (Val K))) (hl : ds.length = bds.length)
    (ho : Owns h ds bds) :
    ∃ h' qs bs, reallocAll h (List.replicate k none) ns as = some (h', qs) ∧ Owns h' (ds ++ qs) (bds ++ bs) := by
  induction k generalizing h ds bds ns as with
  | zero => exact ⟨h, [], [], by unfold reallocAll; rfl, by simpa using ho⟩
  | succ k ih =>
    match ns, as with
    | [], as => exact ⟨h, [], [], by simp [List.replicate_succ, reallocAll], by simpa using ho⟩
    | n :: ns, [] => exact ⟨h, [], [], by simp [List.replicate_succ, reallocAll], by simpa using ho⟩
    | n :: ns, a :: as =>
      have hext : Owns h (ds ++ none :: []) (bds ++ [] :: []) := by
        refine ⟨forall₂_mid ho.cont rfl .nil, ?_, ?_, ?_⟩
        · rw [List.filterMap_append]; simpa using ho.nodup
        · intro q hq; apply ho.bound q; simpa using hq
        · intro q hq; simpa using ho.only q hq
      have key : ∃ h1 q b, realloc h none n a = some (h1, q) ∧ Owns h1 (ds ++ [q]) (bds ++ [b]) := by
        cases a with
        | fail => exact ⟨h, none, [], by simp [realloc], hext⟩
        | inplace =>
          have := Owns.fresh (b' := resize [] n) hl hext
          exact ⟨⟨fun q => if q = h.next then some (resize [] n) else h.blk q, h.next + 1⟩, some h.next, resize [] n,
            by simp [realloc], by simpa using this⟩
        | move =>
          have := Owns.fresh (b' := resize [] n) hl hext
          exact ⟨⟨fun q => if q = h.next then some (resize [] n) else h.blk q, h.next + 1⟩, some h.next, resize [] n,
            by simp [realloc], by simpa using this⟩
      obtain ⟨h1, q, b, e1, o1⟩ := key
      obtain ⟨h2, qs, bs, e2, o2⟩ := ih ns as h1 (ds ++ [q]) (bds ++ [b]) (by simp [hl]) o1
      exact ⟨h2, q :: qs, b :: bs, by simp [List.replicate_succ, reallocAll, e1, e2], by simpa using o2⟩

/-- Storing an item into every array. -/
theorem storeAll_ok (i : Nat) (ps : List (Option Nat)) (xs : List (List (Val K))) (h : Heap K) (ds : List (Option Nat))
    (bds bs : List (List (Val K))) (hl : ds.length = bds.length)
    (hnn : none ∉ ps) (hx : xs.length = ps.length)
    (hfit : List.Forall₂ (fun b x => i * x.length + x.length ≤ b.length) bs xs)
    (ho : Owns h (ds ++ ps) (bds ++ bs)) :
    ∃ h', storeAll h i ps xs = some h' ∧ Owns h' (ds ++ ps)
      (bds ++ List.zipWith (fun b x => b.take (i * x.length) ++ x ++ b.drop (i * x.length + x.length)) bs xs) := by
  induction ps generalizing h ds bds bs xs with
  | nil =>
    have : bs = [] := by
      have := ho.cont.length_eq; simp [hl] at this; exact this
    subst this
    exact ⟨h, by unfold storeAll; rfl, by simpa using ho⟩
  | cons p ps ih =>
    match xs, bs, hfit, hx with
    | [], [], _, hx => simp at hx
    | x :: xs, b :: bs, .cons hb hfit, hx =>
      cases p with
      | none => simp at hnn
      | some p =>
        obtain ⟨hp, _⟩ := ho.split hl
        have o1 := Owns.update (b' := b.take (i * x.length) ++ x ++ b.drop (i * x.length + x.length)) hl ho
        have e1 : store h (some p) (i * x.length) x = some ⟨fun q => if q = p then
            some (b.take (i * x.length) ++ x ++ b.drop (i * x.length + x.length)) else h.blk q, h.next⟩ := by
          unfold store
          simp only [hp]
          rw [if_pos hb]
        obtain ⟨h2, e2, o2⟩ := ih xs _ (ds ++ [some p]) (bds ++ [b.take (i * x.length) ++ x ++ b.drop (i * x.length + x.length)]) bs
          (by simp [hl]) (by simp at hnn; exact hnn) (by simpa using hx) hfit (by simpa using o1)
        exact ⟨h2, by simp [storeAll, e1, e2], by simpa using o2⟩

end Verif.TSource
