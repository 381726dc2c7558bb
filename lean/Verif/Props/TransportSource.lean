import Verif.Lemmas.TransportSource
import Mathlib.Algebra.Field.Rat
import Mathlib.Tactic.Ring
import Mathlib.Tactic.IntervalCases

/-! C17: the transport source table. -/

namespace Verif.TSource

open Verif.TSource.Spec

variable {K : Type}

/-- Values of array `k` for source `e`. -/
def item (k : Nat) (e : Entry K) : List (Val K) := (e.items[k]?).getD []

/-- Values per source of array `k`. -/
def width (np k : Nat) : Nat := ((widths np)[k]?).getD 0

/-- The representation invariant. -/
structure Rep (h : Heap K) (s : Src) (es : List (Entry K)) (bs : List (List (Val K))) : Prop where
  owns : Owns h s.arrays bs
  len : s.arrays.length = 5
  null : s.cpty = 0 → s.arrays = List.replicate 5 none
  live : s.cpty ≠ 0 → none ∉ s.arrays
  pos : s.nphase ≠ 0
  count : s.nsrc = es.length
  cap : s.nsrc ≤ s.cpty
  sizes : ∀ e ∈ es, e.sat.length = s.nphase ∧ e.z.length = s.nphase
  blocks : ∀ (k : Nat) (b : List (Val K)), bs[k]? = some b → b.length = s.cpty * width s.nphase k ∧
    b.take (s.nsrc * width s.nphase k) = es.flatMap (item k)

theorem Rep.bslen {h : Heap K} {s : Src} {es : List (Entry K)} {bs : List (List (Val K))} (r : Rep h s es bs) : bs.length = 5 := by
  rw [← r.owns.cont.length_eq, r.len]

theorem item_length (e : Entry K) (np : Nat) (hs : e.sat.length = np) (hz : e.z.length = np) (k : Nat) (hk : k < 5) :
    (item k e).length = width np k := by
  interval_cases k <;> simp [item, width, Entry.items, widths, hs, hz]

theorem width_map (np a k n : Nat) (h : ((widths np).map (a * ·))[k]? = some n) : n = a * width np k := by
  unfold width
  rw [List.getElem?_map] at h
  cases hw : (widths np)[k]? with
  | none => simp [hw] at h
  | some w => simp [hw] at h; simp [h]

theorem resize_length (b : List (Val K)) (n : Nat) : (resize b n).length = n := by
  unfold resize
  rw [List.length_append, List.length_take, List.length_replicate]
  omega

theorem resize_take (b : List (Val K)) (n m : Nat) (hm : m ≤ b.length) (hn : b.length ≤ n) : (resize b n).take m = b.take m := by
  unfold resize
  rw [List.take_append_of_le_length (by rw [List.length_take]; omega), List.take_take, min_eq_left (by omega)]

theorem expand_ok {h : Heap K} {s : Src} {es : List (Entry K)} {bs : List (List (Val K))} (r : Rep h s es bs) (alloc : Nat)
    (hc : s.cpty ≤ alloc) (ha : alloc ≠ 0) (as : List Alloc) (hl : as.length = 5) (hf : Alloc.fail ∉ as) :
    ∃ h' s' bs', expand alloc h s as = some (h', s', alloc) ∧ Rep h' s' es bs' ∧ s'.cpty = alloc ∧ s'.nphase = s.nphase ∧
      s'.nsrc = s.nsrc := by
  obtain ⟨h', qs, e, hn, ho⟩ := reallocAll_ok s.arrays ((widths s.nphase).map (alloc * ·)) as h [] [] bs rfl
    (by simp [widths, r.len]) (by rw [hl, r.len]) hf (by simpa using r.owns)
  have hlen : qs.length = 5 := by
    have := ho.cont.length_eq
    simp only [List.nil_append, List.length_zipWith, List.length_map] at this
    rw [this, r.bslen]; simp [widths]
  refine ⟨h', { s with arrays := qs, cpty := alloc }, _, ?_, ⟨by simpa using ho, hlen, fun h => absurd h ha, fun _ => hn, r.pos, r.count,
    r.cap.trans hc, r.sizes, ?_⟩, rfl, rfl, rfl⟩
  · unfold expand
    rw [e]
    simp [hn]
  · intro k b hb
    rw [List.getElem?_zipWith] at hb
    cases h1 : bs[k]? with
    | none => simp [h1] at hb
    | some b0 =>
      cases h2 : ((widths s.nphase).map (alloc * ·))[k]? with
      | none => simp [h1, h2] at hb
      | some n =>
        simp only [h1, h2, Option.some.injEq] at hb
        have hw := width_map _ _ _ _ h2
        obtain ⟨b1, b2⟩ := r.blocks k b0 h1
        simp only
        rw [← hb]
        refine ⟨by rw [resize_length, hw], ?_⟩
        rw [resize_take, b2]
        · rw [b1]; exact Nat.mul_le_mul_right _ r.cap
        · rw [b1, hw]; exact Nat.mul_le_mul_right _ hc

theorem append_ok {h : Heap K} {s : Src} {es : List (Entry K)} {bs : List (List (Val K))} (r : Rep h s es bs) (e : Entry K)
    (hs : e.sat.length = s.nphase) (hz : e.z.length = s.nphase) (as : List Alloc) (hl : as.length = 5) (hf : Alloc.fail ∉ as) :
    ∃ h' s' bs', append s.nphase e h s as = some (h', s', 1) ∧ Rep h' s' (es ++ [e]) bs' ∧ s'.nphase = s.nphase := by
  -- the table after possible growth
  have grown : ∃ h1 s1 b1 st, grow h s as =
      some (h1, s1, st) ∧ 0 < st ∧ Rep h1 s1 es b1 ∧ s1.nsrc < s1.cpty ∧ s1.nphase = s.nphase := by
    unfold grow
    by_cases hg : s.nsrc = s.cpty
    · rw [if_pos hg]
      by_cases hp : s.cpty > 0
      · rw [if_pos hp]
        obtain ⟨h1, s1, b1, e1, r1, c1, n1, m1⟩ := expand_ok r (2 * s.cpty) (by omega) (by omega) as hl hf
        exact ⟨h1, s1, b1, _, e1, by omega, r1, by omega, n1⟩
      · rw [if_neg hp]
        obtain ⟨h1, s1, b1, e1, r1, c1, n1, m1⟩ := expand_ok r 1 (by omega) (by omega) as hl hf
        exact ⟨h1, s1, b1, _, e1, by omega, r1, by omega, n1⟩
    · rw [if_neg hg]
      exact ⟨h, s, bs, 1, rfl, by omega, r, by have := r.cap; omega, rfl⟩
  obtain ⟨h1, s1, b1, st, e1, hst, r1, hlt, hnp⟩ := grown
  have hfit : List.Forall₂ (fun b x => s1.nsrc * x.length + x.length ≤ b.length) b1 e.items := by
    rw [List.forall₂_iff_get]
    refine ⟨by rw [r1.bslen]; rfl, ?_⟩
    intro k hk hk'
    have hk5 : k < 5 := by rw [r1.bslen] at hk; exact hk
    obtain ⟨l1, _⟩ := r1.blocks k b1[k] (List.getElem?_eq_getElem hk)
    have hi : (e.items.get ⟨k, hk'⟩).length = width s1.nphase k := by
      rw [← item_length e s1.nphase (by rw [hnp, hs]) (by rw [hnp, hz]) k hk5]
      unfold item; simp [List.getElem?_eq_getElem hk']
    simp only [List.get_eq_getElem] at hi ⊢
    rw [hi, l1, ← Nat.succ_mul]
    exact Nat.mul_le_mul_right _ hlt
  obtain ⟨h2, e2, o2⟩ := storeAll_ok s1.nsrc s1.arrays e.items h1 [] [] b1 rfl (r1.live (by omega)) (by rw [r1.len]; rfl) hfit
    (by simpa using r1.owns)
  refine ⟨h2, { s1 with nsrc := s1.nsrc + 1 }, _, ?_, ⟨by simpa using o2, r1.len, r1.null, r1.live, r1.pos, ?_, hlt, ?_, ?_⟩, hnp⟩
  · unfold append
    simp only [ne_eq, not_true_eq_false, if_false, bind, Option.bind]
    rw [e1]
    simp only [hst, if_true, hs, hz, and_self, e2]
    rfl
  · simp [r1.count]
  · intro x hx
    rw [List.mem_append, List.mem_singleton] at hx
    rcases hx with hx | rfl
    · exact r1.sizes x hx
    · exact ⟨by simpa [hnp] using hs, by simpa [hnp] using hz⟩
  · intro k b hb
    rw [List.getElem?_zipWith] at hb
    cases hb0 : b1[k]? with
    | none => simp [hb0] at hb
    | some b0 =>
      cases hx0 : e.items[k]? with
      | none => simp [hb0, hx0] at hb
      | some x =>
        simp only [hb0, hx0, Option.some.injEq] at hb
        have hk5 : k < 5 := by
          have := (List.getElem?_eq_some_iff.1 hb0).1; rw [r1.bslen] at this; exact this
        have hxw : x.length = width s1.nphase k := by
          rw [← item_length e s1.nphase (by rw [hnp, hs]) (by rw [hnp, hz]) k hk5]
          unfold item; simp [hx0]
        have hxi : item k e = x := by unfold item; simp [hx0]
        obtain ⟨l1, l2⟩ := r1.blocks k b0 hb0
        have hle : s1.nsrc * x.length + x.length ≤ b0.length := by
          rw [l1, hxw, ← Nat.succ_mul]; exact Nat.mul_le_mul_right _ hlt
        simp only
        rw [← hb]
        constructor
        · rw [List.length_append, List.length_append, List.length_take, List.length_drop, ← l1]; omega
        · have htl : (b0.take (s1.nsrc * x.length)).length = s1.nsrc * x.length := by rw [List.length_take]; omega
          rw [show (s1.nsrc + 1) * width s1.nphase k = (b0.take (s1.nsrc * x.length) ++ x).length by
            rw [List.length_append, htl, hxw, Nat.succ_mul], ← List.append_assoc, List.take_left, hxw, l2, List.flatMap_append]
          simp [hxi]

theorem Rep.shows {h : Heap K} {s : Src} {es : List (Entry K)} {bs : List (List (Val K))} (r : Rep h s es bs) : Shows h s es := by
  refine ⟨r.count, fun hne => ?_⟩
  have hcp : s.cpty ≠ 0 := by
    have := r.cap; have := r.count
    have : es.length ≠ 0 := by simpa using hne
    omega
  have hlive := r.live hcp
  have hlen := r.len
  match ha : s.arrays, hlen with
  | [some c, some p, some v, some sa, some z], _ =>
    refine ⟨some c, some p, some v, some sa, some z, rfl, ?_⟩
    have hbl := r.bslen
    match hb : bs, hbl with
    | [b0, b1, b2, b3, b4], _ =>
      have ho := r.owns.cont
      rw [ha] at ho
      cases ho with | cons o0 ho => cases ho with | cons o1 ho => cases ho with | cons o2 ho => cases ho with | cons o3 ho => cases ho with
      | cons o4 ho =>
      simp only [content] at o0 o1 o2 o3 o4
      -- reading entry `i * w + j` of a column
      have col : ∀ (k : Nat) (hk : k < 5) (b : List (Val K)), [b0, b1, b2, b3, b4][k]? = some b → ∀ (i : Nat) (e : Entry K), es[i]? = some e →
          ∀ j < width s.nphase k, b[width s.nphase k * i + j]? = (item k e)[j]? := by
        intro k hk b hbk i e he j hj
        obtain ⟨l1, l2⟩ := r.blocks k b hbk
        have hi : i < es.length := (List.getElem?_eq_some_iff.1 he).1
        have hlt : width s.nphase k * i + j < s.nsrc * width s.nphase k := by
          rw [r.count]
          have : (i + 1) * width s.nphase k ≤ es.length * width s.nphase k := Nat.mul_le_mul_right _ hi
          calc width s.nphase k * i + j < width s.nphase k * i + width s.nphase k := by omega
            _ = (i + 1) * width s.nphase k := by ring
            _ ≤ _ := this
        have hget : b[width s.nphase k * i + j]? = (es.flatMap (item k))[width s.nphase k * i + j]? := by
          rw [← l2, List.getElem?_take, if_pos hlt]
        rw [hget]
        have gen : ∀ (l : List (Entry K)) (i : Nat), (∀ e ∈ l, e.sat.length = s.nphase ∧ e.z.length = s.nphase) → l[i]? = some e →
            (l.flatMap (item k))[width s.nphase k * i + j]? = (item k e)[j]? := by
          intro l
          induction l with
          | nil => intro i _ h; simp at h
          | cons a l ih =>
            intro i hl he
            obtain ⟨x1, x2⟩ := hl a List.mem_cons_self
            have hal := item_length a s.nphase x1 x2 k hk
            rw [List.flatMap_cons]
            cases i with
            | zero =>
              simp at he; subst he
              rw [Nat.mul_zero, Nat.zero_add, List.getElem?_append_left (by omega)]
            | succ i =>
              rw [List.getElem?_append_right (by rw [hal, Nat.mul_succ]; omega)]
              rw [show width s.nphase k * (i + 1) + j - (item k a).length = width s.nphase k * i + j by rw [hal, Nat.mul_succ]; omega]
              exact ih i (fun e he => hl e (List.mem_cons_of_mem _ he)) (by simpa using he)
        exact gen es i r.sizes he
      intro i e he
      refine ⟨?_, ?_, ?_, ?_⟩
      · have := col 0 (by omega) b0 rfl i e he 0 (by simp [width, widths])
        simpa [load, o0, width, widths, item, Entry.items] using this
      · have := col 1 (by omega) b1 rfl i e he 0 (by simp [width, widths])
        simpa [load, o1, width, widths, item, Entry.items] using this
      · have := col 2 (by omega) b2 rfl i e he 0 (by simp [width, widths])
        simpa [load, o2, width, widths, item, Entry.items] using this
      · intro j hj
        have h3 := col 3 (by omega) b3 rfl i e he j (by simpa [width, widths] using hj)
        have h4 := col 4 (by omega) b4 rfl i e he j (by simpa [width, widths] using hj)
        constructor
        · simpa [load, o3, width, widths, item, Entry.items] using h3
        · simpa [load, o4, width, widths, item, Entry.items] using h4
  | none :: _, _ => rw [ha] at hlive; simp at hlive
  | _ :: none :: _, _ => rw [ha] at hlive; simp at hlive
  | _ :: _ :: none :: _, _ => rw [ha] at hlive; simp at hlive
  | _ :: _ :: _ :: none :: _, _ => rw [ha] at hlive; simp at hlive
  | _ :: _ :: _ :: _ :: none :: _, _ => rw [ha] at hlive; simp at hlive

theorem Rep.clear {h : Heap K} {s : Src} {es : List (Entry K)} {bs : List (List (Val K))} (r : Rep h s es bs) :
    Rep h (clear s) [] bs := by
  refine ⟨r.owns, r.len, r.null, r.live, r.pos, rfl, Nat.zero_le _, by simp, ?_⟩
  intro k b hb
  exact ⟨(r.blocks k b hb).1, by simp [TSource.clear]⟩

theorem run_ok (ops : List (Op K)) {h : Heap K} {s : Src} {es : List (Entry K)} {bs : List (List (Val K))} (r : Rep h s es bs)
    (hg : ∀ o ∈ ops, GoodOp s.nphase o) :
    ∃ h' s' bs', run h s ops = some (h', s', (absRun s.nphase es ops).2) ∧ Rep h' s' (absRun s.nphase es ops).1 bs' := by
  induction ops generalizing h s es bs with
  | nil => exact ⟨h, s, bs, rfl, r⟩
  | cons o ops ih =>
    have step : ∃ h1 s1 b1, step h s o = some (h1, s1, (absStep s.nphase es o).2) ∧ Rep h1 s1 (absStep s.nphase es o).1 b1 ∧
        s1.nphase = s.nphase := by
      cases o with
      | clear => exact ⟨h, TSource.clear s, bs, rfl, r.clear, rfl⟩
      | append np e as =>
        obtain ⟨g1, g2, g3⟩ := hg _ List.mem_cons_self
        by_cases hnp : np = s.nphase
        · subst hnp
          obtain ⟨s1, s2⟩ := g1 rfl
          simp only [absStep, if_true]
          exact append_ok r e s1 s2 as g2 g3
        · refine ⟨h, s, bs, ?_, ?_, rfl⟩
          · simp [TSource.step, append, hnp, absStep]
          · simpa [absStep, hnp] using r
    obtain ⟨h1, s1, b1, e1, r1, n1⟩ := step
    obtain ⟨h2, s2, b2, e2, r2⟩ := ih r1 (by rw [n1]; exact fun o ho => hg o (List.mem_cons_of_mem _ ho))
    rw [n1] at e2 r2
    exact ⟨h2, s2, b2, by simp [run, e1, e2, absRun], r2⟩

theorem create_ok (nsrc nphase : Nat) (hp : nphase ≠ 0) (h : Heap K) (he : Spec.Empty h) (as : List Alloc) (hl : as.length = 5)
    (hf : Alloc.fail ∉ as) :
    ∃ h' s bs, create nsrc nphase h as = some (h', some s) ∧ Rep h' s [] bs ∧ s.nphase = nphase ∧ s.cpty = nsrc := by
  have r0 : Rep h ⟨0, 0, nphase, [none, none, none, none, none]⟩ [] [[], [], [], [], []] := by
    refine ⟨⟨?_, by simp, by simp, fun q hq => absurd (he q) hq⟩, rfl, fun _ => rfl, fun h => absurd rfl h, hp, rfl, le_rfl, by simp, ?_⟩
    · simp [content]
    · intro k b hb
      have : b = [] := by
        have hk : k < 5 := by have := (List.getElem?_eq_some_iff.1 hb).1; simpa using this
        interval_cases k <;> simp_all
      subst this; simp
  unfold create
  rw [if_neg hp]
  by_cases hn : nsrc > 0
  · obtain ⟨h1, s1, b1, e1, r1, c1, n1, m1⟩ := expand_ok r0 nsrc (Nat.zero_le _) (by omega) as hl hf
    refine ⟨h1, s1, b1, ?_, r1, n1, c1⟩
    simp only [hn, if_true, e1, bind, Option.bind]
    rw [if_neg (by omega)]; rfl
  · refine ⟨h, _, _, by simp only [hn, if_false]; rfl, r0, rfl, by simp; omega⟩

/-- **C17** A table created on an empty heap and used by any sequence of appends and clears (with the allocator obliging) never runs into undefined
behaviour, returns 1 for every append with the right number of phases and -1 otherwise, and shows exactly the sources appended since the
last clear, in order, with all their data. The capacity is never below the count. -/
theorem C17_list (nsrc nphase : Nat) (hp : nphase ≠ 0) (h : Heap K) (he : Spec.Empty h) (as : List Alloc) (hl : as.length = 5)
    (hf : Alloc.fail ∉ as) (ops : List (Op K)) (hg : ∀ o ∈ ops, GoodOp nphase o) :
    ∃ h1 s1 h2 s2, create nsrc nphase h as = some (h1, some s1) ∧ run h1 s1 ops = some (h2, s2, (absRun nphase [] ops).2) ∧
      Shows h2 s2 (absRun nphase [] ops).1 ∧ s2.nsrc ≤ s2.cpty := by
  obtain ⟨h1, s1, b1, e1, r1, n1, _⟩ := create_ok nsrc nphase hp h he as hl hf
  subst n1
  obtain ⟨h2, s2, b2, e2, r2⟩ := run_ok ops r1 hg
  exact ⟨h1, s1, h2, s2, e1, e2, r2.shows, r2.cap⟩

/-- **C17** Destroying the table after any such history frees every block exactly once: no double free and no leak. -/
theorem C17_no_leak (nsrc nphase : Nat) (hp : nphase ≠ 0) (h : Heap K) (he : Spec.Empty h) (as : List Alloc) (hl : as.length = 5)
    (hf : Alloc.fail ∉ as) (ops : List (Op K)) (hg : ∀ o ∈ ops, GoodOp nphase o) :
    ∃ h1 s1 h2 s2 rs h3, create nsrc nphase h as = some (h1, some s1) ∧ run h1 s1 ops = some (h2, s2, rs) ∧
      destroy h2 s2 = some h3 ∧ Spec.Empty h3 := by
  obtain ⟨h1, s1, b1, e1, r1, n1, _⟩ := create_ok nsrc nphase hp h he as hl hf
  subst n1
  obtain ⟨h2, s2, b2, e2, r2⟩ := run_ok ops r1 hg
  obtain ⟨h3, e3, o3⟩ := freeAll_ok r2.owns.reverse
  exact ⟨h1, s1, h2, s2, _, h3, e1, e2, e3, o3⟩

/-- **C17** A wrong number of phases is refused and changes nothing, in every state and whatever the arguments. -/
theorem C17_wrong_phases (np : Nat) (e : Entry K) (h : Heap K) (s : Src) (as : List Alloc) (hn : np ≠ s.nphase) :
    append np e h s as = some (h, s, -1) := by
  simp [append, hn]

/-- Creation with a failing allocator: NULL is returned, everything that was allocated is released again. -/
theorem expand_null_fail (alloc : Nat) (h : Heap K) (he : Spec.Empty h) (s : Src) (ha : s.arrays = List.replicate 5 none)
    (as : List Alloc) (hl : as.length = 5) (hf : Alloc.fail ∈ as) :
    ∃ h', expand alloc h s as = some (h', s, 0) ∧ Spec.Empty h' := by
  have h0 : Owns h [] ([] : List (List (Val K))) := ⟨.nil, by simp, by simp, fun q hq => absurd (he q) hq⟩
  obtain ⟨h1, qs, bs, e1, o1⟩ := reallocAll_null 5 ((widths s.nphase).map (alloc * ·)) as h [] [] rfl h0
  have hnone : none ∈ qs := by
    have gen : ∀ (k : Nat) (ns : List Nat) (as : List Alloc) (h h' : Heap K) (qs : List (Option Nat)), ns.length = k → as.length = k →
        Alloc.fail ∈ as → reallocAll h (List.replicate k none) ns as = some (h', qs) → none ∈ qs := by
      intro k
      induction k with
      | zero =>
        intro ns as h h' qs hn ha hf
        rw [List.length_eq_zero_iff] at ha; subst ha; simp at hf
      | succ k ih =>
        intro ns as h h' qs hn ha hf e
        match ns, as, hn, ha with
        | n :: ns, a :: as, hn, ha =>
          rw [List.replicate_succ] at e
          simp only [reallocAll, bind, Option.bind] at e
          cases hr : realloc h none n a with
          | none => simp [hr] at e
          | some r =>
            obtain ⟨h2, q⟩ := r
            simp only [hr] at e
            cases hr2 : reallocAll h2 (List.replicate k none) ns as with
            | none => simp [hr2] at e
            | some r2 =>
              obtain ⟨h3, qs'⟩ := r2
              simp only [hr2] at e
              injection e with e
              injection e with e1 e2
              subst e2
              rw [List.mem_cons] at hf
              rcases hf with hf | hf
              · subst hf
                simp [realloc] at hr
                simp [hr.2]
              · exact List.mem_cons_of_mem _ (ih ns as h2 h3 qs' (by simpa using hn) (by simpa using ha) hf hr2)
    exact gen 5 _ as h h1 qs (by simp [widths]) hl hf e1
  obtain ⟨h2, e2, o2⟩ := freeAll_ok (Owns.reverse (by simpa using o1 : Owns h1 qs bs))
  refine ⟨h2, ?_, o2⟩
  unfold expand
  rw [ha, e1]
  simp only [bind, Option.bind, hnone, if_true, e2]
  rfl

/-- **C17** If memory is exhausted while the table is created, NULL is returned and nothing leaks. -/
theorem C17_create_failure (nsrc nphase : Nat) (hp : nphase ≠ 0) (hn : 0 < nsrc) (h : Heap K) (he : Spec.Empty h) (as : List Alloc)
    (hl : as.length = 5) (hf : Alloc.fail ∈ as) :
    ∃ h', create nsrc nphase h as = some (h', none) ∧ Spec.Empty h' := by
  obtain ⟨h1, e1, o1⟩ := expand_null_fail nsrc h he ⟨0, 0, nphase, [none, none, none, none, none]⟩ rfl as hl hf
  refine ⟨h1, ?_, o1⟩
  unfold create
  rw [if_neg hp]
  simp only [hn, gt_iff_lt, if_true, bind, Option.bind, e1]
  rfl

/-- **C17** If memory is exhausted at the first growth of an empty table, the append returns 0 and the table is unchanged and usable. -/
theorem C17_first_growth_failure (nphase : Nat) (h : Heap K) (he : Spec.Empty h) (e : Entry K) (as : List Alloc)
    (hl : as.length = 5) (hf : Alloc.fail ∈ as) :
    ∃ h', append nphase e h ⟨0, 0, nphase, List.replicate 5 none⟩ as = some (h', ⟨0, 0, nphase, List.replicate 5 none⟩, 0) ∧ Spec.Empty h' := by
  obtain ⟨h1, e1, o1⟩ := expand_null_fail 1 h he ⟨0, 0, nphase, List.replicate 5 none⟩ rfl as hl hf
  refine ⟨h1, ?_, o1⟩
  unfold append
  simp only [grow, ne_eq, not_true_eq_false, if_false, if_true, gt_iff_lt, Nat.lt_irrefl, e1, bind, Option.bind]
  rfl

/-- A two-phase source. -/
def exEntry (c : Int) : Entry ℚ := ⟨c, 1, c, [1, 0], [2, 3]⟩

/-- A history meeting the hypotheses: six appends (one refused) with a clear in between. -/
def exOps : List (Op ℚ) :=
  let as := [Alloc.move, .inplace, .move, .inplace, .move]
  [.append 2 (exEntry 1) as, .append 2 (exEntry 2) as, .append 3 (exEntry 9) as, .clear,
   .append 2 (exEntry 3) as, .append 2 (exEntry 4) as, .append 2 (exEntry 5) as]

example : (∀ o ∈ exOps, GoodOp 2 o) ∧ ((absRun 2 [] exOps).1.map (·.cell) = [3, 4, 5]) ∧
    (absRun 2 [] exOps).2 = [1, 1, -1, 0, 1, 1, 1] := by
  refine ⟨?_, rfl, rfl⟩
  intro o ho
  simp only [exOps, List.mem_cons, List.not_mem_nil, or_false] at ho
  rcases ho with rfl | rfl | rfl | rfl | rfl | rfl | rfl <;> simp [GoodOp, exEntry]

/-- **C17** (violated: exhausted memory at a later growth) If only the last of the five reallocations fails, the append returns 0, but the four arrays
that had been moved have been freed while the table still points to their old, equally dead, addresses: destroying the table
frees them again, and so does the next append. -/
theorem C17_violated_growth_failure :
    ∃ (h : Heap ℚ) (s : Src) (h' : Heap ℚ), create 1 2 ⟨fun _ => none, 1⟩ [.move, .move, .move, .move, .move] = some (h, some s) ∧
      (∃ h1 s1, append 2 (exEntry 1) h s [] = some (h1, s1, 1) ∧
        append 2 (exEntry 2) h1 s1 [.move, .inplace, .move, .move, .fail] = some (h', s1, 0) ∧
        destroy h' s1 = none ∧ append 2 (exEntry 2) h' s1 [.move, .move, .move, .move, .move] = none) := by
  refine ⟨_, _, _, rfl, _, _, rfl, rfl, rfl, rfl⟩

/-- If all five reallocations fail nothing has been freed and the table stays usable. -/
theorem C17_all_fail (h : Heap K) (s : Src) (es : List (Entry K)) (bs : List (List (Val K))) (r : Rep h s es bs) (e : Entry K)
    (hfull : s.nsrc = s.cpty) :
    append s.nphase e h s (List.replicate 5 .fail) = some (h, s, 0) := by
  have gen : ∀ (ps : List (Option Nat)) (bs : List (List (Val K))), List.Forall₂ (fun p b => content h p = some b) ps bs →
      ∀ (ns : List Nat) (k : Nat), ns.length = ps.length → k = ps.length →
      reallocAll h ps ns (List.replicate k .fail) = some (h, List.replicate k none) := by
    intro ps bs hc
    induction hc with
    | nil => intro ns k _ hk; subst hk; simp [reallocAll]
    | @cons p b ps bs h1 _ ih =>
      intro ns k hn hk
      match ns, k, hn, hk with
      | n :: ns, k + 1, hn, hk =>
        have : realloc h p n .fail = some (h, none) := by
          cases p with
          | none => rfl
          | some p => simp only [content] at h1; simp [realloc, h1]
        rw [List.replicate_succ, reallocAll, this]
        simp only [bind, Option.bind]
        rw [ih ns k (by simpa using hn) (by simpa using hk)]
        rfl
  have hr := gen s.arrays bs r.owns.cont
  unfold append
  simp only [grow, ne_eq, not_true_eq_false, if_false, hfull, if_true, bind, Option.bind]
  unfold expand
  rw [hr _ 5 (by simp [widths, r.len]) (by rw [r.len])]
  simp [freeAll, free]

end Verif.TSource
