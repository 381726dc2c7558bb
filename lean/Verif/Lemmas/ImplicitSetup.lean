import Verif.Spec.ImplicitSetup
import Verif.Lemmas.Pattern
import Verif.Props.ImplicitGravity

/-! Helper lemmas for C104. -/

namespace Verif.ImplicitSetup

open Verif.Implicit Verif.ImplicitSetup.Spec

variable {K : Type}

/-- Positions in a list of rows laid end to end. -/
theorem flat_get {α : Type} (rows : Nat → List α) (n h c : Nat) (x : α) :
    ((List.range n).flatMap fun c => (rows c).map fun x => (c, x))[h]? = some (c, x) ↔
      c < n ∧ ∃ l, (rows c)[l]? = some x ∧ h = ((List.range c).map fun k => (rows k).length).sum + l := by
  have len : ∀ n, ((List.range n).flatMap fun c => (rows c).map fun x => (c, x)).length = ((List.range n).map fun k => (rows k).length).sum := by
    intro n
    rw [List.length_flatMap]
    refine congrArg _ (List.map_congr_left fun c _ => ?_)
    rw [List.length_map]
  induction n with
  | zero => simp
  | succ n ih =>
    rw [List.range_succ, List.flatMap_append, List.getElem?_append]
    have mono : ∀ a b, a ≤ b → ((List.range a).map fun k => (rows k).length).sum ≤ ((List.range b).map fun k => (rows k).length).sum := by
      intro a b hab
      induction b with
      | zero => obtain rfl : a = 0 := by omega
                exact le_refl _
      | succ b ihb =>
        rw [List.range_succ, List.map_append, List.sum_append]
        by_cases hh : a ≤ b
        · have := ihb hh; omega
        · obtain rfl : a = b + 1 := by omega
          rw [List.range_succ, List.map_append, List.sum_append]
    split
    · rename_i hlt
      refine ih.trans ?_
      constructor
      · rintro ⟨h1, h2⟩; exact ⟨by omega, h2⟩
      · rintro ⟨h1, l, h2, h3⟩
        refine ⟨?_, l, h2, h3⟩
        by_contra hcn
        obtain rfl : c = n := by omega
        rw [len] at hlt
        omega
    · rename_i hge
      rw [len] at hge ⊢
      simp only [List.flatMap_cons, List.flatMap_nil, List.append_nil, List.getElem?_map]
      constructor
      · intro e
        obtain ⟨y, e1, e2⟩ := Option.map_eq_some_iff.mp e
        obtain ⟨rfl, rfl⟩ := Prod.mk.inj e2
        exact ⟨by omega, _, e1, by omega⟩
      · rintro ⟨h1, l, h2, h3⟩
        have hcn : c = n := by
          by_contra hcn
          have hl := (List.getElem?_eq_some_iff.mp h2).1
          have := mono (c + 1) n (by omega)
          rw [List.range_succ, List.map_append, List.sum_append] at this
          simp at this
          omega
        subst hcn
        rw [h3, Nat.add_sub_cancel_left, h2]
        rfl

section

variable {g : Grid} {cells : Nat → List (EFace K)}

theorem half_get (g : Grid) (h c x : Nat) : g.halfFaces[h]? = some (c, x) ↔ c < g.nc ∧ ∃ l, (g.cellFaces c)[l]? = some x ∧ h = g.facepos c + l :=
  flat_get g.cellFaces g.nc h c x

theorem halves_get (A : Agree g cells) (h c l : Nat) (f : EFace K) :
    (halves g.nc cells)[h]? = some (c, l, f) ↔ c < g.nc ∧ (cells c)[l]? = some f ∧ h = g.facepos c + l := by
  have e : halves g.nc cells = (List.range g.nc).flatMap fun c => ((cells c).zipIdx.map Prod.swap).map fun x => (c, x) := by
    unfold halves
    simp only [List.map_map]
    rfl
  rw [e, flat_get (fun c => (cells c).zipIdx.map Prod.swap)]
  have hl : c < g.nc → ((List.range c).map fun k => ((cells k).zipIdx.map Prod.swap).length).sum = g.facepos c := by
    intro hc
    unfold Grid.facepos
    refine congrArg _ (List.map_congr_left fun k hk => ?_)
    rw [List.length_map, List.length_zipIdx, A.counts k (by have := List.mem_range.mp hk; omega)]
  have hg : ∀ l', ((cells c).zipIdx.map Prod.swap)[l']? = some (l, f) ↔ l' = l ∧ (cells c)[l]? = some f := by
    intro l'
    rw [List.getElem?_map, List.getElem?_zipIdx]
    simp only [Option.map_map, Option.map_eq_some_iff, Function.comp_apply, Prod.swap_prod_mk, Nat.zero_add, Prod.mk.injEq]
    constructor
    · rintro ⟨a, h1, rfl, rfl⟩; exact ⟨rfl, h1⟩
    · rintro ⟨rfl, h1⟩; exact ⟨f, h1, rfl, rfl⟩
  constructor
  · rintro ⟨h1, l', h2, h3⟩
    obtain ⟨rfl, h4⟩ := (hg l').mp h2
    exact ⟨h1, h4, by rw [h3, hl h1]⟩
  · rintro ⟨h1, h2, h3⟩
    exact ⟨h1, l, (hg l).mpr ⟨rfl, h2⟩, by rw [h3, hl h1]⟩

theorem face_exists (A : Agree g cells) {c l : Nat} {f : EFace K} (hc : c < g.nc) (hf : (cells c)[l]? = some f) :
    ∃ x, (g.cellFaces c)[l]? = some x := by
  have := (List.getElem?_eq_some_iff.mp hf).1
  rw [A.counts c hc] at this
  exact ⟨_, List.getElem?_eq_getElem this⟩

theorem cellFace_eq {c l x : Nat} (hc : c < g.nc) (hx : (g.cellFaces c)[l]? = some x) : cellFace g c l = some x := by
  unfold cellFace
  rw [(half_get g _ c x).mpr ⟨hc, l, hx, rfl⟩]
  rfl

/-- The map of face numbers. -/
theorem faceMap_eq (A : Agree g cells) : ∃ m, faceMap g cells = some m ∧
    ∀ (c l x : Nat) (f : EFace K), c < g.nc → (cells c)[l]? = some f → (g.cellFaces c)[l]? = some x → m f.idx = x := by
  have mem : ∀ q ∈ halves g.nc cells, q.1 < g.nc ∧ (cells q.1)[q.2.1]? = some q.2.2 := by
    intro q hq
    obtain ⟨h, hh⟩ := List.mem_iff_getElem?.mp hq
    obtain ⟨h1, h2, -⟩ := (halves_get A h q.1 q.2.1 q.2.2).mp hh
    exact ⟨h1, h2⟩
  have key : ∀ (L : List (Nat × Nat × EFace K)) (t : Nat → Nat), (∀ q ∈ L, q.1 < g.nc ∧ (cells q.1)[q.2.1]? = some q.2.2) →
      ∃ m, L.foldlM (fun t q => (cellFace g q.1 q.2.1).bind fun x =>
        if q.2.2.idx < g.nf then some (Function.update t q.2.2.idx x) else none) t = some m ∧
        ∀ (c l x : Nat) (f : EFace K), c < g.nc → (cells c)[l]? = some f → (g.cellFaces c)[l]? = some x →
          (t f.idx = x ∨ (c, l, f) ∈ L) → m f.idx = x := by
    intro L
    induction L with
    | nil =>
      intro t _
      exact ⟨t, rfl, fun c l x f _ _ _ h => by simpa using h⟩
    | cons q L ih =>
      intro t hL
      obtain ⟨hq1, hq2⟩ := hL q (by simp)
      obtain ⟨y, hy⟩ := face_exists A hq1 hq2
      obtain ⟨m, hm, hs⟩ := ih (Function.update t q.2.2.idx y) fun r hr => hL r (by simp [hr])
      refine ⟨m, ?_, fun c l x f hc hf hx h => ?_⟩
      · rw [List.foldlM_cons, cellFace_eq hq1 hy, Option.bind_some, if_pos (A.small _ _ _ _ hq1 hq2 hy).1]
        exact hm
      · apply hs c l x f hc hf hx
        by_cases hi : f.idx = q.2.2.idx
        · left
          rw [hi, Function.update_self]
          exact ((A.same _ _ _ _ _ _ _ _ hc hq1 hf hq2 hx hy).mp hi).symm
        · rw [Function.update_of_ne hi]
          rcases h with h | h
          · exact .inl h
          · rcases List.mem_cons.mp h with h | h
            · subst h; exact absurd rfl hi
            · exact .inr h
  obtain ⟨m, hm, hs⟩ := key (halves g.nc cells) (fun _ => 0) mem
  refine ⟨m, hm, fun c l x f hc hf hx => hs c l x f hc hf hx (.inr ?_)⟩
  exact List.mem_of_getElem? ((halves_get A _ c l f).mpr ⟨hc, hf, rfl⟩)

/-- The registered faces. -/
theorem byId_eq (A : Agree g cells) (U : Paired g.nc cells) {c l : Nat} {b : Bnd K} (hb : Boundary g.nc cells c l b) (hp : b.periodic = true) :
    byId g.nc cells b.bid = some (g.facepos c + l) := by
  have key : ∀ (L : List ((Nat × Nat × EFace K) × Nat)) (t : Nat → Option Nat), (∀ q ∈ L, (halves g.nc cells)[q.2]? = some q.1) →
      (t b.bid = some (g.facepos c + l) ∨ ∃ q ∈ L, q.2 = g.facepos c + l) →
      L.foldl register t b.bid = some (g.facepos c + l) := by
    intro L
    induction L with
    | nil => intro t _ h; simpa using h
    | cons q L ih =>
      intro t hL h
      rw [List.foldl_cons]
      apply ih _ fun r hr => hL r (by simp [hr])
      have hq := hL q (by simp)
      obtain ⟨q1, q2, q3⟩ := (halves_get A q.2 q.1.1 q.1.2.1 q.1.2.2).mp hq
      obtain ⟨hc, f, hf, hfb⟩ := hb
      rcases h with h | ⟨r, hr, hr2⟩
      · left
        unfold register
        cases hb' : q.1.2.2.bnd with
        | none => exact h
        | some b' =>
          by_cases hp' : b'.periodic = true
          · change (if b'.periodic = true then Function.update t b'.bid (some q.2) else t) b.bid = _
            rw [if_pos hp']
            by_cases hbb : b.bid = b'.bid
            · obtain ⟨e1, e2⟩ := U.unique _ _ _ _ _ _ ⟨hc, f, hf, hfb⟩ ⟨q1, _, q2, hb'⟩ hp hp' hbb
              rw [hbb, Function.update_self, q3, ← e1, ← e2]
            · rw [Function.update_of_ne hbb]; exact h
          · change (if b'.periodic = true then Function.update t b'.bid (some q.2) else t) b.bid = _
            rw [if_neg hp']; exact h
      · rcases List.mem_cons.mp hr with rfl | hr
        · left
          have he := (halves_get A _ c l f).mpr ⟨hc, hf, rfl⟩
          rw [← hr2, hq] at he
          have he' := Option.some.inj he
          unfold register
          rw [he']
          dsimp only
          rw [hfb]
          change (if b.periodic = true then Function.update t b.bid (some r.2) else t) b.bid = _
          rw [if_pos hp, Function.update_self, hr2]
        · exact .inr ⟨r, hr, hr2⟩
  unfold byId
  refine key _ _ (fun q hq => List.mem_zipIdx_iff_getElem?.mp hq) (.inr ?_)
  obtain ⟨hc, f, hf, hfb⟩ := hb
  exact ⟨((c, l, f), g.facepos c + l), List.mem_zipIdx_iff_getElem?.mpr ((halves_get A _ c l f).mpr ⟨hc, hf, rfl⟩), rfl⟩

end

/-! ### the lists -/

section

variable [Field K] [DecidableEq K] {g : Grid} {cells : Nat → List (EFace K)}

/-- What a half face contributes to the lists. -/
def perOf (g : Grid) (cells : Nat → List (EFace K)) (m : Nat → Nat) (q : (Nat × Nat × EFace K) × Nat) : List Per :=
  match q.1.2.2.bnd with
  | none => []
  | some b => if b.periodic then
      match ((byId g.nc cells) b.partner).bind fun h' => (halves g.nc cells)[h']? with
      | none => []
      | some r => [⟨q.1.1, r.1, m q.1.2.2.idx, q.2, m r.2.2.idx⟩]
    else []

def dirOf (q : (Nat × Nat × EFace K) × Nat) : List (Dir K) :=
  match q.1.2.2.bnd with
  | none => []
  | some b => if b.periodic then [] else if b.neumann = some 0 then [] else [⟨q.1.1, b.sat, q.2⟩]

omit [Field K] [DecidableEq K] in
theorem mate_get (A : Agree g cells) (U : Paired g.nc cells) {c l : Nat} {b : Bnd K} (hb : Boundary g.nc cells c l b) (hp : b.periodic = true) :
    ∃ c' l' f' b', Boundary g.nc cells c' l' b' ∧ b'.periodic = true ∧ b'.bid = b.partner ∧ b'.partner = b.bid ∧ c' ≠ c ∧
      (cells c')[l']? = some f' ∧ byId g.nc cells b.partner = some (g.facepos c' + l') ∧ (halves g.nc cells)[g.facepos c' + l']? = some (c', l', f') := by
  obtain ⟨c', l', b', h1, h2, h3, h4, h5⟩ := U.partner c l b hb hp
  obtain ⟨hc', f', hf', hb'⟩ := h1
  exact ⟨c', l', f', b', ⟨hc', f', hf', hb'⟩, h2, h3, h4, h5, hf', by rw [← h3]; exact byId_eq A U ⟨hc', f', hf', hb'⟩ h2,
    (halves_get A _ c' l' f').mpr ⟨hc', hf', rfl⟩⟩

theorem visit_eq (A : Agree g cells) (U : Paired g.nc cells) {m : Nat → Nat}
    (hm : ∀ (c l x : Nat) (f : EFace K), c < g.nc → (cells c)[l]? = some f → (g.cellFaces c)[l]? = some x → m f.idx = x)
    (s : List Per × List (Dir K)) (q : (Nat × Nat × EFace K) × Nat) (hq : q ∈ (halves g.nc cells).zipIdx) :
    visit g cells m (byId g.nc cells) s q = some (s.1 ++ perOf g cells m q, s.2 ++ dirOf q) := by
  have hq' := List.mem_zipIdx_iff_getElem?.mp hq
  obtain ⟨q1, q2, q3⟩ := (halves_get A q.2 q.1.1 q.1.2.1 q.1.2.2).mp hq'
  unfold visit perOf dirOf
  cases hb : q.1.2.2.bnd with
  | none => simp
  | some b =>
    dsimp only
    have hB : Boundary g.nc cells q.1.1 q.1.2.1 b := ⟨q1, _, q2, hb⟩
    by_cases hp : b.periodic = true
    · obtain ⟨c', l', f', b', k1, k2, k3, k4, k5, k6, k7, k8⟩ := mate_get A U hB hp
      rw [if_pos hp, if_pos hp, if_pos hp, k7, Option.bind_some, Option.bind_some, k8, Option.bind_some]
      obtain ⟨x, hx⟩ := face_exists A q1 q2
      obtain ⟨y, hy⟩ := face_exists A k1.1 k6
      have ex := hm _ _ _ _ q1 q2 hx
      have ey := hm _ _ _ _ k1.1 k6 hy
      have sx : sides g x q.1.1 = true := by
        unfold sides
        rcases A.outer _ _ _ _ hB hx with e | e <;> simp [e]
      have sy : sides g y c' = true := by
        unfold sides
        rcases A.outer _ _ _ _ k1 hy with e | e <;> simp [e]
      have hne : g.facepos c' + l' ≠ q.2 := by
        intro hh
        rw [hh, hq'] at k8
        have := Option.some.inj k8
        exact k5 (by rw [this])
      dsimp only
      rw [ex, ey, if_pos ⟨hne, k5.symm, sx, sy⟩]
      simp
    · rw [if_neg hp, if_neg hp, if_neg hp]
      by_cases hn : b.neumann = some 0
      · rw [if_pos hn, if_pos hn]; simp
      · rw [if_neg hn, if_neg hn]; simp

theorem lists_eq (A : Agree g cells) (U : Paired g.nc cells) : ∃ m,
    faceMap g cells = some m ∧ (∀ (c l x : Nat) (f : EFace K), c < g.nc → (cells c)[l]? = some f → (g.cellFaces c)[l]? = some x → m f.idx = x) ∧
    (halves g.nc cells).zipIdx.foldlM (visit g cells m (byId g.nc cells)) ([], []) =
      some ((halves g.nc cells).zipIdx.flatMap (perOf g cells m), (halves g.nc cells).zipIdx.flatMap dirOf) := by
  obtain ⟨m, e, hm⟩ := faceMap_eq A
  refine ⟨m, e, hm, ?_⟩
  rw [Verif.Pattern.foldlM_total _ _ (fun s q => (s.1 ++ perOf g cells m q, s.2 ++ dirOf q)) fun s q hq => visit_eq A U hm s q hq]
  have : ∀ (L : List ((Nat × Nat × EFace K) × Nat)) (s : List Per × List (Dir K)),
      L.foldl (fun s q => (s.1 ++ perOf g cells m q, s.2 ++ dirOf q)) s = (s.1 ++ L.flatMap (perOf g cells m), s.2 ++ L.flatMap dirOf) := by
    intro L
    induction L with
    | nil => intro s; simp
    | cons q L ih => intro s; rw [List.foldl_cons, ih]; simp [List.flatMap_cons]
  rw [this]
  simp

theorem perOf_mem (A : Agree g cells) (U : Paired g.nc cells) {m : Nat → Nat}
    (hm : ∀ (c l x : Nat) (f : EFace K), c < g.nc → (cells c)[l]? = some f → (g.cellFaces c)[l]? = some x → m f.idx = x) (p : Per) :
    p ∈ (halves g.nc cells).zipIdx.flatMap (perOf g cells m) ↔ ∃ l l', Partners g.nc cells p.c0 l p.c1 l' ∧
      (g.cellFaces p.c0)[l]? = some p.f ∧ (g.cellFaces p.c1)[l']? = some p.nb ∧ p.hf = g.facepos p.c0 + l := by
  rw [List.mem_flatMap]
  constructor
  · rintro ⟨q, hq, hp⟩
    have hq' := List.mem_zipIdx_iff_getElem?.mp hq
    obtain ⟨q1, q2, q3⟩ := (halves_get A q.2 q.1.1 q.1.2.1 q.1.2.2).mp hq'
    unfold perOf at hp
    cases hb : q.1.2.2.bnd with
    | none => rw [hb] at hp; simp at hp
    | some b =>
      rw [hb] at hp
      dsimp only at hp
      have hB : Boundary g.nc cells q.1.1 q.1.2.1 b := ⟨q1, _, q2, hb⟩
      by_cases hpe : b.periodic = true
      · obtain ⟨c', l', f', b', k1, k2, k3, k4, k5, k6, k7, k8⟩ := mate_get A U hB hpe
        rw [if_pos hpe, k7, Option.bind_some, k8] at hp
        obtain ⟨x, hx⟩ := face_exists A q1 q2
        obtain ⟨y, hy⟩ := face_exists A k1.1 k6
        have ex := hm _ _ _ _ q1 q2 hx
        have ey := hm _ _ _ _ k1.1 k6 hy
        dsimp only at hp
        rw [ex, ey, List.mem_singleton] at hp
        subst hp
        exact ⟨q.1.2.1, l', ⟨b, b', hB, k1, hpe, k2, k3⟩, hx, hy, q3⟩
      · rw [if_neg hpe] at hp; simp at hp
  · rintro ⟨l, l', ⟨b, b', hB, hB', hpe, hpe', hid⟩, hx, hy, hh⟩
    obtain ⟨hc, f, hf, hfb⟩ := hB
    have hg := (halves_get A p.hf p.c0 l f).mpr ⟨hc, hf, hh⟩
    refine ⟨((p.c0, l, f), p.hf), List.mem_zipIdx_iff_getElem?.mpr hg, ?_⟩
    unfold perOf
    dsimp only
    rw [hfb]
    dsimp only
    obtain ⟨hc', f', hf', hfb'⟩ := hB'
    have h7 := byId_eq A U ⟨hc', f', hf', hfb'⟩ hpe'
    rw [hid] at h7
    rw [if_pos hpe, h7, Option.bind_some, (halves_get A _ p.c1 l' f').mpr ⟨hc', hf', rfl⟩]
    dsimp only
    rw [hm _ _ _ _ hc hf hx, hm _ _ _ _ hc' hf' hy]
    simp

theorem dirOf_mem (A : Agree g cells) (d : Dir K) : d ∈ (halves g.nc cells).zipIdx.flatMap dirOf ↔
    ∃ l, Open g.nc cells d.cell l d.sat ∧ d.hf = g.facepos d.cell + l := by
  rw [List.mem_flatMap]
  constructor
  · rintro ⟨q, hq, hp⟩
    have hq' := List.mem_zipIdx_iff_getElem?.mp hq
    obtain ⟨q1, q2, q3⟩ := (halves_get A q.2 q.1.1 q.1.2.1 q.1.2.2).mp hq'
    unfold dirOf at hp
    cases hb : q.1.2.2.bnd with
    | none => rw [hb] at hp; simp at hp
    | some b =>
      rw [hb] at hp
      dsimp only at hp
      by_cases hpe : b.periodic = true
      · rw [if_pos hpe] at hp; simp at hp
      · rw [if_neg hpe] at hp
        by_cases hn : b.neumann = some 0
        · rw [if_pos hn] at hp; simp at hp
        · rw [if_neg hn, List.mem_singleton] at hp
          subst hp
          exact ⟨q.1.2.1, ⟨b, ⟨q1, _, q2, hb⟩, by simpa using hpe, hn, rfl⟩, q3⟩
  · rintro ⟨l, ⟨b, ⟨hc, f, hf, hfb⟩, hpe, hn, hs⟩, hh⟩
    refine ⟨((d.cell, l, f), d.hf), List.mem_zipIdx_iff_getElem?.mpr ((halves_get A _ _ _ _).mpr ⟨hc, hf, hh⟩), ?_⟩
    unfold dirOf
    dsimp only
    rw [hfb]
    dsimp only
    rw [if_neg (by simp [hpe]), if_neg hn, hs]
    simp

omit [Field K] [DecidableEq K] in
/-- At most one entry per position keeps the order of the positions. -/
theorem flat_sorted {α β : Type} (L : List α) (P : α × Nat → List β) (hf : β → Nat) (h1 : ∀ q, (P q).map hf = [] ∨ (P q).map hf = [q.2]) :
    ((L.zipIdx.flatMap P).map hf).Pairwise (· < ·) := by
  have : ∀ (M : List (α × Nat)), ((M.flatMap P).map hf).Sublist (M.map Prod.snd) := by
    intro M
    induction M with
    | nil => simp
    | cons q M ih =>
      rw [List.flatMap_cons, List.map_append, List.map_cons]
      rcases h1 q with e | e
      · rw [e]; exact ih.cons _
      · rw [e]; exact ih.cons_cons _
  refine List.Pairwise.sublist (this L.zipIdx) ?_
  rw [List.zipIdx_map_snd]
  exact List.pairwise_lt_range'

end

/-! ### the table -/

theorem enter_fold (nf : Nat) (L : List (Per × Int)) (t : Nat → Int) (hn : (L.map fun q => q.1.f).Nodup) (hlt : ∀ q ∈ L, q.1.f < nf)
    (ht : ∀ q ∈ L, (t (2 * q.1.f) = (q.1.hf : Int) ∧ t (2 * q.1.f + 1) = -1) ∨ (t (2 * q.1.f) = -1 ∧ t (2 * q.1.f + 1) = (q.1.hf : Int))) :
    ∃ t', L.foldlM (enter nf) t = some t' ∧
      (∀ q ∈ L, (t (2 * q.1.f) = (q.1.hf : Int) → t' (2 * q.1.f) = (q.1.hf : Int) ∧ t' (2 * q.1.f + 1) = q.2) ∧
        (t (2 * q.1.f) = -1 → t' (2 * q.1.f) = q.2 ∧ t' (2 * q.1.f + 1) = (q.1.hf : Int))) ∧
      ∀ x, (∀ q ∈ L, q.1.f ≠ x) → t' (2 * x) = t (2 * x) ∧ t' (2 * x + 1) = t (2 * x + 1) := by
  induction L generalizing t with
  | nil => exact ⟨t, rfl, by simp, fun x _ => ⟨rfl, rfl⟩⟩
  | cons q L ih =>
    rw [List.map_cons, List.nodup_cons] at hn
    have hq := ht q (by simp)
    have hl := hlt q (by simp)
    rw [List.foldlM_cons]
    have he : enter nf t q = some (Function.update t (2 * q.1.f + if t (2 * q.1.f) = q.1.hf then 1 else 0) q.2) := by
      unfold enter
      rw [if_pos]
      refine ⟨by omega, ?_, ?_⟩
      · rcases hq with ⟨e1, e2⟩ | ⟨e1, e2⟩ <;> simp [e1, e2]
      · rcases hq with ⟨e1, e2⟩ | ⟨e1, e2⟩
        · have : ¬ ((-1 : Int) = (q.1.hf : Int)) := by omega
          simp [e1, e2, this]
        · have : ¬ ((-1 : Int) = (q.1.hf : Int)) := by omega
          simp [e1, e2, this]
    rw [he, Option.bind_eq_bind, Option.bind_some]
    set u := Function.update t (2 * q.1.f + if t (2 * q.1.f) = q.1.hf then 1 else 0) q.2 with hu
    have hout : ∀ x, x ≠ q.1.f → u (2 * x) = t (2 * x) ∧ u (2 * x + 1) = t (2 * x + 1) := by
      intro x hx
      rw [hu]
      constructor
      · rw [Function.update_of_ne]; split <;> omega
      · rw [Function.update_of_ne]; split <;> omega
    have hne : ∀ r ∈ L, r.1.f ≠ q.1.f := fun r hr h => hn.1 (h ▸ List.mem_map.mpr ⟨r, hr, rfl⟩)
    obtain ⟨t', e, h1, h2⟩ := ih u hn.2 (fun r hr => hlt r (by simp [hr])) fun r hr => by
      obtain ⟨o1, o2⟩ := hout r.1.f (hne r hr)
      rw [o1, o2]
      exact ht r (by simp [hr])
    refine ⟨t', e, ?_, ?_⟩
    · intro r hr
      rcases List.mem_cons.mp hr with rfl | hr
      · obtain ⟨o1, o2⟩ := h2 r.1.f fun s hs => hne s hs
        rw [o1, o2]
        rcases hq with ⟨e1, e2⟩ | ⟨e1, e2⟩
        · constructor
          · intro _
            rw [hu, if_pos e1, Function.update_self, Function.update_of_ne (by omega)]
            exact ⟨e1, rfl⟩
          · intro hh; rw [e1] at hh; omega
        · constructor
          · intro hh; rw [e1] at hh; omega
          · intro _
            rw [hu, if_neg (by rw [e1]; omega), Nat.add_zero, Function.update_self, Function.update_of_ne (by omega)]
            exact ⟨rfl, e2⟩
      · obtain ⟨o1, o2⟩ := hout r.1.f (hne r hr)
        have := h1 r hr
        rw [o1] at this
        exact this
    · intro x hx
      obtain ⟨o1, o2⟩ := h2 x fun r hr => hx r (by simp [hr])
      obtain ⟨o3, o4⟩ := hout x (hx q (by simp)).symm
      exact ⟨o1.trans o3, o2.trans o4⟩

end Verif.ImplicitSetup
