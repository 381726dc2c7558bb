import Verif.Lemmas.ImplicitSetup
import Mathlib.Tactic.IntervalCases
import Mathlib.Algebra.Order.Ring.Rat

/-! C104: boundaries of the implicit transport solver. -/

namespace Verif.ImplicitSetup

open Verif.Implicit Verif.ImplicitSetup.Spec

variable {K : Type} [Field K] [DecidableEq K] {g : Grid} {cells : Nat → List (EFace K)}

/-- C104: the set-up succeeds and lists, in the order of the half faces and each once, exactly the periodic faces, with their cells, faces and
partners, and exactly the open boundary faces, with the fractional flow of their saturation. -/
theorem C104_lists (A : Agree g cells) (U : Paired g.nc cells) (mob : Nat → K → K × K)
    (hmob : ∀ c l s, Open g.nc cells c l s → (mob c s).1 + (mob c s).2 ≠ 0) :
    ∃ per dir, initObj g cells mob = some (per, dir) ∧ (per.map Per.hf).Pairwise (· < ·) ∧ (dir.map Dir.hf).Pairwise (· < ·) ∧
      (∀ p, p ∈ per ↔ ∃ l l', Partners g.nc cells p.c0 l p.c1 l' ∧ (g.cellFaces p.c0)[l]? = some p.f ∧ (g.cellFaces p.c1)[l']? = some p.nb ∧
        p.hf = g.facepos p.c0 + l) ∧
      (∀ d, d ∈ dir ↔ ∃ l s, Open g.nc cells d.cell l s ∧ d.hf = g.facepos d.cell + l ∧
        d.sat = (mob d.cell s).1 / ((mob d.cell s).1 + (mob d.cell s).2)) := by
  obtain ⟨m, e1, hm, e2⟩ := lists_eq A U
  have hd := dirOf_mem (cells := cells) A
  have hfr : ∀ d ∈ (halves g.nc cells).zipIdx.flatMap dirOf,
      fractional mob d = some { d with sat := (mob d.cell d.sat).1 / ((mob d.cell d.sat).1 + (mob d.cell d.sat).2) } := by
    intro d hd'
    obtain ⟨l, ho, -⟩ := (hd d).mp hd'
    unfold fractional
    dsimp only
    rw [if_neg (hmob _ _ _ ho)]
  refine ⟨(halves g.nc cells).zipIdx.flatMap (perOf g cells m), ((halves g.nc cells).zipIdx.flatMap dirOf).map fun d =>
    { d with sat := (mob d.cell d.sat).1 / ((mob d.cell d.sat).1 + (mob d.cell d.sat).2) }, ?_, ?_, ?_, perOf_mem A U hm, ?_⟩
  · unfold initObj
    rw [e1, Option.bind_some, e2, Option.bind_some, Verif.Pattern.mapM_total _ _ _ hfr]
    rfl
  · refine flat_sorted _ _ _ fun q => ?_
    unfold perOf
    cases q.1.2.2.bnd with
    | none => simp
    | some b =>
      dsimp only
      split
      · split <;> simp
      · simp
  · rw [List.map_map]
    have : (Dir.hf ∘ fun d : Dir K => { d with sat := (mob d.cell d.sat).1 / ((mob d.cell d.sat).1 + (mob d.cell d.sat).2) }) = Dir.hf := rfl
    rw [this]
    refine flat_sorted _ _ _ fun q => ?_
    unfold dirOf
    cases q.1.2.2.bnd with
    | none => simp
    | some b =>
      dsimp only
      split
      · simp
      · split <;> simp
  · intro d
    rw [List.mem_map]
    constructor
    · rintro ⟨d', hd', rfl⟩
      obtain ⟨l, ho, hh⟩ := (hd d').mp hd'
      exact ⟨l, d'.sat, ho, hh, rfl⟩
    · rintro ⟨l, s, ho, hh, hs⟩
      refine ⟨⟨d.cell, s, d.hf⟩, (hd _).mpr ⟨l, ho, hh⟩, ?_⟩
      dsimp only
      rw [← hs]

/-- C104: each open face gives one source, in its cell, with the flux that comes in through its half face; with mobilities that are not negative
its fractional flow lies between zero and one. -/
theorem C104_sources [LinearOrder K] [IsStrictOrderedRing K] (A : Agree g cells) (U : Paired g.nc cells) (mob : Nat → K → K × K)
    (hmob : ∀ c l s, Open g.nc cells c l s → 0 ≤ (mob c s).1 ∧ 0 ≤ (mob c s).2 ∧ 0 < (mob c s).1 + (mob c s).2) (outflux : Nat → K) :
    ∃ per dir, initObj g cells mob = some (per, dir) ∧ (sources outflux dir).length = dir.length ∧
      ∀ q ∈ sources outflux dir, 0 ≤ q.2.2 ∧ q.2.2 ≤ 1 ∧ ∃ l s, Open g.nc cells q.1 l s ∧ q.2.1 = -outflux (g.facepos q.1 + l) := by
  obtain ⟨per, dir, e, -, -, -, h⟩ := C104_lists A U mob fun c l s ho => (hmob c l s ho).2.2.ne'
  refine ⟨per, dir, e, by simp [sources], fun q hq => ?_⟩
  obtain ⟨d, hd, rfl⟩ := List.mem_map.mp hq
  obtain ⟨l, s, ho, hh, hs⟩ := (h d).mp hd
  obtain ⟨m1, m2, m3⟩ := hmob _ _ _ ho
  dsimp only
  rw [hs, hh]
  exact ⟨div_nonneg m1 m3.le, (div_le_one m3).mpr (by linarith), l, s, ho, rfl⟩

omit [DecidableEq K] in
/-- A boundary face is listed in one place only. -/
theorem boundary_once (A : Agree g cells) {c l x : Nat} {b : Bnd K} (hb : Boundary g.nc cells c l b) (hx : (g.cellFaces c)[l]? = some x)
    {c' l' : Nat} (hc' : c' < g.nc) (hx' : (g.cellFaces c')[l']? = some x) : c' = c ∧ l' = l := by
  have hcc : c' = c := by
    have := A.mine c' hc' x (List.mem_of_getElem? hx')
    rcases A.outer _ _ _ _ hb hx with e | e <;> rw [e] at this <;> simp only at this <;> omega
  subst hcc
  obtain ⟨h1, e1⟩ := List.getElem?_eq_some_iff.mp hx
  obtain ⟨h2, e2⟩ := List.getElem?_eq_some_iff.mp hx'
  exact ⟨rfl, (A.nodup _ hc').getElem_inj_iff.mp (e2.trans e1.symm)⟩

/-- C104: once the cells across the boundary are entered in the grid, every periodic face lies between its cell and that of its partner, and the
table of half faces gives on the side of each of the two cells the half face that the cell sees; no assertion fails; the other faces keep their
entries. -/
theorem C104_table (A : Agree g cells) (U : Paired g.nc cells) (mob : Nat → K → K × K)
    (hmob : ∀ c l s, Open g.nc cells c l s → (mob c s).1 + (mob c s).2 ≠ 0) :
    ∃ per dir t, initObj g cells mob = some (per, dir) ∧ makeTable g.nf (f2hf (fill g per)) per = some t ∧
      (∀ c l c' l' x, Partners g.nc cells c l c' l' → (g.cellFaces c)[l]? = some x →
        ((fill g per).faceCells x = ((c : Int), (c' : Int)) ∧ t (2 * x) = ((g.facepos c + l : Nat) : Int) ∧
          t (2 * x + 1) = ((g.facepos c' + l' : Nat) : Int)) ∨
        ((fill g per).faceCells x = ((c' : Int), (c : Int)) ∧ t (2 * x) = ((g.facepos c' + l' : Nat) : Int) ∧
          t (2 * x + 1) = ((g.facepos c + l : Nat) : Int))) ∧
      (∀ x, (∀ p ∈ per, p.f ≠ x) → (fill g per).faceCells x = g.faceCells x ∧ t (2 * x) = f2hf g (2 * x) ∧ t (2 * x + 1) = f2hf g (2 * x + 1)) := by
  obtain ⟨per, dir, e, hs, -, hper, -⟩ := C104_lists A U mob hmob
  -- partners of a periodic face are unique
  have huniq : ∀ {c l c1 l1 c2 l2 : Nat}, Partners g.nc cells c l c1 l1 → Partners g.nc cells c l c2 l2 → c1 = c2 ∧ l1 = l2 := by
    rintro c l c1 l1 c2 l2 ⟨b, b1, hB, hB1, hp, hp1, hi⟩ ⟨b', b2, hB', hB2, hp', hp2, hi'⟩
    have : b = b' := by
      obtain ⟨-, f, hf, hfb⟩ := hB
      obtain ⟨-, f', hf', hfb'⟩ := hB'
      rw [hf] at hf'
      obtain rfl := Option.some.inj hf'
      rw [hfb] at hfb'
      exact Option.some.inj hfb'
    subst this
    exact U.unique _ _ _ _ _ _ hB1 hB2 hp1 hp2 (hi.trans hi'.symm)
  have hback : ∀ {c l c' l' : Nat}, Partners g.nc cells c l c' l' → Partners g.nc cells c' l' c l ∧ c' ≠ c := by
    rintro c l c' l' ⟨b, b', hB, hB', hp, hp', hi⟩
    obtain ⟨c2, l2, b2, k1, k2, k3, k4, k5⟩ := U.partner c l b hB hp
    obtain ⟨r1, r2⟩ := U.unique _ _ _ _ _ _ k1 hB' k2 hp' (k3.trans hi.symm)
    subst r1; subst r2
    have : b2 = b' := by
      obtain ⟨-, f, hf, hfb⟩ := k1
      obtain ⟨-, f', hf', hfb'⟩ := hB'
      rw [hf] at hf'
      obtain rfl := Option.some.inj hf'
      rw [hfb] at hfb'
      exact Option.some.inj hfb'
    subst this
    exact ⟨⟨b2, b, k1, hB, k2, hp, k4.symm⟩, k5⟩
  have hface : ∀ {c l c' l' : Nat}, Partners g.nc cells c l c' l' → ∃ x, (g.cellFaces c)[l]? = some x ∧ x < g.nf := by
    rintro c l c' l' ⟨b, b', ⟨hc, f, hf, hfb⟩, -⟩
    obtain ⟨x, hx⟩ := face_exists A hc hf
    exact ⟨x, hx, (A.small _ _ _ _ hc hf hx).2⟩
  have hbd : ∀ {c l c' l' : Nat}, Partners g.nc cells c l c' l' → ∃ b, Boundary g.nc cells c l b := fun ⟨b, _, hB, _⟩ => ⟨b, hB⟩
  -- the entry of a face
  have hfind : ∀ {c l c' l' x : Nat}, Partners g.nc cells c l c' l' → (g.cellFaces c)[l]? = some x →
      ∃ p ∈ per, per.find? (fun p => p.f == x) = some p ∧ p.f = x ∧ p.c0 = c ∧ p.c1 = c' ∧ p.hf = g.facepos c + l ∧ (g.cellFaces c')[l']? = some p.nb := by
    intro c l c' l' x hP hx
    obtain ⟨y, hy, -⟩ := hface (hback hP).1
    have hmem : (⟨c, c', x, g.facepos c + l, y⟩ : Per) ∈ per := (hper _).mpr ⟨l, l', hP, hx, hy, rfl⟩
    cases hfi : per.find? (fun p => p.f == x) with
    | none => exact absurd (List.find?_eq_none.mp hfi _ hmem) (by simp)
    | some p =>
      have hpf : p.f = x := by simpa using List.find?_some hfi
      have hpm := List.mem_of_find?_eq_some hfi
      obtain ⟨l2, l2', hP2, hx2, hy2, hh2⟩ := (hper p).mp hpm
      obtain ⟨b2, hB2⟩ := hbd hP2
      obtain ⟨b1, hB1⟩ := hbd hP
      rw [hpf] at hx2
      obtain ⟨r1, r2⟩ := boundary_once A hB1 hx hB2.1 hx2
      subst r2
      rw [r1] at hP2
      obtain ⟨s1, s2⟩ := huniq hP hP2
      exact ⟨p, hpm, rfl, hpf, r1, s1.symm, by rw [hh2, r1], by rw [s2, s1]; exact hy2⟩
  have hfill : ∀ {c l c' l' x : Nat}, Partners g.nc cells c l c' l' → (g.cellFaces c)[l]? = some x →
      (g.faceCells x = ((c : Int), -1) ∧ (fill g per).faceCells x = ((c : Int), (c' : Int))) ∨
      (g.faceCells x = (-1, (c : Int)) ∧ (fill g per).faceCells x = ((c' : Int), (c : Int))) := by
    intro c l c' l' x hP hx
    obtain ⟨p, -, h1, -, -, h4, -, -⟩ := hfind hP hx
    obtain ⟨b, hB⟩ := hbd hP
    have hv : (fill g per).faceCells x = if (g.faceCells x).1 = -1 then ((p.c1 : Int), (g.faceCells x).2) else ((g.faceCells x).1, (p.c1 : Int)) := by
      unfold fill
      dsimp only
      rw [h1]
    rw [hv, h4]
    rcases A.outer _ _ _ _ hB hx with e | e
    · left
      rw [e]
      exact ⟨rfl, if_neg (by simp only; omega)⟩
    · right
      rw [e]
      exact ⟨rfl, if_pos rfl⟩
  -- the table before the periodic entries
  have hown : ∀ {c l c' l' x : Nat}, Partners g.nc cells c l c' l' → (g.cellFaces c)[l]? = some x →
      ((fill g per).faceCells x = ((c : Int), (c' : Int)) ∧ f2hf (fill g per) (2 * x) = ((g.facepos c + l : Nat) : Int) ∧ f2hf (fill g per) (2 * x + 1) = -1) ∨
      ((fill g per).faceCells x = ((c' : Int), (c : Int)) ∧ f2hf (fill g per) (2 * x) = -1 ∧ f2hf (fill g per) (2 * x + 1) = ((g.facepos c + l : Nat) : Int)) := by
    intro c l c' l' x hP hx
    obtain ⟨b, hB⟩ := hbd hP
    have hne := (hback hP).2
    have honly : ∀ q ∈ (fill g per).halfFaces.zipIdx, q.1.2 = x → q.1.1 = c ∧ q.2 = g.facepos c + l := by
      intro q hq hqx
      have hq' := List.mem_zipIdx_iff_getElem?.mp hq
      obtain ⟨h1, l2, h2, h3⟩ := (half_get g q.2 q.1.1 q.1.2).mp hq'
      rw [hqx] at h2
      obtain ⟨r1, r2⟩ := boundary_once A hB hx h1 h2
      exact ⟨r1, by rw [h3, r1, r2]⟩
    have hin : (((c, x), g.facepos c + l) : (Nat × Nat) × Nat) ∈ (fill g per).halfFaces.zipIdx :=
      List.mem_zipIdx_iff_getElem?.mpr ((half_get g _ c x).mpr ⟨hB.1, l, hx, rfl⟩)
    have hkey : ∀ j, (j = 2 * x ∨ j = 2 * x + 1) →
        f2hf (fill g per) j = if hfKey (fill g per) (c, x) = j then ((g.facepos c + l : Nat) : Int) else -1 := by
      intro j hj
      rcases f2hf_fold (fill g per) (fill g per).halfFaces.zipIdx (fun _ => -1) j with ⟨h1, h2⟩ | ⟨q, hq, h1, h2⟩
      · rw [if_neg (h2 _ hin)]
        exact h1
      · have hqx : q.1.2 = x := by
          unfold hfKey at h1
          split at h1 <;> omega
        obtain ⟨r1, r2⟩ := honly q hq hqx
        have : q.1 = (c, x) := Prod.ext r1 hqx
        rw [this] at h1
        rw [if_pos h1, ← r2]
        exact h2
    rcases hfill hP hx with ⟨-, ef⟩ | ⟨-, ef⟩
    · left
      have hk : hfKey (fill g per) (c, x) = 2 * x := by
        unfold hfKey
        dsimp only
        rw [ef, if_pos rfl]
        rfl
      refine ⟨ef, ?_, ?_⟩
      · rw [hkey _ (.inl rfl), if_pos hk]
      · rw [hkey _ (.inr rfl), if_neg (by rw [hk]; omega)]
    · right
      have hk : hfKey (fill g per) (c, x) = 2 * x + 1 := by
        unfold hfKey
        dsimp only
        rw [ef, if_neg (by simp only; omega)]
      refine ⟨ef, ?_, ?_⟩
      · rw [hkey _ (.inl rfl), if_neg (by rw [hk]; omega)]
      · rw [hkey _ (.inr rfl), if_pos hk]
  -- partner half faces
  have hpart : ∀ p ∈ per, partnerHalf g.nf (f2hf (fill g per)) p.nb = some (((per.find? fun q => q.f == p.nb).elim 0 Per.hf : Nat) : Int) := by
    intro p hp
    obtain ⟨l, l', hP, hx, hy, hh⟩ := (hper p).mp hp
    obtain ⟨hP', -⟩ := hback hP
    obtain ⟨p', -, f1, -, -, -, f5, -⟩ := hfind hP' hy
    obtain ⟨y, hy', hlt⟩ := hface hP'
    rw [hy] at hy'
    obtain rfl := Option.some.inj hy'
    rw [f1]
    change _ = some ((p'.hf : Nat) : Int)
    rw [f5]
    unfold partnerHalf
    rcases hown hP' hy with ⟨-, e1, e2⟩ | ⟨-, e1, e2⟩
    · have hn : ¬ ((g.facepos p.c1 + l' : Nat) : Int) < 0 := by omega
      rw [e1, e2, if_pos ⟨by omega, by rw [decide_eq_false hn]; decide⟩, if_neg hn, Nat.add_zero, e1]
    · have hn : ¬ ((g.facepos p.c1 + l' : Nat) : Int) < 0 := by omega
      rw [e1, e2, if_pos ⟨by omega, by rw [decide_eq_false hn]; decide⟩, if_pos (by omega), e2]
  set nbs : List Int := per.map fun p => (((per.find? fun q => q.f == p.nb).elim 0 Per.hf : Nat) : Int) with hnbs
  have hzip : ∀ q ∈ per.zip nbs, q.1 ∈ per ∧ q.2 = (((per.find? fun r => r.f == q.1.nb).elim 0 Per.hf : Nat) : Int) := by
    intro q hq
    obtain ⟨i, hi⟩ := List.mem_iff_getElem?.mp hq
    rw [List.getElem?_zip_eq_some] at hi
    obtain ⟨h1, h2⟩ := hi
    rw [hnbs, List.getElem?_map, h1] at h2
    exact ⟨List.mem_of_getElem? h1, (Option.some.inj h2).symm⟩
  have hzmap : (per.zip nbs).map Prod.fst = per := List.map_fst_zip (by rw [hnbs, List.length_map])
  have hnd : (per.map Per.f).Nodup := by
    refine List.Nodup.map_on ?_ (List.Nodup.of_map _ (hs.imp fun h => Nat.ne_of_lt h))
    intro p hp q hq hpq
    obtain ⟨l, l', hP, hx, hy, hh⟩ := (hper p).mp hp
    obtain ⟨l2, l2', hP2, hx2, hy2, hh2⟩ := (hper q).mp hq
    obtain ⟨b, hB⟩ := hbd hP
    obtain ⟨b2, hB2⟩ := hbd hP2
    rw [← hpq] at hx2
    obtain ⟨r1, r2⟩ := boundary_once A hB hx hB2.1 hx2
    refine List.inj_on_of_nodup_map (f := Per.hf) (hs.imp fun h => Nat.ne_of_lt h) hp hq ?_
    rw [hh, hh2, r1, r2]
  obtain ⟨t, et, ht1, ht2⟩ := enter_fold g.nf (per.zip nbs) (f2hf (fill g per))
    (by
      have : ((per.zip nbs).map fun q => q.1.f) = ((per.zip nbs).map Prod.fst).map Per.f := by rw [List.map_map]; rfl
      rw [this, hzmap]; exact hnd)
    (fun q hq => by
      obtain ⟨l, l', hP, hx, -, -⟩ := (hper _).mp (hzip q hq).1
      obtain ⟨y, hy, hlt⟩ := hface hP
      rw [hx] at hy
      rw [Option.some.inj hy]; exact hlt)
    (fun q hq => by
      obtain ⟨l, l', hP, hx, -, hh⟩ := (hper _).mp (hzip q hq).1
      rcases hown hP hx with ⟨-, e1, e2⟩ | ⟨-, e1, e2⟩
      · left; rw [hh]; exact ⟨e1, e2⟩
      · right; rw [hh]; exact ⟨e1, e2⟩)
  refine ⟨per, dir, t, e, ?_, ?_, ?_⟩
  · unfold makeTable
    rw [Verif.Pattern.mapM_total per _ _ hpart]
    exact et
  · intro c l c' l' x hP hx
    obtain ⟨p, hp, h1, h2, h3, h4, h5, h6⟩ := hfind hP hx
    obtain ⟨p', -, f1, -, -, -, f5, -⟩ := hfind (hback hP).1 h6
    obtain ⟨q, hq, hqp⟩ : ∃ q ∈ per.zip nbs, q.1 = p := by
      rw [← hzmap] at hp
      obtain ⟨q, hq, he⟩ := List.mem_map.mp hp
      exact ⟨q, hq, he⟩
    have hq2 : q.2 = ((g.facepos c' + l' : Nat) : Int) := by
      rw [(hzip q hq).2, hqp, f1, ← f5]; rfl
    obtain ⟨g1, g2⟩ := ht1 q hq
    rw [hqp, h2, h5, hq2] at g1 g2
    rcases hown hP hx with ⟨e0, e1, e2⟩ | ⟨e0, e1, e2⟩
    · left
      obtain ⟨k1, k2⟩ := g1 e1
      exact ⟨e0, k1, k2⟩
    · right
      obtain ⟨k1, k2⟩ := g2 e1
      exact ⟨e0, k1, k2⟩
  · intro x hx
    obtain ⟨k1, k2⟩ := ht2 x fun q hq => hx _ (hzip q hq).1
    have hfc : (fill g per).faceCells x = g.faceCells x := by
      unfold fill
      dsimp only
      have : per.find? (fun p => p.f == x) = none := List.find?_eq_none.mpr fun p hp => by simpa using hx p hp
      rw [this]
    have hfk : ∀ c, hfKey (fill g per) (c, x) = hfKey g (c, x) := by
      intro c
      unfold hfKey
      dsimp only
      rw [hfc]
    -- entries of an untouched face depend on that face only
    have hsame : ∀ j, (j = 2 * x ∨ j = 2 * x + 1) → f2hf (fill g per) j = f2hf g j := by
      intro j hj
      unfold f2hf
      have : ∀ (L : List ((Nat × Nat) × Nat)) (t t' : Nat → Int), t j = t' j →
          L.foldl (fun t h =>
            let p := if ((fill g per).faceCells h.1.2).1 = h.1.1 then 0 else 1
            fun j => if j = 2 * h.1.2 + p then (h.2 : Int) else t j) t j =
          L.foldl (fun t h =>
            let p := if (g.faceCells h.1.2).1 = h.1.1 then 0 else 1
            fun j => if j = 2 * h.1.2 + p then (h.2 : Int) else t j) t' j := by
        intro L
        induction L with
        | nil => intro t t' h; exact h
        | cons h L ih =>
          intro t t' htt
          rw [List.foldl_cons, List.foldl_cons]
          apply ih
          by_cases hx' : h.1.2 = x
          · rw [hx', hfc, htt]
          · rw [if_neg (by split <;> omega), if_neg (by split <;> omega), htt]
      exact this _ _ _ rfl
    exact ⟨hfc, k1.trans (hsame _ (.inl rfl)), k2.trans (hsame _ (.inr rfl))⟩

/-- Two cells in a row, periodic along the row, the first open and the second closed below; the grid interface numbers faces backwards. -/
def rowGrid : Grid where
  nc := 2
  nf := 5
  cellFaces c := if c = 0 then [0, 1, 3] else [1, 2, 4]
  faceCells x := [((-1 : Int), (0 : Int)), (0, 1), (1, -1), (0, -1), (-1, 1)].getD x (-1, -1)

def rowCells (c : Nat) : List (EFace ℚ) :=
  if c = 0 then [⟨4, some ⟨1, true, 2, none, 0⟩⟩, ⟨3, none⟩, ⟨1, some ⟨3, false, 0, none, 1 / 2⟩⟩]
  else [⟨3, none⟩, ⟨2, some ⟨2, true, 1, none, 0⟩⟩, ⟨0, some ⟨4, false, 0, some 0, 1⟩⟩]

theorem row_boundary {c l : Nat} {b : Bnd ℚ} (h : Boundary 2 rowCells c l b) :
    (c = 0 ∧ l = 0 ∧ b = ⟨1, true, 2, none, 0⟩) ∨ (c = 0 ∧ l = 2 ∧ b = ⟨3, false, 0, none, 1 / 2⟩) ∨
    (c = 1 ∧ l = 1 ∧ b = ⟨2, true, 1, none, 0⟩) ∨ (c = 1 ∧ l = 2 ∧ b = ⟨4, false, 0, some 0, 1⟩) := by
  obtain ⟨hc, f, hf, hb⟩ := h
  have hl : l < 3 := by
    have := (List.getElem?_eq_some_iff.mp hf).1
    unfold rowCells at this
    split at this <;> simpa using this
  interval_cases c <;> interval_cases l <;> simp [rowCells] at hf <;> subst hf <;> simp at hb <;> subst hb <;> simp

theorem row_agree : Agree rowGrid rowCells ∧ Paired rowGrid.nc rowCells := by
  have lt : ∀ {c l : Nat} {x : Nat}, c < 2 → (rowGrid.cellFaces c)[l]? = some x → l < 3 := by
    intro c l x hc h
    have := (List.getElem?_eq_some_iff.mp h).1
    unfold rowGrid at this
    dsimp only at this
    split at this <;> simpa using this
  refine ⟨⟨?_, ?_, ?_, ?_, ?_, ?_⟩, ⟨?_, ?_⟩⟩
  · intro c hc
    unfold rowGrid rowCells
    dsimp only
    split <;> rfl
  · intro c l c' l' x x' f f' hc hc' h1 h2 h3 h4
    have hl := lt hc h3
    have hl' := lt hc' h4
    have hc2 : c < 2 := hc
    have hc2' : c' < 2 := hc'
    interval_cases c <;> interval_cases l <;> simp [rowCells] at h1 <;> subst h1 <;> simp [rowGrid] at h3 <;> subst h3 <;>
      interval_cases c' <;> interval_cases l' <;> simp [rowCells] at h2 <;> subst h2 <;> simp [rowGrid] at h4 <;> subst h4 <;> decide
  · intro c l x f hc h1 h3
    have hl := lt hc h3
    have hc2 : c < 2 := hc
    interval_cases c <;> interval_cases l <;> simp [rowCells] at h1 <;> subst h1 <;> simp [rowGrid] at h3 <;> subst h3 <;> decide
  · intro c l x b hB hx
    rcases row_boundary hB with ⟨rfl, rfl, -⟩ | ⟨rfl, rfl, -⟩ | ⟨rfl, rfl, -⟩ | ⟨rfl, rfl, -⟩ <;> simp [rowGrid] at hx <;> subst hx <;> decide
  · intro c hc
    unfold rowGrid
    dsimp only
    split <;> decide
  · intro c hc x hx
    have hc2 : c < 2 := hc
    interval_cases c <;> simp [rowGrid] at hx <;> rcases hx with rfl | rfl | rfl <;> decide
  · intro c l c' l' b b' h h' hp hp' hi
    rcases row_boundary h with ⟨rfl, rfl, rfl⟩ | ⟨rfl, rfl, rfl⟩ | ⟨rfl, rfl, rfl⟩ | ⟨rfl, rfl, rfl⟩ <;>
      rcases row_boundary h' with ⟨rfl, rfl, rfl⟩ | ⟨rfl, rfl, rfl⟩ | ⟨rfl, rfl, rfl⟩ | ⟨rfl, rfl, rfl⟩ <;> simp at *
  · intro c l b h hp
    rcases row_boundary h with ⟨rfl, rfl, rfl⟩ | ⟨rfl, rfl, rfl⟩ | ⟨rfl, rfl, rfl⟩ | ⟨rfl, rfl, rfl⟩
    · exact ⟨1, 1, ⟨2, true, 1, none, 0⟩, ⟨by decide, _, rfl, rfl⟩, rfl, rfl, rfl, by decide⟩
    · simp at hp
    · exact ⟨0, 0, ⟨1, true, 2, none, 0⟩, ⟨by decide, _, rfl, rfl⟩, rfl, rfl, rfl, by decide⟩
    · simp at hp

example : initObj rowGrid rowCells (fun _ s => (s, 3 - s)) = some ([⟨0, 1, 0, 0, 2⟩, ⟨1, 0, 2, 4, 0⟩], [⟨0, 1 / 6, 2⟩]) ∧
    (makeTable 5 (f2hf (fill rowGrid [⟨0, 1, 0, 0, 2⟩, ⟨1, 0, 2, 4, 0⟩])) [⟨0, 1, 0, 0, 2⟩, ⟨1, 0, 2, 4, 0⟩]).map
      (fun t => (List.range 10).map t) = some [4, 0, 1, 3, 4, 0, 2, -1, -1, 5] := by
  constructor <;> decide +kernel

/-- C104 fails for periodic samples that are one cell thick: the partner of a face belongs to the same cell, and the set-up stops at an
assertion. -/
theorem C104_violated_thin : ∃ (g : Grid) (cells : Nat → List (EFace ℚ)),
    (∀ c l b, Boundary g.nc cells c l b → b.periodic = true → ∃ c' l' b', Boundary g.nc cells c' l' b' ∧ b'.periodic = true ∧ b'.bid = b.partner ∧
      b'.partner = b.bid ∧ (c' ≠ c ∨ l' ≠ l)) ∧
    (∀ c < g.nc, ∀ x ∈ g.cellFaces c, g.faceCells x = ((c : Int), -1) ∨ g.faceCells x = (-1, (c : Int))) ∧
    ∀ mob, initObj g cells mob = none := by
  refine ⟨⟨1, 2, fun _ => [0, 1], fun x => if x = 0 then (-1, 0) else (0, -1)⟩, fun _ => [⟨0, some ⟨1, true, 2, none, 0⟩⟩, ⟨1, some ⟨2, true, 1, none, 0⟩⟩],
    ?_, ?_, ?_⟩
  · rintro c l b ⟨hc, f, hf, hb⟩ -
    have hc2 : c < 1 := hc
    have hl : l < 2 := by simpa using (List.getElem?_eq_some_iff.mp hf).1
    interval_cases c
    interval_cases l <;> simp at hf <;> subst hf <;> simp at hb <;> subst hb
    · exact ⟨0, 1, ⟨2, true, 1, none, 0⟩, ⟨by decide, _, rfl, rfl⟩, rfl, rfl, rfl, by decide⟩
    · exact ⟨0, 0, ⟨1, true, 2, none, 0⟩, ⟨by decide, _, rfl, rfl⟩, rfl, rfl, rfl, by decide⟩
  · intro c hc x hx
    have hc2 : c < 1 := hc
    interval_cases c
    simp at hx
    rcases hx with rfl | rfl <;> simp
  · intro mob
    rfl

end Verif.ImplicitSetup
