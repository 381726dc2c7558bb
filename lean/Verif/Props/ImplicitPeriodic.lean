import Verif.Props.ImplicitStep
import Verif.Props.ImplicitSetup
import Mathlib.Tactic.IntervalCases

/-!
C150 with periodic boundaries: after the set-up of C104 the two sides of every connection agree if the two half faces of every periodic pair have the same transmissibility, so that water is conserved;
otherwise it is not.
-/

namespace Verif.ImplicitStep

open Verif.Implicit
open Verif.ImplicitStep.Spec
open Verif.ImplicitSetup (EFace fill initObj Per boundary_once C104_lists C104_table)
open Verif.ImplicitSetup.Spec (Agree Paired Partners Boundary)
open Verif.Implicit.Spec (Interior Conforming WellFormed)

variable {K : Type} [Field K] [LinearOrder K] [IsStrictOrderedRing K]

omit [Field K] [LinearOrder K] [IsStrictOrderedRing K] in
theorem partners_back {nc : Nat} {cells : Nat → List (EFace K)} (U : Paired nc cells) {c l c' l' : Nat} (h : Partners nc cells c l c' l') :
    Partners nc cells c' l' c l ∧ c' ≠ c := by
  obtain ⟨b, b', hB, hB', hp, hp', hi⟩ := h
  obtain ⟨c2, l2, b2, k1, k2, k3, k4, k5⟩ := U.partner c l b hB hp
  obtain ⟨r1, r2⟩ := U.unique _ _ _ _ _ _ k1 hB' k2 hp' (k3.trans hi.symm)
  subst r1; subst r2
  have : b2 = b' := by
    obtain ⟨-, f, hf, hfb⟩ := k1
    obtain ⟨-, f', hf', hfb'⟩ := hB'
    rw [hf] at hf'
    obtain rfl := Option.some.inj hf'
    rw [hfb] at hfb'
    exact Option.some.inj hfb'
  subst this
  exact ⟨⟨b2, b, k1, hB, k2, hp, k4.symm⟩, k5⟩

omit [Field K] [LinearOrder K] [IsStrictOrderedRing K] in
theorem partners_unique {nc : Nat} {cells : Nat → List (EFace K)} (U : Paired nc cells) {c l c1 l1 c2 l2 : Nat} (h1 : Partners nc cells c l c1 l1)
    (h2 : Partners nc cells c l c2 l2) : c1 = c2 ∧ l1 = l2 := by
  obtain ⟨b, b1, hB, hB1, hp, hp1, hi⟩ := h1
  obtain ⟨b', b2, hB', hB2, hp', hp2, hi'⟩ := h2
  have : b = b' := by
    obtain ⟨-, f, hf, hfb⟩ := hB
    obtain ⟨-, f', hf', hfb'⟩ := hB'
    rw [hf] at hf'
    obtain rfl := Option.some.inj hf'
    rw [hfb] at hfb'
    exact Option.some.inj hfb'
  subst this
  exact U.unique _ _ _ _ _ _ hB1 hB2 hp1 hp2 (hi.trans hi'.symm)

omit [LinearOrder K] [IsStrictOrderedRing K] in
theorem count_boundary {g : Grid} {cells : Nat → List (EFace K)} (A : Agree g cells) {c l x : Nat} {b : Verif.ImplicitSetup.Bnd K} (hb : Boundary g.nc cells c l b)
    (hx : (g.cellFaces c)[l]? = some x) {k : Nat} (hk : k < g.nc) : (g.cellFaces k).count x = if k = c then 1 else 0 := by
  by_cases h : k = c
  · subst h
    rw [if_pos rfl]
    exact List.count_eq_one_of_mem (A.nodup k hk) (List.mem_of_getElem? hx)
  · rw [if_neg h]
    refine List.count_eq_zero_of_not_mem fun hm => h ?_
    obtain ⟨l', hl', e⟩ := List.getElem_of_mem hm
    exact (boundary_once A hb hx hk (l' := l') (by rw [List.getElem?_eq_getElem hl', e])).1

/-- **C150** After the set-up for periodic boundaries the grid is consistent, no cell is connected to itself, and if the total fluxes out of the two cells of every periodic pair are opposite and
the transmissibilities of its two faces the same, the two sides of every connection agree: `C150_closed` holds. -/
theorem C150_periodic {g : Grid} {cells : Nat → List (EFace K)} (A : Agree g cells) (U : Paired g.nc cells) (hg : Conforming g) (mob : Nat → K → K × K)
    (hmob : ∀ c l s, Verif.ImplicitSetup.Spec.Open g.nc cells c l s → (mob c s).1 + (mob c s).2 ≠ 0) :
    ∃ per dir, initObj g cells mob = some (per, dir) ∧ ∀ M : Medium K, M.grid = fill g per → WellFormed M.grid ∧
      (∀ f, 0 ≤ (M.grid.faceCells f).1 → (M.grid.faceCells f).1 ≠ (M.grid.faceCells f).2) ∧
      ∀ outflux : Nat → Nat → K,
        (∀ c l c' l' x, Partners g.nc cells c l c' l' → (g.cellFaces c)[l]? = some x → M.faceflux x = if (M.grid.faceCells x).1 = (c : Int) then outflux c l else -outflux c l) →
        (∀ c l c' l', Partners g.nc cells c l c' l' → outflux c' l' = -outflux c l) →
        (∀ c l c' l' x y, Partners g.nc cells c l c' l' → (g.cellFaces c)[l]? = some x → (g.cellFaces c')[l']? = some y → M.trans x = M.trans y) →
        ∃ twin, Joined M twin ∧ ∀ c l c' l' x y, Partners g.nc cells c l c' l' → (g.cellFaces c)[l]? = some x → (g.cellFaces c')[l']? = some y → twin x = y := by
  obtain ⟨per, dir, e, -, -, hper, -⟩ := C104_lists A U mob hmob
  obtain ⟨per', dir', t, e', -, hin, hout⟩ := C104_table A U mob hmob
  rw [e] at e'
  obtain ⟨rfl, rfl⟩ := Prod.mk.inj (Option.some.inj e')
  have hfc : ∀ {c l c' l' x}, Partners g.nc cells c l c' l' → (g.cellFaces c)[l]? = some x →
      (fill g per).faceCells x = ((c : Int), (c' : Int)) ∨ (fill g per).faceCells x = ((c' : Int), (c : Int)) := fun hP hx => by
    rcases hin _ _ _ _ _ hP hx with h | h
    · exact Or.inl h.1
    · exact Or.inr h.1
  have hbd : ∀ {c l c' l' : Nat}, Partners g.nc cells c l c' l' → ∃ b, Boundary g.nc cells c l b := fun ⟨b, _, hB, _⟩ => ⟨b, hB⟩
  -- a face is untouched, or one of a pair
  have hkind : ∀ x, (∀ p ∈ per, p.f ≠ x) ∨ ∃ c l c' l' y, Partners g.nc cells c l c' l' ∧ (g.cellFaces c)[l]? = some x ∧ (g.cellFaces c')[l']? = some y := by
    intro x
    by_cases h : ∃ p ∈ per, p.f = x
    · obtain ⟨p, hp, rfl⟩ := h
      obtain ⟨l, l', hP, hx, hy, -⟩ := (hper p).1 hp
      exact Or.inr ⟨_, _, _, _, _, hP, hx, hy⟩
    · push Not at h
      exact Or.inl h
  -- the entry of a face of a pair
  have hentry : ∀ {c l c' l' x y}, Partners g.nc cells c l c' l' → (g.cellFaces c)[l]? = some x → (g.cellFaces c')[l']? = some y →
      ∃ p, per.find? (fun p => p.f == x) = some p ∧ p.nb = y := by
    intro c l c' l' x y hP hx hy
    have hmem : (⟨c, c', x, g.facepos c + l, y⟩ : Per) ∈ per := (hper _).2 ⟨l, l', hP, hx, hy, rfl⟩
    cases hfi : per.find? (fun p => p.f == x) with
    | none => exact absurd (List.find?_eq_none.1 hfi _ hmem) (by simp)
    | some p =>
      refine ⟨p, rfl, ?_⟩
      have hpf : p.f = x := by simpa using List.find?_some hfi
      obtain ⟨l2, l2', hP2, hx2, hy2, -⟩ := (hper p).1 (List.mem_of_find?_eq_some hfi)
      obtain ⟨b1, hB1⟩ := hbd hP
      obtain ⟨b2, hB2⟩ := hbd hP2
      rw [hpf] at hx2
      obtain ⟨r1, r2⟩ := boundary_once A hB1 hx hB2.1 hx2
      rw [r1, r2] at hP2
      obtain ⟨s1, s2⟩ := partners_unique U hP hP2
      rw [← s1, ← s2, hy] at hy2
      exact (Option.some.inj hy2).symm
  have hlt : ∀ {c l c' l' : Nat}, Partners g.nc cells c l c' l' → c < g.nc := fun hP => by
    obtain ⟨b, hB⟩ := hbd hP
    exact hB.1
  refine ⟨per, dir, e, fun M hM => ?_⟩
  have hcf : M.grid.cellFaces = g.cellFaces := by rw [hM]; rfl
  have hnc : M.grid.nc = g.nc := by rw [hM]; rfl
  refine ⟨⟨?_, ?_⟩, ?_, ?_⟩
  · intro c f hc hf
    rw [hnc] at hc
    rw [hcf] at hf
    rw [hM]
    rcases hkind f with h | ⟨k, l, k', l', y, hP, hx, hy⟩
    · rw [(hout f h).1]
      exact hg.mine c f hc hf
    · obtain ⟨b, hB⟩ := hbd hP
      obtain ⟨i, hi, ei⟩ := List.getElem_of_mem hf
      have hck : c = k := (boundary_once A hB hx hc (l' := i) (by rw [List.getElem?_eq_getElem hi, ei])).1
      subst hck
      rcases hfc hP hx with h | h
      · rw [h]; exact Or.inl rfl
      · rw [h]; exact Or.inr rfl
  · intro f
    rw [hnc, hM]
    rcases hkind f with h | ⟨k, l, k', l', y, hP, hx, hy⟩
    · rw [(hout f h).1]
      exact hg.valid f
    · have l1 := hlt hP
      have l2 := hlt (partners_back U hP).1
      rcases hfc hP hx with h | h
      · rw [h]; exact ⟨by simpa using l1, by simpa using l2⟩
      · rw [h]; exact ⟨by simpa using l2, by simpa using l1⟩
  · intro f
    rw [hM]
    rcases hkind f with h | ⟨k, l, k', l', y, hP, hx, hy⟩
    · rw [(hout f h).1]
      exact hg.distinct f
    · have hne := (partners_back U hP).2
      intro _
      rcases hfc hP hx with h | h
      · rw [h]; simpa using hne.symm
      · rw [h]; simpa using hne
  · intro outflux hq hanti htr
    let twin : Nat → Nat := fun x => match per.find? (fun p => p.f == x) with | some p => p.nb | none => x
    have htwin : ∀ c l c' l' x y, Partners g.nc cells c l c' l' → (g.cellFaces c)[l]? = some x → (g.cellFaces c')[l']? = some y → twin x = y := by
      intro c l c' l' x y hP hx hy
      obtain ⟨p, h1, h2⟩ := hentry hP hx hy
      simp only [twin, h1, h2]
    have hself : ∀ x, (∀ p ∈ per, p.f ≠ x) → twin x = x := by
      intro x hx
      have : per.find? (fun p => p.f == x) = none := List.find?_eq_none.2 fun p hp => by simpa using hx p hp
      simp only [twin, this]
    -- cells of a face of a pair, in the filled grid
    have hcells : ∀ {c l c' l' x a b}, Partners g.nc cells c l c' l' → (g.cellFaces c)[l]? = some x → Interior M.grid x a b → (a = c ∧ b = c') ∨ (a = c' ∧ b = c) := by
      intro c l c' l' x a b hP hx hi
      have h1 := hi.1
      rw [hM] at h1
      rcases hfc hP hx with h | h <;> rw [h] at h1 <;> simp only [Prod.mk.injEq, Nat.cast_inj] at h1
      · exact Or.inl ⟨h1.1.symm, h1.2.symm⟩
      · exact Or.inr ⟨h1.1.symm, h1.2.symm⟩
    refine ⟨twin, ⟨?_, ?_, ?_, ?_, ?_⟩, htwin⟩
    · intro f a b _
      rcases hkind f with h | ⟨k, l, k', l', y, hP, hx, hy⟩
      · rw [hself f h, hself f h]
      · rw [htwin _ _ _ _ _ _ hP hx hy, htwin _ _ _ _ _ _ (partners_back U hP).1 hy hx]
    · intro f a b hi
      rcases hkind f with h | ⟨k, l, k', l', y, hP, hx, hy⟩
      · rw [hself f h]; exact Or.inl ⟨hi, rfl⟩
      · obtain ⟨hP', hne⟩ := partners_back U hP
        rw [htwin _ _ _ _ _ _ hP hx hy]
        have qx := hq _ _ _ _ _ hP hx
        have qy := hq _ _ _ _ _ hP' hy
        rw [hanti _ _ _ _ hP] at qy
        obtain ⟨-, ha, hb, hab⟩ := id hi
        have hfx := hi.1
        have hfy : M.grid.faceCells y = ((k' : Int), (k : Int)) ∨ M.grid.faceCells y = ((k : Int), (k' : Int)) := by rw [hM]; exact hfc hP' hy
        have nkk : ((k' : Int)) ≠ (k : Int) := by simpa using hne
        rcases hcells hP hx hi with ⟨rfl, rfl⟩ | ⟨rfl, rfl⟩
        · rw [hfx, if_pos rfl] at qx
          rcases hfy with h | h
          · rw [h, if_pos rfl] at qy
            exact Or.inr ⟨⟨h, hb, ha, hne⟩, by rw [qy, qx]⟩
          · rw [h, if_neg nkk.symm, neg_neg] at qy
            exact Or.inl ⟨⟨h, ha, hb, hab⟩, by rw [qy, qx]⟩
        · rw [hfx, if_neg nkk] at qx
          rcases hfy with h | h
          · rw [h, if_pos rfl] at qy
            exact Or.inl ⟨⟨h, ha, hb, hab⟩, by rw [qy, qx]⟩
          · rw [h, if_neg nkk.symm, neg_neg] at qy
            exact Or.inr ⟨⟨h, hb, ha, hab.symm⟩, by rw [qy, qx, neg_neg]⟩
    · intro f a b _
      rcases hkind f with h | ⟨k, l, k', l', y, hP, hx, hy⟩
      · rw [hself f h]
      · rw [htwin _ _ _ _ _ _ hP hx hy, htr _ _ _ _ _ _ hP hx hy]
    · intro f a b hi ht c hc
      rw [hnc] at hc
      rw [hcf]
      rcases hkind f with h | ⟨k, l, k', l', y, hP, hx, hy⟩
      · have h1 := hi
        obtain ⟨i1, i2, i3, i4⟩ := h1
        rw [hM, (hout f h).1] at i1
        rw [hnc] at i2 i3
        exact hg.both f a b ⟨i1, i2, i3, i4⟩ c hc
      · rw [htwin _ _ _ _ _ _ hP hx hy] at ht
        obtain ⟨hP', hne⟩ := partners_back U hP
        obtain ⟨b', hB'⟩ := hbd hP
        rw [ht] at hy
        exact absurd (boundary_once A hB' hx (hlt hP') hy).1 hne
    · intro f a b hi ht c hc
      rw [hnc] at hc
      rw [hcf]
      rcases hkind f with h | ⟨k, l, k', l', y, hP, hx, hy⟩
      · exact absurd (hself f h) ht
      · obtain ⟨hP', hne⟩ := partners_back U hP
        obtain ⟨b1, hB1⟩ := hbd hP
        obtain ⟨b2, hB2⟩ := hbd hP'
        rw [htwin _ _ _ _ _ _ hP hx hy, count_boundary A hB1 hx hc, count_boundary A hB2 hy hc]
        rcases hcells hP hx hi with ⟨rfl, rfl⟩ | ⟨rfl, rfl⟩ <;>
          by_cases h1 : c = a <;> by_cases h2 : c = b <;> simp [h1, h2] <;> omega

theorem rowGrid_conf : Conforming Verif.ImplicitSetup.rowGrid := by
  have five : ∀ f, 5 ≤ f → Verif.ImplicitSetup.rowGrid.faceCells f = (-1, -1) := by
    intro f hf
    obtain ⟨n, rfl⟩ := Nat.exists_eq_add_of_le' hf
    rfl
  refine ⟨⟨fun c f hc hf => Verif.ImplicitSetup.row_agree.1.mine c hc f hf, ?_⟩, ?_, ?_⟩
  · intro f
    rcases Nat.lt_or_ge f 5 with h | h
    · interval_cases f <;> decide
    · rw [five f h]; decide
  · intro f
    rcases Nat.lt_or_ge f 5 with h | h
    · interval_cases f <;> decide
    · rw [five f h]; decide
  · intro f a b hI c hc
    have hf : f = 1 ∧ a = 0 ∧ b = 1 := by
      have h1 := hI.1
      rcases Nat.lt_or_ge f 5 with h | h
      · interval_cases f <;> simp [Verif.ImplicitSetup.rowGrid] at h1
        exact ⟨rfl, by omega, by omega⟩
      · rw [five f h] at h1; simp at h1
    obtain ⟨rfl, rfl, rfl⟩ := hf
    have hc2 : c < 2 := hc
    interval_cases c <;> decide

/-- The hypotheses of `C150_periodic` hold of two cells in a row that is periodic along itself. -/
example : Agree Verif.ImplicitSetup.rowGrid Verif.ImplicitSetup.rowCells ∧ Paired 2 Verif.ImplicitSetup.rowCells ∧ Conforming Verif.ImplicitSetup.rowGrid ∧
    Partners 2 Verif.ImplicitSetup.rowCells 0 0 1 1 :=
  ⟨Verif.ImplicitSetup.row_agree.1, Verif.ImplicitSetup.row_agree.2, rowGrid_conf,
    ⟨1, true, 2, none, 0⟩, ⟨2, true, 1, none, 0⟩, ⟨by decide, _, rfl, rfl⟩, ⟨by decide, _, rfl, rfl⟩, rfl, rfl, rfl⟩

/-- Two cells with a common face 0 and the periodic partner faces 1 (of cell 1) and 2 (of cell 0), the latter after the set-up. -/
def twoGrid : Grid where
  nc := 2
  nf := 3
  cellFaces c := if c = 0 then [2, 0] else [0, 1]
  faceCells f := match f with | 0 => (0, 1) | 1 => (1, 0) | 2 => (1, 0) | _ => (-1, -1)

/-- Two cells of the same size with a common face and joined by a periodic boundary, whose two faces have the half transmissibilities `p` and `q`, with different capillary pressures. -/
def exPeriodic (p q : ℚ) : Medium ℚ where
  grid := twoGrid
  mob _ _ := (1, 1)
  dmob _ _ := (0, 0)
  pc c s := if c = 0 then 1 - s else 2 - 2 * s
  dpc c _ := if c = 0 then -1 else -2
  smin _ := 0
  smax _ := 1
  porevol _ := 10
  trans := faceTrans twoGrid fun i => if i < 2 then p else q
  faceflux _ := 0
  src := []
  tol := 1 / 10 ^ 5

/-- Cramer's rule for two cells. -/
def exCramer2 (A : Nat → Nat → ℚ) (b g : List ℚ) : List ℚ :=
  let D := A 0 0 * A 1 1 - A 0 1 * A 1 0
  let r : Nat → ℚ := fun i => b.getD i 0
  g.zipIdx.map fun p => if p.2 = 0 then (r 0 * A 1 1 - A 0 1 * r 1) / D else (A 0 0 * r 1 - r 0 * A 1 0) / D

theorem exPeriodic_sound (p q : ℚ) : Sound (exPeriodic p q) where
  grid := by
    refine ⟨?_, ?_⟩
    · intro c f hc hf
      have hc2 : c < 2 := hc
      interval_cases c <;> simp [exPeriodic, twoGrid] at hf ⊢ <;> rcases hf with rfl | rfl <;> simp
    · intro f
      match f with
      | 0 => exact (by decide : ((0 : Int) < 2) ∧ ((1 : Int) < 2))
      | 1 => exact (by decide : ((1 : Int) < 2) ∧ ((0 : Int) < 2))
      | 2 => exact (by decide : ((1 : Int) < 2) ∧ ((0 : Int) < 2))
      | n + 3 => exact (by decide : ((-1 : Int) < 2) ∧ ((-1 : Int) < 2))
  distinct f := by
    match f with
    | 0 => intro _; exact (by decide : (0 : Int) ≠ 1)
    | 1 => intro _; exact (by decide : (1 : Int) ≠ 0)
    | 2 => intro _; exact (by decide : (1 : Int) ≠ 0)
    | n + 3 => intro h; exact absurd h (by decide : ¬ (0 : Int) ≤ -1)
  limits _ := (by decide : (0 : ℚ) ≤ 1)
  mob c s _ _ := ⟨(by decide : (0 : ℚ) ≤ 1), (by decide : (0 : ℚ) ≤ 1), (by decide +kernel : (0 : ℚ) < 1 + 1)⟩
  porevol _ := (by decide : (0 : ℚ) ≤ 10)
  src q hq := by simp [exPeriodic] at hq
  tol := (by decide +kernel : (0 : ℚ) ≤ 1 / 10 ^ 5)
  still f a b _ _ sa sb _ _ _ _ h := absurd h (by decide : (1 : ℚ) ≠ 0)

/-- **C150** Violated: without sources and across a periodic boundary, but with different transmissibilities of the two half faces of the periodic pair, as different permeabilities give, a transport
step that reports success loses more than five percent of the water. With equal ones the amount is the same as before. -/
theorem C150_violated_periodic : Sound (exPeriodic 4 1) ∧ Within (exPeriodic 4 1) [1 / 2, 1 / 2] ∧ (∀ A b g, (exCramer2 A b g).length = g.length) ∧ (exPeriodic 4 1).src = [] ∧
    (transport (exPeriodic 4 1) exCramer2 (10 ^ 99) exCtrl exMem 10 1 [1 / 2, 1 / 2]).ok = true ∧
    water (exPeriodic 4 1) (transport (exPeriodic 4 1) exCramer2 (10 ^ 99) exCtrl exMem 10 1 [1 / 2, 1 / 2]).sat < 95 / 100 * water (exPeriodic 4 1) [1 / 2, 1 / 2] ∧
    water (exPeriodic 4 4) (transport (exPeriodic 4 4) exCramer2 (10 ^ 99) exCtrl exMem 10 1 [1 / 2, 1 / 2]).sat = water (exPeriodic 4 4) [1 / 2, 1 / 2] := by
  have e1 : (transport (exPeriodic 4 1) exCramer2 (10 ^ 99) exCtrl exMem 10 1 [1 / 2, 1 / 2]).sat = [59 / 142, 151 / 284] := by decide +kernel
  have e2 : (transport (exPeriodic 4 4) exCramer2 (10 ^ 99) exCtrl exMem 10 1 [1 / 2, 1 / 2]).sat = [8 / 19, 11 / 19] := by decide +kernel
  refine ⟨exPeriodic_sound 4 1, ⟨rfl, fun c hc => ?_⟩, fun A b g => by simp [exCramer2], rfl, by decide +kernel, ?_, ?_⟩
  · have : c = 0 ∨ c = 1 := by have : c < 2 := hc; omega
    rcases this with rfl | rfl <;> decide +kernel
  · rw [e1]; decide +kernel
  · rw [e2]; decide +kernel

/-- The two sides of the connections agree if the half transmissibilities do. -/
example : Joined (exPeriodic 4 4) fun f => if f = 1 then 2 else if f = 2 then 1 else f := by
  have hf : ∀ {f a b : Nat}, Interior (exPeriodic 4 4).grid f a b → (f = 0 ∧ a = 0 ∧ b = 1) ∨ (f = 1 ∧ a = 1 ∧ b = 0) ∨ (f = 2 ∧ a = 1 ∧ b = 0) := by
    intro f a b hi
    have h1 := congrArg Prod.fst hi.1
    have h2 := congrArg Prod.snd hi.1
    match f with
    | 0 => simp [exPeriodic, twoGrid] at h1 h2; omega
    | 1 => simp [exPeriodic, twoGrid] at h1 h2; omega
    | 2 => simp [exPeriodic, twoGrid] at h1 h2; omega
    | n + 3 => simp [exPeriodic, twoGrid] at h1
  refine ⟨fun f a b hi => ?_, fun f a b hi => ?_, fun f a b hi => ?_, fun f a b hi ht c hc => ?_, fun f a b hi ht c hc => ?_⟩
  · rcases hf hi with ⟨rfl, -⟩ | ⟨rfl, -⟩ | ⟨rfl, -⟩ <;> rfl
  · rcases hf hi with ⟨rfl, rfl, rfl⟩ | ⟨rfl, rfl, rfl⟩ | ⟨rfl, rfl, rfl⟩ <;> exact Or.inl ⟨⟨rfl, by decide, by decide, by decide⟩, rfl⟩
  · rcases hf hi with ⟨rfl, -⟩ | ⟨rfl, -⟩ | ⟨rfl, -⟩ <;> decide +kernel
  · have hc2 : c < 2 := hc
    rcases hf hi with ⟨rfl, rfl, rfl⟩ | ⟨rfl, rfl, rfl⟩ | ⟨rfl, rfl, rfl⟩
    · interval_cases c <;> decide
    · exact absurd ht (by decide)
    · exact absurd ht (by decide)
  · have hc2 : c < 2 := hc
    rcases hf hi with ⟨rfl, rfl, rfl⟩ | ⟨rfl, rfl, rfl⟩ | ⟨rfl, rfl, rfl⟩
    · exact absurd rfl ht
    · interval_cases c <;> decide
    · interval_cases c <;> decide

end Verif.ImplicitStep
