import Verif.Props.ImplicitAssembly

/-! C62, C63: gravity and transmissibility of faces; periodic faces. -/

namespace Verif.Implicit

variable {K : Type} [Field K] [LinearOrder K]

/-- Position of the entry written for a half face. -/
def hfKey (g : Grid) (h : Nat × Nat) : Nat := 2 * h.2 + if (g.faceCells h.2).1 = (h.1 : Int) then 0 else 1

/-- An entry of the table is either untouched or the number of a half face with that key; it is not untouched if there is such a half face. -/
theorem f2hf_fold (g : Grid) (l : List ((Nat × Nat) × Nat)) (t : Nat → Int) (j : Nat) :
    let r := l.foldl (fun t h =>
      let p := if (g.faceCells h.1.2).1 = h.1.1 then 0 else 1
      fun j => if j = 2 * h.1.2 + p then (h.2 : Int) else t j) t
    (r j = t j ∧ ∀ h ∈ l, hfKey g h.1 ≠ j) ∨ ∃ h ∈ l, hfKey g h.1 = j ∧ r j = (h.2 : Int) := by
  induction l generalizing t with
  | nil => simp
  | cons h l ih =>
    simp only [List.foldl_cons]
    rcases ih (fun j => if j = 2 * h.1.2 + (if (g.faceCells h.1.2).1 = h.1.1 then 0 else 1) then (h.2 : Int) else t j) with ⟨e, hn⟩ | ⟨h', hm, hk, e⟩
    · by_cases hj : hfKey g h.1 = j
      · right
        refine ⟨h, List.mem_cons_self .., hj, ?_⟩
        rw [e, if_pos (by rw [← hj]; rfl)]
      · left
        refine ⟨by rw [e, if_neg (fun hh => hj (by rw [hh]; rfl))], ?_⟩
        intro k hk
        rcases List.mem_cons.1 hk with rfl | hk
        · exact hj
        · exact hn k hk
    · exact Or.inr ⟨h', List.mem_cons_of_mem _ hm, hk, e⟩

theorem mem_halfFaces (g : Grid) (c f : Nat) : (c, f) ∈ g.halfFaces ↔ c < g.nc ∧ f ∈ g.cellFaces c := by
  unfold Grid.halfFaces
  simp only [List.mem_flatMap, List.mem_range, List.mem_map, Prod.mk.injEq]
  constructor
  · rintro ⟨c', hc, f', hf, rfl, rfl⟩; exact ⟨hc, hf⟩
  · rintro ⟨hc, hf⟩; exact ⟨c, hc, f, hf, rfl, rfl⟩

theorem f2hf_spec (g : Grid) (c f : Nat) (hc : c < g.nc) (hf : f ∈ g.cellFaces c) :
    ∃ i c' : Nat, f2hf g (hfKey g (c, f)) = (i : Int) ∧ g.halfFaces[i]? = some (c', f) ∧ hfKey g (c', f) = hfKey g (c, f) := by
  have hm := (mem_halfFaces g c f).2 ⟨hc, hf⟩
  obtain ⟨i, hi⟩ := List.mem_iff_getElem?.1 hm
  have hz : (((c, f), i) : (Nat × Nat) × Nat) ∈ g.halfFaces.zipIdx := by
    rw [List.mem_zipIdx_iff_getElem?]; exact hi
  rcases f2hf_fold g g.halfFaces.zipIdx (fun _ => -1) (hfKey g (c, f)) with ⟨_, hn⟩ | ⟨h, hm', hk, e⟩
  · exact absurd rfl (hn _ hz)
  · have hg' := List.mem_zipIdx_iff_getElem?.1 hm'
    have h2 : h.1.2 = f := by
      unfold hfKey at hk
      simp only at hk
      split at hk <;> split at hk <;> omega
    refine ⟨h.2, h.1.1, e, ?_, ?_⟩
    · rw [hg', ← h2]
    · rw [← hk, ← h2]

/-- **C62** The half-face table of the constructor: for an internal face both entries are set, and they are the numbers of half faces of that face belonging to its first and its second cell. -/
theorem C62_half_faces (g : Grid) (hg : Spec.WellFormed g) (f a b : Nat) (hI : Spec.Interior g f a b) (ha : f ∈ g.cellFaces a) (hb : f ∈ g.cellFaces b) :
    ∃ i j : Nat, f2hf g (2 * f) = (i : Int) ∧ f2hf g (2 * f + 1) = (j : Int) ∧ g.halfFaces[i]? = some (a, f) ∧ g.halfFaces[j]? = some (b, f) := by
  obtain ⟨hfc, hac, hbc, hab⟩ := hI
  have ka : hfKey g (a, f) = 2 * f := by simp [hfKey, hfc]
  have kb : hfKey g (b, f) = 2 * f + 1 := by simp [hfKey, hfc, hab]
  obtain ⟨i, a', e1, e2, e3⟩ := f2hf_spec g a f hac ha
  obtain ⟨j, b', e4, e5, e6⟩ := f2hf_spec g b f hbc hb
  have haa : a' = a := by
    rw [ka] at e3
    unfold hfKey at e3
    simp only [hfc] at e3
    by_contra h
    rw [if_neg (by intro hh; exact h (by exact_mod_cast hh.symm))] at e3
    omega
  have hbb : b' = b := by
    rw [kb] at e6
    unfold hfKey at e6
    simp only [hfc] at e6
    have hna : ¬ ((a : Int) = (b' : Int)) := by intro hh; rw [if_pos hh] at e6; omega
    obtain ⟨hc', hf'⟩ := (mem_halfFaces g b' f).1 (List.mem_iff_getElem?.2 ⟨j, e5⟩)
    rcases hg.mine b' f hc' hf' with h | h
    · rw [hfc] at h; exact absurd h hna
    · rw [hfc] at h
      have h : (b : Int) = (b' : Int) := h
      exact_mod_cast h.symm
  rw [ka] at e1; rw [kb] at e4
  subst haa hbb
  exact ⟨i, j, e1, e4, e2, e5⟩

theorem foldl_sum_eq (d : Nat) (h : Nat → K) : (List.range d).foldl (fun s j => s + h j) 0 = ∑ j ∈ Finset.range d, h j := by
  induction d with
  | zero => simp
  | succ d ih => rw [List.range_succ, List.foldl_append, ih, Finset.sum_range_succ]; rfl

open Finset in
/-- **C62** With gravity, the static gravity flux over an internal face is the density difference times the transmissibility of the face times gravity along the vector from the centroid of its
first to that of its second cell; the position of the face itself drops out. -/
theorem C62_gravity (g : Grid) (hg : Spec.WellFormed g) (f a b : Nat) (hI : Spec.Interior g f a b) (ha : f ∈ g.cellFaces a) (hb : f ∈ g.cellFaces b)
    (d : Nat) (grav : Nat → K) (cc fc : Nat → Nat → K) (st : Store K)
    (hdg : ∀ (i c f : Nat), g.halfFaces[i]? = some (c, f) → st.dg i = staticGravity d grav cc fc st.trans c f) :
    gravityFlux st true (f2hf g) f = some (st.drho * st.trans f * ∑ j ∈ range d, grav j * (cc b j - cc a j)) := by
  obtain ⟨i, j, e1, e2, h1, h2⟩ := C62_half_faces g hg f a b hI ha hb
  unfold gravityFlux
  rw [if_pos rfl, e1, e2, if_pos ⟨Int.natCast_nonneg _, Int.natCast_nonneg _⟩]
  rw [Int.toNat_natCast, Int.toNat_natCast, hdg i a f h1, hdg j b f h2]
  unfold staticGravity
  rw [foldl_sum_eq, foldl_sum_eq]
  have : ∑ j ∈ range d, grav j * (cc b j - cc a j) = ∑ j ∈ range d, grav j * (fc f j - cc a j) - ∑ j ∈ range d, grav j * (fc f j - cc b j) := by
    rw [← sum_sub_distrib]; exact sum_congr rfl fun j _ => by ring
  rw [this]
  congr 1; ring

omit [LinearOrder K] in
/-- **C62** The gravity flux is asked for only between two cells: over a face with a cell missing on either side an assertion fails. Without gravity it is zero for any face. -/
theorem C62_boundary (g : Grid) (hg : Spec.WellFormed g) (f : Nat) (h : (g.faceCells f).1 < 0 ∨ (g.faceCells f).2 < 0) (st : Store K) :
    gravityFlux st true (f2hf g) f = none ∧ gravityFlux st false (f2hf g) f = some 0 := by
  refine ⟨?_, rfl⟩
  have key : ∀ j, (∀ c, c < g.nc → f ∈ g.cellFaces c → hfKey g (c, f) ≠ j) → (j = 2 * f ∨ j = 2 * f + 1) → f2hf g j = -1 := by
    intro j hj hjf
    rcases f2hf_fold g g.halfFaces.zipIdx (fun _ => -1) j with ⟨e, -⟩ | ⟨q, hm, hk, -⟩
    · exact e
    · have h2 : q.1.2 = f := by
        unfold hfKey at hk
        split at hk <;> omega
      have hq := (mem_halfFaces g q.1.1 q.1.2).1 (List.mem_iff_getElem?.2 ⟨_, List.mem_zipIdx_iff_getElem?.1 hm⟩)
      rw [h2] at hq
      exact absurd (by rw [← hk, ← h2]) (hj q.1.1 hq.1 hq.2)
  unfold gravityFlux
  rw [if_pos rfl, if_neg]
  rintro ⟨p1, p2⟩
  rcases h with h | h
  · rw [key (2 * f) (fun c hc hf e => ?_) (Or.inl rfl)] at p1
    · omega
    · unfold hfKey at e
      simp only at e
      split at e
      · omega
      · omega
  · rw [key (2 * f + 1) (fun c hc hf e => ?_) (Or.inr rfl)] at p2
    · omega
    · unfold hfKey at e
      simp only at e
      split at e
      · omega
      · rcases hg.mine c f hc hf with h' | h' <;> omega

/-- The numbers of the half faces of face `f`. -/
def Spec.halvesOf (g : Grid) (f : Nat) : List Nat := ((g.halfFaces.zipIdx).filter fun h => h.1.2 = f).map (·.2)

theorem faceTrans_eq (g : Grid) (h : Nat → K) (f : Nat) : faceTrans g h f = 1 / ((Spec.halvesOf g f).map fun i => 1 / h i).sum := by
  unfold faceTrans Spec.halvesOf
  have gen : ∀ (l : List ((Nat × Nat) × Nat)) (t : K), l.foldl (fun t q => if q.1.2 = f then t + 1 / h q.2 else t) t =
      t + (((l.filter fun h => h.1.2 = f).map (·.2)).map fun i => 1 / h i).sum := by
    intro l
    induction l with
    | nil => intro t; simp
    | cons q l ih =>
      intro t
      rw [List.foldl_cons, ih]
      by_cases hq : q.1.2 = f
      · rw [if_pos hq, List.filter_cons_of_pos (by simpa using hq), List.map_cons, List.map_cons, List.sum_cons]; ring
      · rw [if_neg hq, List.filter_cons_of_neg (by simpa using hq)]
  rw [gen, zero_add]

/-- **C62** The transmissibility of a face with two half faces is the harmonic sum of theirs: positive, below both, symmetric, and half of them if they are equal. A face with a single half face has
that half face's transmissibility. -/
theorem C62_trans [IsStrictOrderedRing K] (g : Grid) (h : Nat → K) (hpos : ∀ i, 0 < h i) (f : Nat) :
    (∀ i, Spec.halvesOf g f = [i] → faceTrans g h f = h i) ∧
    ∀ i j, Spec.halvesOf g f = [i, j] → faceTrans g h f = h i * h j / (h i + h j) ∧ 0 < faceTrans g h f ∧ faceTrans g h f < h i ∧ faceTrans g h f < h j ∧
      (h i = h j → faceTrans g h f = h i / 2) := by
  constructor
  · intro i hi
    rw [faceTrans_eq, hi]; simp
  · intro i j hij
    have pi := hpos i
    have pj := hpos j
    have e : faceTrans g h f = h i * h j / (h i + h j) := by
      rw [faceTrans_eq, hij]
      simp only [List.map_cons, List.map_nil, List.sum_cons, List.sum_nil, add_zero]
      have := pi.ne'; have := pj.ne'
      have : h i + h j ≠ 0 := by positivity
      rw [div_add_div _ _ (by assumption) (by assumption), one_div_div]
      ring
    have hs : 0 < h i + h j := by positivity
    refine ⟨e, ?_, ?_, ?_, ?_⟩
    · rw [e]; positivity
    · rw [e, div_lt_iff₀ hs]; nlinarith
    · rw [e, div_lt_iff₀ hs]; nlinarith
    · intro hh
      rw [e, hh]
      field_simp
      ring

example : Spec.halvesOf exGrid 1 = [1, 2] ∧ Spec.halvesOf exGrid 0 = [0] ∧ f2hf exGrid 2 = 1 ∧ f2hf exGrid 3 = 2 := by decide +kernel

/-! ### Periodic faces

With periodic conditions the driver (EulerUpstreamImplicit_impl.hpp:136-187) gives each of the two partner faces the cell on the other side as its second cell. Each of them is listed by its
own cell only, so that each has a single half face, and the transmissibility of that half face alone. -/

/-- **C63** (partial: equal half transmissibilities) What leaves a cell over a periodic face enters its periodic partner, if the two faces have the same total flux and driving force and the
transmissibilities of the two half faces agree. -/
theorem C63_periodic_partial (st : Store K) (dt q g0 : K) (f f' a b : Nat) (hab : a ≠ b) (ht : st.trans f = st.trans f') (x y : Contrib K)
    (hx : fluxConnection st dt q g0 a f a b = some x) (hy : fluxConnection st dt q g0 b f' a b = some y) : x.F + y.F = 0 := by
  apply C19_cancel st dt q g0 f a b hab x y hx
  rw [← hy]
  unfold fluxConnection capFlux
  simp only [ht]

/-- Two cells with a common face 0 and the periodic partner faces 1 (of cell 1) and 2 (of cell 0), both made to connect cell 1 to cell 0. -/
def perGrid : Grid where
  nc := 2
  nf := 3
  cellFaces c := if c = 0 then [2, 0] else [0, 1]
  faceCells f := if f = 0 then (0, 1) else (1, 0)

/-- Half transmissibilities of a permeable and a less permeable cell. -/
def perHtrans : Nat → ℚ := fun i => if i < 2 then 4 else 1

def perProblem : Problem ℚ where
  grid := perGrid
  st := { drho := 0, mob := fun _ => (1, 1), dmob := fun _ => (1, -1), porevol := fun _ => 1, dg := fun _ => 0, ds := fun _ => 0
          pc := fun c => c, dpc := fun _ => 1, trans := faceTrans perGrid perHtrans }
  dt := 1
  faceflux _ := 0
  g0 _ := 0
  src := []

/-- **C63** (violated) With capillary pressure and different permeabilities on the two sides of a periodic boundary the implicit scheme is not conservative: without sources and without any change of
saturation the residuals do not add up to zero. -/
theorem C63_violated_periodic : Spec.WellFormed perProblem.grid ∧
    ∃ S, assemble perProblem = some S ∧ S.res 0 + S.res 1 ≠ 0 := by
  refine ⟨⟨?_, ?_⟩, ?_⟩
  · intro c f hc hf
    have : c = 0 ∨ c = 1 := by have : c < 2 := hc; omega
    rcases this with rfl | rfl <;> simp [perProblem, perGrid] at hf ⊢ <;> rcases hf with rfl | rfl <;> simp
  · intro f
    by_cases h : f = 0
    · subst h; decide
    · simp [perProblem, perGrid, h]
  · have h : ((assemble perProblem).map fun S => decide (S.res 0 + S.res 1 ≠ 0)) = some true := by decide +kernel
    cases e : assemble perProblem with
    | none => rw [e] at h; simp at h
    | some S => rw [e] at h; exact ⟨S, rfl, by simpa using h⟩

end Verif.Implicit
