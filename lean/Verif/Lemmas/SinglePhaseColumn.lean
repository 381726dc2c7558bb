import Verif.Lemmas.SinglePhase
import Verif.Props.Upscale

/-! One column of the upscaled tensor in terms of the flow solution; sums over the sides of the box. -/

namespace Verif.SinglePhase

variable {K : Type} [Field K] [LinearOrder K]

/-- Sum over the faces on one side of the box. -/
def sideSum (G : Grid K) (side : Boundary.Face K → Nat) (f : Half G → K) (s : Nat) : K :=
  ∑ p, if (G.face p).nbr = none ∧ side (G.bface p) = s then f p else 0

theorem halves_sum (G : Grid K) (f : Half G → K) : (G.halves.map f).sum = ∑ p, f p := by
  classical
  rw [← List.sum_toFinset _ (nodup_halves G)]
  refine Finset.sum_congr ?_ fun _ _ => rfl
  ext p
  simp [mem_halves]

theorem filter_sum {α : Type} (P : α → Bool) (f : α → K) (l : List α) :
    ((l.filter P).map f).sum = (l.map fun a => if P a = true then f a else 0).sum := by
  induction l with
  | nil => rfl
  | cons a l ih =>
    rw [List.filter_cons]
    by_cases h : P a = true
    · rw [if_pos h, List.map_cons, List.sum_cons, ih, List.map_cons, List.sum_cons, if_pos h]
    · rw [if_neg h, ih, List.map_cons, List.sum_cons, if_neg h, zero_add]

theorem allFaces_eq (G : Grid K) : (G.gcells.flatMap fun c => c.faces) = G.halves.map G.gface := by
  unfold Grid.gcells Grid.halves
  rw [List.flatMap_map, List.map_flatMap]
  refine List.flatMap_congr ?_
  intro c _
  simp [List.map_map, Function.comp_def]

section
variable [IsStrictOrderedRing K] {G : Grid K} {lo hi : Fin 3 → K} {side : Boundary.Face K → Nat}

theorem side_lt (hb : FillsBox G lo hi side) (p : Half G) (hp : (G.face p).nbr = none) : side (G.bface p) < 6 := by
  obtain ⟨d, h | h⟩ := hb.sides p hp
  · have := d.2; omega
  · have := d.2; omega

theorem low_face (hb : FillsBox G lo hi side) (p : Half G) (hp : (G.face p).nbr = none) (d : Fin 3)
    (hs : side (G.bface p) = 2 * d.val) :
    (G.face p).centroid d = lo d ∧ (G.face p).normal = fun i => if i = d then -1 else 0 := by
  obtain ⟨e, h | h⟩ := hb.sides p hp
  · have : e = d := Fin.ext (by omega)
    subst this; exact h.2
  · omega

theorem high_face (hb : FillsBox G lo hi side) (p : Half G) (hp : (G.face p).nbr = none) (d : Fin 3)
    (hs : side (G.bface p) = 2 * d.val + 1) :
    (G.face p).centroid d = hi d ∧ (G.face p).normal = fun i => if i = d then 1 else 0 := by
  obtain ⟨e, h | h⟩ := hb.sides p hp
  · omega
  · have : e = d := Fin.ext (by omega)
    subst this; exact h.2

/-- The boundary conditions give every boundary face its side as canonical number. -/
def CanonSides (G : Grid K) (side : Boundary.Face K → Nat) (b : Boundary.BCs K) : Prop :=
  ∀ p, (G.face p).nbr = none → b.hdl.getCanon (G.face p).bid = some (side (G.bface p) + 1)

omit [IsStrictOrderedRing K] in
theorem canonOf_ok {b : Boundary.BCs K} (hc : CanonSides G side b) : ∃ canon, canonOf G b = some canon ∧
    ∀ p, (G.face p).nbr = none → canon (G.face p).bid = (side (G.bface p) : Int) + 1 := by
  refine ⟨fun i => ((b.hdl.getCanon i).getD 0 : Nat), ?_, fun p hp => ?_⟩
  · unfold canonOf
    rw [if_pos]
    intro p hp
    rw [hc p (by simpa using hp)]; rfl
  · simp only
    rw [hc p hp]; simp

omit [IsStrictOrderedRing K] in
theorem sideFaces_sum {canon : Nat → Int} (hc : ∀ p, (G.face p).nbr = none → canon (G.face p).bid = (side (G.bface p) : Int) + 1)
    (f : Upscale.GFace K → K) (s : Nat) :
    ((Spec.sideFaces G.gcells canon ((s : Int) + 1)).map f).sum = sideSum G side (fun p => f (G.gface p)) s := by
  unfold Spec.sideFaces sideSum
  rw [allFaces_eq, filter_sum, List.map_map, halves_sum]
  refine Finset.sum_congr rfl fun p _ => ?_
  simp only [Function.comp]
  by_cases hp : (G.face p).nbr = none
  · have h1 : (G.gface p).boundary = true := by unfold Grid.gface; simp [hp]
    have h2 : canon (G.gface p).bid = (side (G.bface p) : Int) + 1 := hc p hp
    by_cases hs : side (G.bface p) = s
    · rw [if_pos, if_pos ⟨hp, hs⟩]
      rw [h1, h2, hs]; simp
    · rw [if_neg, if_neg (fun h => hs h.2)]
      rw [h1, h2]; simp; omega
  · have h1 : (G.gface p).boundary = false := by
      unfold Grid.gface; simpa [Option.isSome_iff_ne_none] using hp
    rw [if_neg (by rw [h1]; simp), if_neg (fun h => hp h.1)]

omit [IsStrictOrderedRing K] in
theorem mem_side {canon : Nat → Int} (f : Upscale.GFace K) (s : Int) (h : f ∈ Spec.sideFaces G.gcells canon s) :
    ∃ p, (G.face p).nbr = none ∧ f = G.gface p ∧ canon (G.face p).bid = s := by
  unfold Spec.sideFaces at h
  rw [allFaces_eq] at h
  obtain ⟨h1, h2⟩ := List.mem_filter.mp h
  obtain ⟨p, _, rfl⟩ := List.mem_map.mp h1
  rw [Bool.and_eq_true, decide_eq_true_eq] at h2
  refine ⟨p, ?_, rfl, h2.2⟩
  have h3 := h2.1
  unfold Grid.gface at h3
  simpa using h3

theorem numbered (hb : FillsBox G lo hi side) {canon : Nat → Int}
    (hc : ∀ p, (G.face p).nbr = none → canon (G.face p).bid = (side (G.bface p) : Int) + 1) :
    Spec.SidesNumbered G.gcells canon := by
  intro c hcell f hf hbd
  have : f ∈ G.gcells.flatMap fun c => c.faces := List.mem_flatMap.mpr ⟨c, hcell, hf⟩
  rw [allFaces_eq] at this
  obtain ⟨p, _, rfl⟩ := List.mem_map.mp this
  have hp : (G.face p).nbr = none := by unfold Grid.gface at hbd; simpa using hbd
  have h1 : canon (G.gface p).bid = _ := hc p hp
  rw [h1]
  have := side_lt hb p hp
  omega

theorem isBox (ht : Tiling G) (hb : FillsBox G lo hi side) {canon : Nat → Int}
    (hc : ∀ p, (G.face p).nbr = none → canon (G.face p).bid = (side (G.bface p) : Int) + 1) :
    Spec.IsBox G.gcells canon lo hi := by
  refine ⟨?_, ?_, ?_, ?_⟩
  · intro d f hf
    obtain ⟨p, hp, rfl, h⟩ := mem_side f _ hf
    rw [hc p hp] at h
    obtain ⟨h1, h2⟩ := low_face hb p hp d (by omega)
    exact ⟨h2, ht.area p, h1⟩
  · intro d f hf
    obtain ⟨p, hp, rfl, h⟩ := mem_side f _ hf
    rw [hc p hp] at h
    obtain ⟨h1, h2⟩ := high_face hb p hp d (by omega)
    exact ⟨h2, ht.area p, h1⟩
  · intro d h
    obtain ⟨p, hp, hs⟩ := hb.ne (2 * d.val) (by have := d.2; omega)
    have : G.gface p ∈ Spec.sideFaces G.gcells canon (2 * (d.val : Int) + 1) := by
      unfold Spec.sideFaces
      rw [allFaces_eq, List.mem_filter]
      refine ⟨List.mem_map.mpr ⟨p, mem_halves G p, rfl⟩, ?_⟩
      rw [Bool.and_eq_true, decide_eq_true_eq]
      refine ⟨by unfold Grid.gface; simp [hp], ?_⟩
      have h1 : canon (G.gface p).bid = _ := hc p hp
      rw [h1, hs]; push_cast; ring
    rw [h] at this; cases this
  · intro d h
    obtain ⟨p, hp, hs⟩ := hb.ne (2 * d.val + 1) (by have := d.2; omega)
    have : G.gface p ∈ Spec.sideFaces G.gcells canon (2 * (d.val : Int) + 2) := by
      unfold Spec.sideFaces
      rw [allFaces_eq, List.mem_filter]
      refine ⟨List.mem_map.mpr ⟨p, mem_halves G p, rfl⟩, ?_⟩
      rw [Bool.and_eq_true, decide_eq_true_eq]
      refine ⟨by unfold Grid.gface; simp [hp], ?_⟩
      have h1 : canon (G.gface p).bid = _ := hc p hp
      rw [h1, hs]; push_cast; ring
    rw [h] at this; cases this

/-- Area of a side. -/
def sideArea (G : Grid K) (side : Boundary.Face K → Nat) (s : Nat) : K := sideSum G side (fun p => (G.face p).area) s

theorem sideArea_pos (ht : Tiling G) (hb : FillsBox G lo hi side) (s : Nat) (hs : s < 6) : 0 < sideArea G side s := by
  obtain ⟨p, hp, hps⟩ := hb.ne s hs
  unfold sideArea sideSum
  refine Finset.sum_pos' (fun q _ => ?_) ⟨p, Finset.mem_univ _, ?_⟩
  · split
    · exact (ht.area q).le
    · exact le_refl _
  · rw [if_pos ⟨hp, hps⟩]; exact ht.area p

/-- Average velocity in direction `d` computed from the fluxes `W`. -/
def avgVel (G : Grid K) (side : Boundary.Face K → Nat) (W : Half G → K) (d : Fin 3) : K :=
  1 / 2 * (-(sideSum G side W (2 * d.val)) / sideArea G side (2 * d.val) +
    sideSum G side W (2 * d.val + 1) / sideArea G side (2 * d.val + 1))

theorem velocity (ht : Tiling G) (hb : FillsBox G lo hi side) {canon : Nat → Int}
    (hc : ∀ p, (G.face p).nbr = none → canon (G.face p).bid = (side (G.bface p) : Int) + 1) (W : Half G → K) (d : Fin 3) :
    Upscale.computeAverageVelocity G.gcells canon (fun id => (G.halves.map W).getD id 0) d = some (avgVel G side W d) := by
  rw [Upscale.C28_velocity _ _ _ _ (numbered hb hc)]
  have hd := d.2
  have hW : ∀ p, (G.halves.map W).getD (G.gface p).id 0 = W p := by
    intro p
    rw [List.getD_eq_getElem?_getD, List.getElem?_map]
    change ((G.halves[G.halves.idxOf p]?).map W).getD 0 = _
    rw [halves_idx]; rfl
  have e1 : (2 * (d.val : Int) + 1) = ((2 * d.val : Nat) : Int) + 1 := by push_cast; ring
  have e2 : (2 * (d.val : Int) + 2) = ((2 * d.val + 1 : Nat) : Int) + 1 := by push_cast; ring
  have h1 : ∀ f, ((Spec.sideFaces G.gcells canon (2 * (d.val : Int) + 1)).map f).sum =
      sideSum G side (fun p => f (G.gface p)) (2 * d.val) := fun f => by rw [e1]; exact sideFaces_sum hc f _
  have h2 : ∀ f, ((Spec.sideFaces G.gcells canon (2 * (d.val : Int) + 2)).map f).sum =
      sideSum G side (fun p => f (G.gface p)) (2 * d.val + 1) := fun f => by rw [e2]; exact sideFaces_sum hc f _
  have a1 := sideArea_pos ht hb (2 * d.val) (by omega)
  have a2 := sideArea_pos ht hb (2 * d.val + 1) (by omega)
  refine ⟨-(sideSum G side W (2 * d.val)) / sideArea G side (2 * d.val),
    sideSum G side W (2 * d.val + 1) / sideArea G side (2 * d.val + 1), rfl, ⟨?_, ?_⟩, ?_, ?_⟩
  · rw [h1]; exact a1.ne'
  · rw [h1, h1]
    change _ * sideArea G side (2 * d.val) = _
    rw [div_mul_cancel₀ _ a1.ne']
    unfold sideSum
    rw [← Finset.sum_neg_distrib]
    refine Finset.sum_congr rfl fun p _ => ?_
    by_cases h : (G.face p).nbr = none ∧ side (G.bface p) = 2 * d.val
    · rw [if_pos h, if_pos h]
      beta_reduce
      rw [hW]
      have : (G.gface p).normal = _ := (low_face hb p h.1 d h.2).2
      rw [this]; simp
    · rw [if_neg h, if_neg h, neg_zero]
  · rw [h2]; exact a2.ne'
  · rw [h2, h2]
    change _ * sideArea G side (2 * d.val + 1) = _
    rw [div_mul_cancel₀ _ a2.ne']
    unfold sideSum
    refine Finset.sum_congr rfl fun p _ => ?_
    by_cases h : (G.face p).nbr = none ∧ side (G.bface p) = 2 * d.val + 1
    · rw [if_pos h, if_pos h]
      beta_reduce
      rw [hW]
      have : (G.gface p).normal = _ := (high_face hb p h.1 d h.2).2
      rw [this]; simp
    · rw [if_neg h, if_neg h]

theorem permColumn_ok (ht : Tiling G) (hb : FillsBox G lo hi side) {canon : Nat → Int}
    (hc : ∀ p, (G.face p).nbr = none → canon (G.face p).bid = (side (G.bface p) : Int) + 1) (W : Half G → K)
    (bct : Upscale.BCType) (pdd : Fin 3) :
    Upscale.permColumn bct G.gcells canon (fun id => (G.halves.map W).getD id 0) pdd =
      some fun i => (if bct = .fixed ∧ i ≠ pdd then 0 else avgVel G side W i) * (hi pdd - lo pdd) := by
  have hq := velocity ht hb hc W
  have hd : Upscale.computeDelta G.gcells canon pdd = some (hi pdd - lo pdd) :=
    Upscale.C28_extent _ _ lo hi pdd (numbered hb hc) (isBox ht hb hc)
  unfold Upscale.permColumn Upscale.flowVector
  rw [hd]
  cases bct with
  | fixed =>
    simp only [hq, Option.map_some]
    congr 1
    funext i
    by_cases h : i = pdd <;> simp [h]
  | linear =>
    simp only [hq]
    congr 1
    funext i
    fin_cases i <;> simp
  | periodic =>
    simp only [hq]
    congr 1
    funext i
    fin_cases i <;> simp

/-! ### Geometry -/

/-- Interior faces drop out of sums of `area * normal` times a continuous quantity. -/
theorem interior_cancel (ht : Tiling G) (d : Fin 3) (z : Half G → K) (hz : ∀ p, (G.face p).nbr ≠ none → z (twin G p) = z p) :
    ∑ p, z p * ((G.face p).area * (G.face p).normal d) =
      ∑ p, if (G.face p).nbr = none then z p * ((G.face p).area * (G.face p).normal d) else 0 := by
  have h := Energy.skew_pair (nf := fun c => (G.cell c).nf) (twin G) (twin_twin ht) z
    (fun p => (G.face p).area * (G.face p).normal d) (fun p hp => by
      have hp' := (twin_ne_iff ht p).mp hp
      obtain ⟨_, _, ha, _, hn⟩ := twin_spec ht p hp'
      beta_reduce
      rw [ha, hn]; ring)
  have e : ∑ p : Half G, (if twin G p = p then 2 * z p else z p - z (twin G p)) * ((G.face p).area * (G.face p).normal d) =
      2 * ∑ p, if (G.face p).nbr = none then z p * ((G.face p).area * (G.face p).normal d) else 0 := by
    rw [Finset.mul_sum]
    refine Finset.sum_congr rfl fun p _ => ?_
    by_cases hp : (G.face p).nbr = none
    · rw [if_pos (twin_none G p hp), if_pos hp]; ring
    · rw [if_neg ((twin_ne_iff ht p).mpr hp), if_neg hp, hz p hp]; ring
  rw [e] at h
  linarith

/-- Sums of `area * normal_d` times a quantity over the boundary are differences between the two sides of direction `d`. -/
theorem boundary_sides (hb : FillsBox G lo hi side) (d : Fin 3) (z : Half G → K) :
    (∑ p, if (G.face p).nbr = none then z p * ((G.face p).area * (G.face p).normal d) else 0) =
      sideSum G side (fun p => z p * (G.face p).area) (2 * d.val + 1) -
        sideSum G side (fun p => z p * (G.face p).area) (2 * d.val) := by
  unfold sideSum
  rw [← Finset.sum_sub_distrib]
  refine Finset.sum_congr rfl fun p _ => ?_
  by_cases hp : (G.face p).nbr = none
  · rw [if_pos hp]
    obtain ⟨e, ⟨h1, _, h3⟩ | ⟨h1, _, h3⟩⟩ := hb.sides p hp
    · by_cases hed : e = d
      · subst hed
        rw [if_neg (fun h => by have := h.2; omega), if_pos ⟨hp, h1⟩, h3]
        simp
      · have : e.val ≠ d.val := fun h => hed (Fin.ext h)
        rw [if_neg (fun h => by have := h.2; omega), if_neg (fun h => by have := h.2; omega), h3]
        simp [Ne.symm hed]
    · by_cases hed : e = d
      · subst hed
        rw [if_pos ⟨hp, h1⟩, if_neg (fun h => by have := h.2; omega), h3]
        simp
      · have : e.val ≠ d.val := fun h => hed (Fin.ext h)
        rw [if_neg (fun h => by have := h.2; omega), if_neg (fun h => by have := h.2; omega), h3]
        simp [Ne.symm hed]
  · rw [if_neg hp, if_neg (fun h => hp h.1), if_neg (fun h => hp h.1), sub_zero]

/-- Opposite sides have the same area. -/
theorem sides_equal (ht : Tiling G) (hb : FillsBox G lo hi side) (d : Fin 3) :
    sideArea G side (2 * d.val) = sideArea G side (2 * d.val + 1) := by
  have h1 : ∑ p : Half G, (1 : K) * ((G.face p).area * (G.face p).normal d) = 0 := by
    rw [Fintype.sum_sigma]
    refine Finset.sum_eq_zero fun c _ => ?_
    rw [← ht.surface c d]
    exact Finset.sum_congr rfl fun i _ => one_mul _
  rw [interior_cancel ht d (fun _ => 1) (fun _ _ => rfl), boundary_sides hb d] at h1
  unfold sideArea
  have e : (fun p : Half G => (1 : K) * (G.face p).area) = fun p => (G.face p).area := by funext p; rw [one_mul]
  rw [e] at h1
  linarith

theorem sideSum_mul (s : Nat) (k : K) (f : Half G → K) : sideSum G side (fun p => k * f p) s = k * sideSum G side f s := by
  unfold sideSum
  rw [Finset.mul_sum]
  exact Finset.sum_congr rfl fun p _ => by split <;> simp

theorem sideSum_congr (s : Nat) (f g : Half G → K) (h : ∀ p, (G.face p).nbr = none → side (G.bface p) = s → f p = g p) :
    sideSum G side f s = sideSum G side g s := by
  unfold sideSum
  refine Finset.sum_congr rfl fun p _ => ?_
  by_cases hp : (G.face p).nbr = none ∧ side (G.bface p) = s
  · rw [if_pos hp, if_pos hp, h p hp.1 hp.2]
  · rw [if_neg hp, if_neg hp]

/-- The volume is cross section times length. -/
theorem volume_eq (ht : Tiling G) (hb : FillsBox G lo hi side) (d : Fin 3) :
    ∑ c, (G.cell c).volume = sideArea G side (2 * d.val) * (hi d - lo d) := by
  have h1 : ∑ p : Half G, (G.face p).centroid d * ((G.face p).area * (G.face p).normal d) = ∑ c, (G.cell c).volume := by
    rw [Fintype.sum_sigma]
    refine Finset.sum_congr rfl fun c _ => ?_
    have h2 := ht.closed c d d
    rw [if_pos rfl] at h2
    rw [← h2]
    have e : ∀ i, ((G.cell c).face i).area * ((G.cell c).face i).normal d *
        (((G.cell c).face i).centroid d - (G.cell c).centroid d) =
        ((G.cell c).face i).centroid d * (((G.cell c).face i).area * ((G.cell c).face i).normal d) -
          (G.cell c).centroid d * (((G.cell c).face i).area * ((G.cell c).face i).normal d) := fun i => by ring
    simp only [e]
    rw [Finset.sum_sub_distrib, ← Finset.mul_sum _ _ ((G.cell c).centroid d), ht.surface c d, mul_zero, sub_zero]
    rfl
  rw [← h1, interior_cancel ht d (fun p => (G.face p).centroid d) (fun p hp => by rw [(twin_spec ht p hp).2.2.2.1]),
    boundary_sides hb d]
  rw [sideSum_congr (2 * d.val + 1) _ (fun p => hi d * (G.face p).area) (fun p hp hs => by rw [(high_face hb p hp d hs).1]),
    sideSum_congr (2 * d.val) _ (fun p => lo d * (G.face p).area) (fun p hp hs => by rw [(low_face hb p hp d hs).1]),
    sideSum_mul, sideSum_mul]
  have := sides_equal ht hb d
  unfold sideArea at this ⊢
  rw [← this]; ring

end
end Verif.SinglePhase
