import Verif.Lemmas.SinglePhaseRun

/-! The three types of boundary conditions. -/

namespace Verif.SinglePhase

variable {K : Type} [Field K] [LinearOrder K]

/-- Fixed: pressure one and zero on the two sides of direction `d`, no flow elsewhere. -/
def fixedCnd (G : Grid K) (side : Boundary.Face K → Nat) (d : Fin 3) (p : Half G) : Boundary.BC K :=
  if side (G.bface p) = 2 * d.val then ⟨.dirichlet, 1⟩
  else if side (G.bface p) = 2 * d.val + 1 then ⟨.dirichlet, 0⟩ else ⟨.neumann, 0⟩

/-- Linear: pressure falling linearly from one to zero in direction `d`. -/
def linearCnd (G : Grid K) (lo hi : Fin 3 → K) (d : Fin 3) (p : Half G) : Boundary.BC K :=
  ⟨.dirichlet, (hi d - (G.face p).centroid d) / (hi d - lo d)⟩

/-- Periodic: jump one in direction `d`. -/
def periodicCnd (G : Grid K) (side : Boundary.Face K → Nat) (d : Fin 3) (p : Half G) : Boundary.BC K :=
  ⟨.periodic, if side (G.bface p) = 2 * d.val then 1 else if side (G.bface p) = 2 * d.val + 1 then -1 else 0⟩

theorem fixed_kind (G : Grid K) (side : Boundary.Face K → Nat) (d : Fin 3) : Kind G (twin G) (fixedCnd G side d) where
  interior _ _ := rfl
  boundary p hp := by
    have := twin_none G p hp
    unfold fixedCnd
    split
    · exact Or.inl ⟨rfl, this⟩
    · split
      · exact Or.inl ⟨rfl, this⟩
      · exact Or.inr (Or.inl ⟨rfl, rfl, this⟩)
  unique p q _ _ h := by
    unfold fixedCnd at h
    split at h
    · cases h
    · split at h <;> cases h

theorem linear_kind (G : Grid K) (lo hi : Fin 3 → K) (d : Fin 3) : Kind G (twin G) (linearCnd G lo hi d) where
  interior _ _ := rfl
  boundary p hp := Or.inl ⟨rfl, twin_none G p hp⟩
  unique p q _ _ h := by cases h

theorem setup_of {I : Input K} {pdd : Fin 3} {b r : Boundary.BCs K}
    (h : Boundary.setupUpscalingConditions I.sort I.G.bfaces (code I.bct) pdd 1 1 I.twodim b = .ok r) :
    setup I pdd b = some r := by
  unfold setup; rw [h]

section
variable [IsStrictOrderedRing K]

theorem fixed_setup {I : Input K} {lo hi : Fin 3 → K} {side : Boundary.Face K → Nat} (hb : FillsBox I.G lo hi side)
    (hbc : I.bct = .fixed) (hid : SideIds I.G side) (d : Fin 3) (b : Boundary.BCs K) :
    ∃ r, setup I d b = some r ∧ Holds I.G side (twin I.G) (fixedCnd I.G side d) r := by
  obtain ⟨r, h1, _, h2⟩ := Boundary.C08_fixed_exact (K := K) d 1 1
  refine ⟨r, setup_of (by rw [hbc]; exact h1 _ _ _ _), ?_, ?_, ?_⟩
  · intro p hp
    have hs := side_lt hb p hp
    rw [hid p hp, (h2 _ (by omega)).1]
    unfold fixedCnd
    simp only [Nat.add_right_cancel_iff, show 2 * d.val + 2 = 2 * d.val + 1 + 1 from rfl]
  · intro p hp
    have hs := side_lt hb p hp
    rw [hid p hp]
    exact (h2 _ (by omega)).2.2.1
  · intro p hp h
    unfold fixedCnd at h
    split at h
    · cases h
    · split at h <;> cases h

theorem mem_outer {G : Grid K} {lo hi : Fin 3 → K} {side : Boundary.Face K → Nat} (hb : FillsBox G lo hi side)
    (f : Boundary.Face K) : f ∈ Boundary.outerFaces G.bfaces ↔ ∃ p, (G.face p).nbr = none ∧ f = G.bface p := by
  unfold Boundary.outerFaces Grid.bfaces
  rw [List.mem_filter]
  constructor
  · rintro ⟨h1, h2⟩
    obtain ⟨p, _, rfl⟩ := List.mem_map.mp h1
    refine ⟨p, ?_, rfl⟩
    by_contra hn
    have : (G.bface p).bid = 0 := (hb.bid p).mpr hn
    simp [this] at h2
  · rintro ⟨p, hp, rfl⟩
    refine ⟨List.mem_map.mpr ⟨p, mem_halves G p, rfl⟩, ?_⟩
    have : (G.bface p).bid ≠ 0 := fun e => (hb.bid p).mp e hp
    simpa using this

theorem bid_inj {G : Grid K} {lo hi : Fin 3 → K} {side : Boundary.Face K → Nat} (hb : FillsBox G lo hi side)
    (hf : FaceIds G lo hi side) (p q : Half G) (hp : (G.face p).nbr = none) (hq : (G.face q).nbr = none)
    (h : (G.face p).bid = (G.face q).bid) : p = q := by
  have h1 := hf.unique.1
  unfold Boundary.outerFaces Grid.bfaces at h1
  rw [List.filter_map, List.map_map] at h1
  have hm : ∀ p, (G.face p).nbr = none →
      p ∈ G.halves.filter ((fun f : Boundary.Face K => decide (f.bid ≠ 0)) ∘ G.bface) := by
    intro p hp
    refine List.mem_filter.mpr ⟨mem_halves G p, ?_⟩
    have : (G.bface p).bid ≠ 0 := fun e => (hb.bid p).mp e hp
    simpa using this
  exact List.inj_on_of_nodup_map h1 (hm p hp) (hm q hq) h

theorem linear_setup {I : Input K} {lo hi : Fin 3 → K} {side : Boundary.Face K → Nat} (hb : FillsBox I.G lo hi side)
    (hbc : I.bct = .linear) (hf : FaceIds I.G lo hi side) (htw : I.twodim = false) (d : Fin 3) (b : Boundary.BCs K) :
    ∃ r, setup I d b = some r ∧ Holds I.G side (twin I.G) (linearCnd I.G lo hi d) r := by
  obtain ⟨r, h1, _, h2, _⟩ := Boundary.C07_linear_values b I.G.bfaces 1 d 1 I.twodim (1 / 10 ^ 6) side lo hi hf.unique
    (Or.inr ⟨lo, hi, hf.extents, hf.at_side⟩) hf.extents (hb.lt d)
  refine ⟨r, setup_of ?_, ?_, ?_, ?_⟩
  · rw [hbc, ← h1]
    unfold Boundary.setupUpscalingConditions code
    simp
  · intro p hp
    have := (h2 _ ((mem_outer hb _).mpr ⟨p, hp, rfl⟩)).1
    rw [htw] at this
    simp only [Bool.false_eq_true, false_and, if_false, one_mul] at this
    exact this
  · intro p hp
    exact (h2 _ ((mem_outer hb _).mpr ⟨p, hp, rfl⟩)).2.2
  · intro p hp h
    cases h

/-- The face on the opposite side of the box. -/
def Image (G : Grid K) (side : Boundary.Face K → Nat) (p q : Half G) : Prop :=
  (G.face q).nbr = none ∧ side (G.bface p) / 2 = side (G.bface q) / 2 ∧
    side (G.bface p) ≠ side (G.bface q) ∧ (G.face p).area = (G.face q).area ∧
    ∀ d : Fin 3, d.val ≠ side (G.bface p) / 2 → (G.face p).centroid d = (G.face q).centroid d

theorem image_symm {G : Grid K} {side : Boundary.Face K → Nat} {p q : Half G} (hp : (G.face p).nbr = none)
    (h : Image G side p q) : Image G side q p :=
  ⟨hp, h.2.1.symm, h.2.2.1.symm, h.2.2.2.1.symm, fun d hd => (h.2.2.2.2 d (by rw [h.2.1]; exact hd)).symm⟩

theorem image_periodic {G : Grid K} {side : Boundary.Face K → Nat} {p q : Half G} (h : Image G side p q) :
    Boundary.PeriodicImage (side (G.bface p)) (G.bface p) (side (G.bface q)) (G.bface q) := by
  refine ⟨h.2.1, h.2.2.1, ?_, ?_⟩
  · have : (G.bface p).area = (G.bface q).area := h.2.2.2.1
    rw [this]; simp
  · have : ∀ d : Fin 3, (if d.val = side (G.bface p) / 2 then (0 : K)
        else ((G.bface p).centroid d - (G.bface q).centroid d) ^ 2) = 0 := by
      intro d
      split
      · rfl
      · rename_i hd
        have : (G.bface p).centroid d = (G.bface q).centroid d := h.2.2.2.2 d hd
        rw [this]; simp
    rw [Finset.sum_eq_zero fun d _ => this d]
    positivity

open Classical in
/-- The face on the other side, over the interior or over the periodic boundary. -/
noncomputable def pmate (G : Grid K) (side : Boundary.Face K → Nat) (p : Half G) : Half G :=
  if (G.face p).nbr = none then (if h : ∃ q, Image G side p q then h.choose else p) else twin G p

theorem pmate_image {G : Grid K} {side : Boundary.Face K → Nat} (hm : Matching G side) (p : Half G)
    (hp : (G.face p).nbr = none) : Image G side p (pmate G side p) := by
  have hex : ∃ q, Image G side p q := hm.image p hp
  unfold pmate
  rw [if_pos hp, dif_pos hex]
  exact hex.choose_spec

theorem image_unique {G : Grid K} {lo hi : Fin 3 → K} {side : Boundary.Face K → Nat} (hb : FillsBox G lo hi side)
    (hf : FaceIds G lo hi side) (hm : Matching G side) {p q r : Half G} (hp : (G.face p).nbr = none)
    (h : Image G side p q) (h' : Image G side p r) : q = r := by
  refine bid_inj hb hf q r h.1 h'.1 ?_
  exact hm.single _ ((mem_outer hb _).mpr ⟨p, hp, rfl⟩) _ ((mem_outer hb _).mpr ⟨q, h.1, rfl⟩) _
    ((mem_outer hb _).mpr ⟨r, h'.1, rfl⟩) (image_periodic h) (image_periodic h')

theorem image_side {G : Grid K} {side : Boundary.Face K → Nat} {p q : Half G} (h : Image G side p q) (d : Nat) :
    (side (G.bface q) = 2 * d ↔ side (G.bface p) = 2 * d + 1) ∧
      (side (G.bface q) = 2 * d + 1 ↔ side (G.bface p) = 2 * d) := by
  have h1 := h.2.1
  have h2 := h.2.2.1
  omega

theorem periodic_kind {G : Grid K} {lo hi : Fin 3 → K} {side : Boundary.Face K → Nat} (hb : FillsBox G lo hi side)
    (hf : FaceIds G lo hi side) (hm : Matching G side) (d : Fin 3) : Kind G (pmate G side) (periodicCnd G side d) where
  interior p hp := by unfold pmate; rw [if_neg hp]
  boundary p hp := by
    right; right
    have h := pmate_image hm p hp
    refine ⟨rfl, rfl, ?_, ?_, h.1, ?_⟩
    · have hs := image_side h d.val
      unfold periodicCnd
      dsimp only
      by_cases h1 : side (G.bface p) = 2 * d.val
      · rw [if_pos h1, if_neg (by omega), if_pos (hs.2.mpr h1)]
      · by_cases h2 : side (G.bface p) = 2 * d.val + 1
        · rw [if_neg h1, if_pos h2, if_pos (hs.1.mpr h2), neg_neg]
        · rw [if_neg h1, if_neg h2, if_neg (fun e => h2 (hs.1.mp e)), if_neg (fun e => h1 (hs.2.mp e)), neg_zero]
    · intro e
      exact h.2.2.1 (by rw [e])
    · exact image_unique hb hf hm h.1 (pmate_image hm _ h.1) (image_symm hp h)
  unique p q hp hq _ _ := bid_inj hb hf p q hp hq

theorem periodic_setup {I : Input K} (h : Regular I) (ht : Tiling I.G) {lo hi : Fin 3 → K} {side : Boundary.Face K → Nat}
    (hb : FillsBox I.G lo hi side) (hbc : I.bct = .periodic) (hf : FaceIds I.G lo hi side) (hm : Matching I.G side)
    (htw : I.twodim = false) (d : Fin 3) (b : Boundary.BCs K) :
    ∃ r, setup I d b = some r ∧ Holds I.G side (pmate I.G side) (periodicCnd I.G side d) r := by
  obtain ⟨r, h1, h2⟩ := Boundary.C08_periodic_exact I.sort h.sort I.G.bfaces d 1 1 I.twodim side hf.unique
    (Or.inr ⟨lo, hi, hf.extents, hf.at_side⟩) hm.single (fun f hf => by
      obtain ⟨p, _, rfl⟩ := (mem_outer hb f).mp hf
      exact ht.area p)
  refine ⟨r, setup_of ?_, ?_, ?_, ?_⟩
  · rw [hbc]; exact h1 b
  · intro p hp
    have := (h2 _ ((mem_outer hb _).mpr ⟨p, hp, rfl⟩)).1
    rw [htw] at this
    simp only [Bool.false_eq_true, false_and, if_false] at this
    exact this
  · intro p hp
    exact (h2 _ ((mem_outer hb _).mpr ⟨p, hp, rfl⟩)).2.2.1
  · intro p hp _
    have hi := pmate_image hm p hp
    refine ((h2 _ ((mem_outer hb _).mpr ⟨p, hp, rfl⟩)).2.2.2 _ ((mem_outer hb _).mpr ⟨_, hi.1, rfl⟩)).mpr ⟨?_, image_periodic hi⟩
    rw [htw]; simp

end
end Verif.SinglePhase
