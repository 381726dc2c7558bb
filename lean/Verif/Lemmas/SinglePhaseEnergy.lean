import Verif.Lemmas.SinglePhaseBC

/-! Trial fields and energies of the flow problems of single-phase upscaling. -/

namespace Verif.SinglePhase

variable {K : Type} [Field K] [LinearOrder K]

/-- Pressure drops from cell to faces of a field with gradient `g c` in cell `c`. -/
def gfield (I : Input K) (g : Fin I.G.nc → Fin 3 → K) (p : Half I.G) : K :=
  ∑ l, g p.1 l * ((I.G.cell p.1).centroid l - (I.G.face p).centroid l)

/-- Outflux of the uniform velocity `-e`. -/
def uflow (G : Grid K) (e : Fin 3 → K) (p : Half G) : K := -((G.face p).area * ∑ k, (G.face p).normal k * e k)

section
variable [IsStrictOrderedRing K]

theorem flux_gfield {I : Input K} (h : Regular I) (ht : Tiling I.G) (g : Fin I.G.nc → Fin 3 → K) (p : Half I.G) :
    Energy.fluxOf (ipOf I) (gfield I g) p = uflow I.G (fun k => ∑ l, cond I p.1 k l * g p.1 l) p := by
  have h1 := Mimetic.inner_centroid (I.G.geo p.1) (I.Q p.1) (I.perm p.1) (g p.1) (h.basis p.1) (closed_geo ht p.1)
    (ht.volume p.1).ne' p.2
  unfold Energy.fluxOf ipOf Mimetic.inverseMatrix Mimetic.totmob gfield uflow cond
  rw [← List.sum_eq_foldl]
  have e1 : ∀ j, Mimetic.inner (I.G.geo p.1) (I.Q p.1) (I.perm p.1) p.2 j * (I.mob p.1).sum *
      (∑ l, g p.1 l * ((I.G.cell p.1).centroid l - (I.G.face ⟨p.1, j⟩).centroid l)) =
      -(I.mob p.1).sum * (Mimetic.inner (I.G.geo p.1) (I.Q p.1) (I.perm p.1) p.2 j *
        ∑ k, (((I.G.geo p.1).face j).centroid k - (I.G.geo p.1).centroid k) * g p.1 k) := by
    intro j
    have : ∑ l, g p.1 l * ((I.G.cell p.1).centroid l - (I.G.face ⟨p.1, j⟩).centroid l) =
        -∑ k, (((I.G.geo p.1).face j).centroid k - (I.G.geo p.1).centroid k) * g p.1 k := by
      rw [← Finset.sum_neg_distrib]
      refine Finset.sum_congr rfl fun l _ => ?_
      change _ = -(((I.G.face ⟨p.1, j⟩).centroid l - (I.G.cell p.1).centroid l) * _)
      ring
    rw [this]; ring
  refine (Finset.sum_congr rfl fun j _ => e1 j).trans ?_
  rw [← Finset.mul_sum, h1]
  change -(I.mob p.1).sum * ((I.G.face p).area * ∑ k, (I.G.face p).normal k * ∑ l, I.perm p.1 k l * g p.1 l) = _
  have e2 : ∀ k, ∑ l, (I.mob p.1).sum * I.perm p.1 k l * g p.1 l = (I.mob p.1).sum * ∑ l, I.perm p.1 k l * g p.1 l := by
    intro k
    rw [Finset.mul_sum]
    exact Finset.sum_congr rfl fun l _ => by ring
  simp only [e2]
  have e3 : ∑ k, (I.G.face p).normal k * ((I.mob p.1).sum * ∑ l, I.perm p.1 k l * g p.1 l) =
      (I.mob p.1).sum * ∑ k, (I.G.face p).normal k * ∑ l, I.perm p.1 k l * g p.1 l := by
    rw [Finset.mul_sum]
    exact Finset.sum_congr rfl fun l _ => by ring
  rw [e3]; ring

/-- Work of a uniform velocity in every cell. -/
theorem gfield_uflow {I : Input K} (ht : Tiling I.G) (g e : Fin I.G.nc → Fin 3 → K) :
    ∑ p : Half I.G, gfield I g p * uflow I.G (e p.1) p = ∑ c, (I.G.cell c).volume * ∑ k, g c k * e c k := by
  rw [Fintype.sum_sigma]
  refine Finset.sum_congr rfl fun c _ => ?_
  unfold gfield uflow
  have e1 : ∀ i : Fin (I.G.cell c).nf,
      (∑ l, g c l * ((I.G.cell c).centroid l - ((I.G.cell c).face i).centroid l)) *
        -(((I.G.cell c).face i).area * ∑ k, ((I.G.cell c).face i).normal k * e c k) =
      ∑ l, ∑ k, g c l * e c k * (((I.G.cell c).face i).area * ((I.G.cell c).face i).normal k *
        (((I.G.cell c).face i).centroid l - (I.G.cell c).centroid l)) := by
    intro i
    rw [Finset.sum_mul]
    refine Finset.sum_congr rfl fun l _ => ?_
    rw [Finset.mul_sum, ← Finset.sum_neg_distrib, Finset.mul_sum]
    exact Finset.sum_congr rfl fun k _ => by ring
  refine (Finset.sum_congr rfl fun i _ => e1 i).trans ?_
  rw [Finset.sum_comm, Finset.mul_sum]
  refine Finset.sum_congr rfl fun l _ => ?_
  rw [Finset.sum_comm]
  have e2 : ∀ k, ∑ i : Fin (I.G.cell c).nf, g c l * e c k * (((I.G.cell c).face i).area * ((I.G.cell c).face i).normal k *
        (((I.G.cell c).face i).centroid l - (I.G.cell c).centroid l)) =
      g c l * e c k * if k = l then (I.G.cell c).volume else 0 := fun k => by
    rw [← Finset.mul_sum, ht.closed c k l]
  simp only [e2]
  rw [Finset.sum_eq_single l (fun k _ hk => by rw [if_neg hk, mul_zero]) (by simp), if_pos rfl]
  ring

theorem form_gfield {I : Input K} (h : Regular I) (ht : Tiling I.G) (g g' : Fin I.G.nc → Fin 3 → K) :
    Energy.form (ipOf I) (gfield I g) (gfield I g') =
      ∑ c, (I.G.cell c).volume * ∑ k, g c k * ∑ l, cond I c k l * g' c l := by
  unfold Energy.form
  rw [← gfield_uflow ht g fun c k => ∑ l, cond I c k l * g' c l]
  exact Finset.sum_congr rfl fun p _ => by rw [flux_gfield h ht]

/-- Energy of any field against a field whose flux is uniform. -/
theorem form_uflow {I : Input K} (h : Regular I) (ht : Tiling I.G) (a : Half I.G → K) (g : Fin I.G.nc → Fin 3 → K)
    (e : Fin 3 → K) (hg : ∀ c k, ∑ l, cond I c k l * g c l = e k) :
    Energy.form (ipOf I) a (gfield I g) = ∑ p, a p * uflow I.G e p := by
  unfold Energy.form
  refine Finset.sum_congr rfl fun p _ => ?_
  rw [flux_gfield h ht, show (fun k => ∑ l, cond I p.1 k l * g p.1 l) = e from funext fun k => hg p.1 k]

variable {G : Grid K} {lo hi : Fin 3 → K} {side : Boundary.Face K → Nat}

theorem uflow_balanced (ht : Tiling G) (e : Fin 3 → K) :
    Energy.Balanced (nf := fun c => (G.cell c).nf) (uflow G e) := by
  intro c
  unfold uflow
  change ∑ r : Fin (G.cell c).nf, -(((G.cell c).face r).area * ∑ k, ((G.cell c).face r).normal k * e k) = 0
  rw [Finset.sum_neg_distrib, neg_eq_zero]
  have : ∀ r : Fin (G.cell c).nf, ((G.cell c).face r).area * ∑ k, ((G.cell c).face r).normal k * e k =
      ∑ k, e k * (((G.cell c).face r).area * ((G.cell c).face r).normal k) := by
    intro r
    rw [Finset.mul_sum]
    exact Finset.sum_congr rfl fun k _ => by ring
  simp only [this]
  rw [Finset.sum_comm]
  refine Finset.sum_eq_zero fun k _ => ?_
  rw [← Finset.mul_sum, ht.surface c k, mul_zero]

theorem uflow_twin (ht : Tiling G) (e : Fin 3 → K) (p : Half G) (hp : (G.face p).nbr ≠ none) :
    uflow G e (twin G p) = -uflow G e p := by
  obtain ⟨_, _, ha, _, hn⟩ := twin_spec ht p hp
  unfold uflow
  rw [ha]
  have : ∑ k, (G.face (twin G p)).normal k * e k = -∑ k, (G.face p).normal k * e k := by
    rw [← Finset.sum_neg_distrib]
    exact Finset.sum_congr rfl fun k _ => by rw [hn]; ring
  rw [this]; ring

theorem uflow_skew (ht : Tiling G) (e : Fin 3 → K) :
    Energy.Skew (nf := fun c => (G.cell c).nf) (twin G) (uflow G e) := by
  intro p hp
  exact uflow_twin ht e p ((twin_ne_iff ht p).mp hp)

theorem uflow_low (hb : FillsBox G lo hi side) (e : Fin 3 → K) (p : Half G) (hp : (G.face p).nbr = none) (d : Fin 3)
    (hs : side (G.bface p) = 2 * d.val) : uflow G e p = e d * (G.face p).area := by
  unfold uflow
  rw [(low_face hb p hp d hs).2, Finset.sum_eq_single d (fun k _ hk => by simp [hk]) (by simp)]
  simp; ring

theorem uflow_high (hb : FillsBox G lo hi side) (e : Fin 3 → K) (p : Half G) (hp : (G.face p).nbr = none) (d : Fin 3)
    (hs : side (G.bface p) = 2 * d.val + 1) : uflow G e p = -(e d * (G.face p).area) := by
  unfold uflow
  rw [(high_face hb p hp d hs).2, Finset.sum_eq_single d (fun k _ hk => by simp [hk]) (by simp)]
  simp; ring

theorem some_side (hb : FillsBox G lo hi side) (p : Half G) (hp : (G.face p).nbr = none) :
    ∃ d : Fin 3, side (G.bface p) = 2 * d.val ∨ side (G.bface p) = 2 * d.val + 1 := by
  obtain ⟨d, h | h⟩ := hb.sides p hp
  · exact ⟨d, Or.inl h.1⟩
  · exact ⟨d, Or.inr h.1⟩

theorem uflow_pskew (ht : Tiling G) (hb : FillsBox G lo hi side) (hm : Matching G side) (e : Fin 3 → K) :
    Energy.Skew (nf := fun c => (G.cell c).nf) (pmate G side) (uflow G e) := by
  intro p _
  by_cases hp : (G.face p).nbr = none
  · have hi' := pmate_image hm p hp
    obtain ⟨d, hs | hs⟩ := some_side hb p hp
    · rw [uflow_low hb e p hp d hs, uflow_high hb e _ hi'.1 d ((image_side hi' d.val).2.mpr hs), hi'.2.2.2.1]
    · rw [uflow_high hb e p hp d hs, uflow_low hb e _ hi'.1 d ((image_side hi' d.val).1.mpr hs), hi'.2.2.2.1]; ring
  · unfold pmate
    rw [if_neg hp]
    exact uflow_twin ht e p hp

theorem sideSum_low (hb : FillsBox G lo hi side) (e : Fin 3 → K) (d : Fin 3) :
    sideSum G side (uflow G e) (2 * d.val) = e d * sideArea G side (2 * d.val) := by
  rw [sideSum_congr _ _ (fun p => e d * (G.face p).area) fun p hp hs => uflow_low hb e p hp d hs, sideSum_mul]; rfl

theorem sideSum_high (hb : FillsBox G lo hi side) (e : Fin 3 → K) (d : Fin 3) :
    sideSum G side (uflow G e) (2 * d.val + 1) = -(e d * sideArea G side (2 * d.val + 1)) := by
  rw [sideSum_congr _ _ (fun p => -e d * (G.face p).area) fun p hp hs => by rw [uflow_high hb e p hp d hs]; ring,
    sideSum_mul]
  unfold sideArea; ring

theorem avgVel_eq (ht : Tiling G) (hb : FillsBox G lo hi side) (w : Half G → K) (d : Fin 3) :
    avgVel G side w d * sideArea G side (2 * d.val) =
      1 / 2 * (sideSum G side w (2 * d.val + 1) - sideSum G side w (2 * d.val)) := by
  have hd := d.2
  have h1 := (sideArea_pos ht hb (2 * d.val) (by omega)).ne'
  unfold avgVel
  rw [← sides_equal ht hb d]
  field_simp
  ring

theorem avgVel_uflow (ht : Tiling G) (hb : FillsBox G lo hi side) (e : Fin 3 → K) (d : Fin 3) :
    avgVel G side (uflow G e) d = -e d := by
  have hd := d.2
  have h1 := (sideArea_pos ht hb (2 * d.val) (by omega)).ne'
  have h2 := avgVel_eq ht hb (uflow G e) d
  rw [sideSum_low hb, sideSum_high hb, ← sides_equal ht hb] at h2
  refine mul_right_cancel₀ h1 ?_
  rw [h2]; ring

/-! ### Work of a balanced flux against a pressure field -/

/-- With equal pressures on the two sides of every interior face only the boundary counts. -/
theorem work_boundary (ht : Tiling G) (c : Fin G.nc → K) (z w : Half G → K)
    (hz : ∀ p, (G.face p).nbr ≠ none → z p = z (twin G p))
    (hb : Energy.Balanced (nf := fun c => (G.cell c).nf) w) (hk : Energy.Skew (nf := fun c => (G.cell c).nf) (twin G) w) :
    ∑ p : Half G, Energy.drop c z p * w p = -∑ p, if (G.face p).nbr = none then z p * w p else 0 := by
  have h1 := Energy.drop_pair (nf := fun c => (G.cell c).nf) c z w hb
  have h2 := Energy.skew_pair (nf := fun c => (G.cell c).nf) (twin G) (twin_twin ht) z w hk
  have e : ∑ p : Half G, (if twin G p = p then 2 * z p else z p - z (twin G p)) * w p =
      2 * ∑ p, if (G.face p).nbr = none then z p * w p else 0 := by
    rw [Finset.mul_sum]
    refine Finset.sum_congr rfl fun p _ => ?_
    by_cases hp : (G.face p).nbr = none
    · rw [if_pos (twin_none G p hp), if_pos hp]; ring
    · rw [if_neg ((twin_ne_iff ht p).mpr hp), if_neg hp, ← hz p hp]; ring
  rw [e] at h2
  rw [h1]
  linarith

/-- No net inflow. -/
theorem net_zero (ht : Tiling G) (w : Half G → K)
    (hb : Energy.Balanced (nf := fun c => (G.cell c).nf) w) (hk : Energy.Skew (nf := fun c => (G.cell c).nf) (twin G) w) :
    (∑ p, if (G.face p).nbr = none then w p else 0) = 0 := by
  have h := work_boundary ht (fun _ => 1) (fun _ => 1) w (fun _ _ => rfl) hb hk
  have e : ∀ p : Half G, Energy.drop (nf := fun c => (G.cell c).nf) (fun _ => (1 : K)) (fun _ => 1) p * w p = 0 := fun p => by
    unfold Energy.drop; ring
  simp only [e, one_mul, Finset.sum_const_zero] at h
  linarith

/-- Periodic boundary: with jump `t d` in direction `d` the work is `∑ t_d A_d v_d`. -/
theorem work_periodic (ht : Tiling G) (hb : FillsBox G lo hi side) (hinv : ∀ p, pmate G side (pmate G side p) = p)
    (hne : ∀ p, pmate G side p ≠ p)
    (c : Fin G.nc → K) (z w : Half G → K) (t : Fin 3 → K) (hz : ∀ p, (G.face p).nbr ≠ none → z p = z (pmate G side p))
    (hj : ∀ p, (G.face p).nbr = none → ∀ d : Fin 3, (side (G.bface p) = 2 * d.val → z p - z (pmate G side p) = t d) ∧
      (side (G.bface p) = 2 * d.val + 1 → z p - z (pmate G side p) = -t d))
    (hbal : Energy.Balanced (nf := fun c => (G.cell c).nf) w)
    (hk : Energy.Skew (nf := fun c => (G.cell c).nf) (pmate G side) w) :
    ∑ p : Half G, Energy.drop c z p * w p = ∑ d, t d * (avgVel G side w d * sideArea G side (2 * d.val)) := by
  have h1 := Energy.drop_pair (nf := fun c => (G.cell c).nf) c z w hbal
  have h2 := Energy.skew_pair (nf := fun c => (G.cell c).nf) (pmate G side) hinv z w hk
  have e : ∑ p : Half G, (if pmate G side p = p then 2 * z p else z p - z (pmate G side p)) * w p =
      ∑ d : Fin 3, t d * (sideSum G side w (2 * d.val) - sideSum G side w (2 * d.val + 1)) := by
    unfold sideSum
    simp only [← Finset.sum_sub_distrib]
    simp only [Finset.mul_sum]
    rw [Finset.sum_comm]
    refine Finset.sum_congr rfl fun p _ => ?_
    rw [if_neg (hne p)]
    by_cases hp : (G.face p).nbr = none
    · obtain ⟨d, hs | hs⟩ := some_side hb p hp
      · rw [Finset.sum_eq_single d]
        · rw [if_pos ⟨hp, hs⟩, if_neg (fun h => by have := h.2; omega), (hj p hp d).1 hs, sub_zero]
        · intro e _ he
          have : e.val ≠ d.val := fun h => he (Fin.ext h)
          rw [if_neg (fun h => by have := h.2; omega), if_neg (fun h => by have := h.2; omega), sub_zero, mul_zero]
        · simp
      · rw [Finset.sum_eq_single d]
        · rw [if_neg (fun h => by have := h.2; omega), if_pos ⟨hp, hs⟩, (hj p hp d).2 hs]; ring
        · intro e _ he
          have : e.val ≠ d.val := fun h => he (Fin.ext h)
          rw [if_neg (fun h => by have := h.2; omega), if_neg (fun h => by have := h.2; omega), sub_zero, mul_zero]
        · simp
    · rw [← hz p hp, sub_self, zero_mul]
      symm
      refine Finset.sum_eq_zero fun d _ => ?_
      rw [if_neg (fun h => hp h.1), if_neg (fun h => hp h.1), sub_self, mul_zero]
  rw [e] at h2
  have e2 : ∑ d : Fin 3, t d * (avgVel G side w d * sideArea G side (2 * d.val)) =
      -(1 / 2) * ∑ d : Fin 3, t d * (sideSum G side w (2 * d.val) - sideSum G side w (2 * d.val + 1)) := by
    rw [Finset.mul_sum]
    refine Finset.sum_congr rfl fun d _ => ?_
    rw [avgVel_eq ht hb]; ring
  rw [h1, e2, ← h2]
  ring

/-! ### Linear fields -/

/-- A pressure that is linear with gradient `g`, as cell and face pressures. -/
def linCell (G : Grid K) (p0 : K) (g : Fin 3 → K) (c : Fin G.nc) : K := p0 + ∑ l, g l * (G.cell c).centroid l

def linFace (G : Grid K) (p0 : K) (g : Fin 3 → K) (p : Half G) : K := p0 + ∑ l, g l * (G.face p).centroid l

theorem lin_drop {I : Input K} (p0 : K) (g : Fin 3 → K) :
    Energy.drop (nf := fun c => (I.G.cell c).nf) (linCell I.G p0 g) (linFace I.G p0 g) = gfield I fun _ => g := by
  funext p
  unfold Energy.drop linCell linFace gfield
  rw [add_sub_add_left_eq_sub, ← Finset.sum_sub_distrib]
  exact Finset.sum_congr rfl fun l _ => by ring

theorem lin_twin (ht : Tiling G) (p0 : K) (g : Fin 3 → K) (p : Half G) (hp : (G.face p).nbr ≠ none) :
    linFace G p0 g p = linFace G p0 g (twin G p) := by
  unfold linFace
  rw [(twin_spec ht p hp).2.2.2.1]

theorem lin_jump (hb : FillsBox G lo hi side) (hm : Matching G side) (p0 : K) (g : Fin 3 → K) (p : Half G)
    (hp : (G.face p).nbr = none) (d : Fin 3) :
    (side (G.bface p) = 2 * d.val → linFace G p0 g p - linFace G p0 g (pmate G side p) = -(g d * (hi d - lo d))) ∧
      (side (G.bface p) = 2 * d.val + 1 → linFace G p0 g p - linFace G p0 g (pmate G side p) = g d * (hi d - lo d)) := by
  have him := pmate_image hm p hp
  have key : side (G.bface p) / 2 = d.val → linFace G p0 g p - linFace G p0 g (pmate G side p) =
      g d * ((G.face p).centroid d - (G.face (pmate G side p)).centroid d) := by
    intro hs
    unfold linFace
    rw [add_sub_add_left_eq_sub, ← Finset.sum_sub_distrib, Finset.sum_eq_single d]
    · ring
    · intro k _ hk
      rw [him.2.2.2.2 k (fun e => hk (Fin.ext (e.trans hs)))]; ring
    · simp
  refine ⟨fun hs => ?_, fun hs => ?_⟩
  · rw [key (by omega), (low_face hb p hp d hs).1, (high_face hb _ him.1 d ((image_side him d.val).2.mpr hs)).1]; ring
  · rw [key (by omega), (high_face hb p hp d hs).1, (low_face hb _ him.1 d ((image_side him d.val).1.mpr hs)).1]

theorem pmate_ne {G : Grid K} {side : Boundary.Face K → Nat} (ht : Tiling G) (hm : Matching G side) (p : Half G) :
    pmate G side p ≠ p := by
  by_cases hp : (G.face p).nbr = none
  · intro e
    exact (pmate_image hm p hp).2.2.1 (by rw [e])
  · unfold pmate
    rw [if_neg hp]
    exact (twin_spec ht p hp).2.1

theorem pmate_invol (ht : Tiling G) (hb : FillsBox G lo hi side) (hf : FaceIds G lo hi side) (hm : Matching G side)
    (p : Half G) : pmate G side (pmate G side p) = p :=
  (setting_of (periodic_kind hb hf hm 0) fun _ => 0).invol ht p

end
end Verif.SinglePhase
