import Verif.Spec.FlowCopies
import Verif.Lemmas.Relabel
import Verif.Props.PeriodicLayers
import Mathlib.Data.Fintype.Pi
import Mathlib.Data.Fintype.Prod

/-! Lemmas for C163: faces, opposite faces and sides of a sample made of copies. -/

namespace Verif.SinglePhase

variable {K : Type} [Field K] [LinearOrder K] [IsStrictOrderedRing K]

section
variable {I I' : Input K} {lo hi t lo' hi' : Fin 3 → K} {side side' : Boundary.Face K → Nat} {M : Fin 3 → Nat} {σ : Place M × Fin I.G.nc ≃ Fin I'.G.nc}
  {τ : (x : Place M × Fin I.G.nc) → Fin (I.G.cell x.2).nf ≃ Fin (I'.G.cell (σ x)).nf}

/-- The copy of a face at a place. -/
def copyOf (τ : (x : Place M × Fin I.G.nc) → Fin (I.G.cell x.2).nf ≃ Fin (I'.G.cell (σ x)).nf) (k : Place M) (p : Half I.G) : Half I'.G :=
  ⟨σ (k, p.1), τ (k, p.1) p.2⟩

/-- All faces. -/
def copyEquiv (τ : (x : Place M × Fin I.G.nc) → Fin (I.G.cell x.2).nf ≃ Fin (I'.G.cell (σ x)).nf) :
    (Σ x : Place M × Fin I.G.nc, Fin (I.G.cell x.2).nf) ≃ Half I'.G := Equiv.sigmaCongr σ τ

omit [IsStrictOrderedRing K] in
theorem copy_symm (k : Place M) (p : Half I.G) : (copyEquiv τ).symm (copyOf τ k p) = ⟨(k, p.1), p.2⟩ :=
  (copyEquiv τ).symm_apply_eq.mpr rfl

omit [IsStrictOrderedRing K] in
theorem copy_all (p' : Half I'.G) : ∃ k p, p' = copyOf τ k p := by
  obtain ⟨x, rfl⟩ := (copyEquiv τ).surjective p'
  exact ⟨x.1.1, ⟨x.1.2, x.2⟩, rfl⟩

omit [IsStrictOrderedRing K] in
theorem copy_sum (f : Half I'.G → K) : ∑ p', f p' = ∑ k : Place M, ∑ p : Half I.G, f (copyOf τ k p) := by
  rw [← Equiv.sum_comp (copyEquiv τ), Fintype.sum_sigma, Fintype.sum_prod_type]
  refine Finset.sum_congr rfl fun k _ => ?_
  exact (Fintype.sum_sigma (fun p : Half I.G => f (copyOf τ k p))).symm

theorem ip_copy (h : Stacked I I' lo hi t M σ τ) (s : Sound I) (s' : Sound I') (ht : Tiling I.G) (ht' : Tiling I'.G) (x : Place M × Fin I.G.nc)
    (i j : Fin (I.G.cell x.2).nf) : ipOf I' (σ x) (τ x i) (τ x j) = ipOf I x.2 i j := by
  rw [ipOf_cond, ipOf_cond]
  refine (Mimetic.inner_relabel (I.G.geo x.2) (I'.G.geo (σ x)) (I.Q x.2) (I'.Q (σ x)) (cond I x.2) (cond I' (σ x)) 1 one_ne_zero
    (fun d => (x.1 d).val * (hi d - lo d) + t d) (Equiv.refl _) (τ x)
    (fun i => (h.area x i).trans (by rw [one_pow, one_mul]; rfl)) (h.normal x) (fun i d => (h.face x i d).trans (by rw [one_mul]; rfl))
    (fun d => (h.cell x d).trans (by rw [one_mul]; rfl)) ((h.volume x).trans (by rw [one_pow, one_mul]; rfl)) (h.rock x) (s.basis x.2) (s'.basis (σ x))
    (closed_geo ht x.2) (closed_geo ht' (σ x)) (ht.volume x.2).ne' i j).trans (one_mul _)

omit [IsStrictOrderedRing K] in
theorem nbr_inner (h : Stacked I I' lo hi t M σ τ) (ht : Tiling I.G) (ht' : Tiling I'.G) (k : Place M) (p : Half I.G) (hp : (I.G.face p).nbr ≠ none) :
    (I'.G.face (copyOf τ k p)).nbr ≠ none ∧ twin I'.G (copyOf τ k p) = copyOf τ k (twin I.G p) := by
  have ht1 := (twin_spec ht p hp).1
  have := (twin_iff ht' (copyOf τ k p) (copyOf τ k (twin I.G p))).mp ⟨h.inner k p.1 p.2 _ ht1.1, h.inner k _ _ _ ht1.2⟩
  exact ⟨this.1, this.2.symm⟩

/-- Sides of the faces in terms of the normals. -/
theorem side_normal {G : Grid K} (hb : FillsBox G lo hi side) (p : Half G) (hp : (G.face p).nbr = none) (d : Fin 3) :
    (side (G.bface p) = 2 * d.val ↔ (G.face p).normal d = -1) ∧ (side (G.bface p) = 2 * d.val + 1 ↔ (G.face p).normal d = 1) := by
  have h1 : (1 : K) ≠ -1 := by
    intro e
    have : (0 : K) < 1 := one_pos
    linarith
  have h2 : (0 : K) ≠ -1 := (neg_ne_zero.mpr one_ne_zero).symm
  obtain ⟨e, ⟨x1, -, x3⟩ | ⟨x1, -, x3⟩⟩ := hb.sides p hp <;> rw [x1, x3] <;> beta_reduce <;> by_cases hd : d = e
  · subst hd
    rw [if_pos rfl]
    exact ⟨⟨fun _ => rfl, fun _ => rfl⟩, ⟨fun x => by omega, fun x => absurd x.symm h1⟩⟩
  · rw [if_neg hd]
    have : d.val ≠ e.val := fun x => hd (Fin.ext x)
    exact ⟨⟨fun _ => by omega, fun x => absurd x h2⟩, ⟨fun x => by omega, fun x => absurd x zero_ne_one⟩⟩
  · subst hd
    rw [if_pos rfl]
    exact ⟨⟨fun _ => by omega, fun x => absurd x h1⟩, ⟨fun x => rfl, fun x => rfl⟩⟩
  · rw [if_neg hd]
    have : d.val ≠ e.val := fun x => hd (Fin.ext x)
    exact ⟨⟨fun _ => by omega, fun x => absurd x h2⟩, ⟨fun x => by omega, fun x => absurd x zero_ne_one⟩⟩

theorem side_copy (h : Stacked I I' lo hi t M σ τ) (hb : FillsBox I.G lo hi side) (hb' : FillsBox I'.G lo' hi' side') (k : Place M) (p : Half I.G)
    (hp : (I.G.face p).nbr = none) (hp' : (I'.G.face (copyOf τ k p)).nbr = none) : side' (I'.G.bface (copyOf τ k p)) = side (I.G.bface p) := by
  obtain ⟨e, ⟨x1, -, -⟩ | ⟨x1, -, -⟩⟩ := hb.sides p hp
  · rw [x1]
    refine ((side_normal hb' _ hp' e).1).mpr ((h.normal (k, p.1) p.2 e).trans ?_)
    exact ((side_normal hb p hp e).1).mp x1
  · rw [x1]
    refine ((side_normal hb' _ hp' e).2).mpr ((h.normal (k, p.1) p.2 e).trans ?_)
    exact ((side_normal hb p hp e).2).mp x1

/-- The jump of the pressure over a face of one sample. -/
def jump (G : Grid K) (side : Boundary.Face K → Nat) (d : Fin 3) (p : Half G) : K :=
  if (G.face p).nbr = none then (periodicCnd G side d p).value else 0

/-- Opposite faces of the copies. -/
theorem mate_copy (h : Stacked I I' lo hi t M σ τ) (ht : Tiling I.G) (ht' : Tiling I'.G) (hb : FillsBox I.G lo hi side)
    (hb' : FillsBox I'.G lo' hi' side') (hm : Matching I.G side) (hf' : FaceIds I'.G lo' hi' side') (hm' : Matching I'.G side') (k : Place M) (p : Half I.G) :
    ∃ l : Place M, pmate I'.G side' (copyOf τ k p) = copyOf τ l (pmate I.G side p) ∧
      ((I'.G.face (copyOf τ k p)).nbr = none ↔ (I.G.face p).nbr = none ∧ ∀ d : Fin 3, (side (I.G.bface p) = 2 * d.val → (k d).val = 0) ∧
        (side (I.G.bface p) = 2 * d.val + 1 → (k d).val + 1 = M d)) ∧
      ∀ d, ((l d).val : K) = (k d).val - jump I.G side d p + if (I'.G.face (copyOf τ k p)).nbr = none then M d * jump I.G side d p else 0 := by
  by_cases hp : (I.G.face p).nbr = none
  swap
  · have hp' := nbr_inner h ht ht' k p hp
    refine ⟨k, ?_, ⟨fun x => absurd x hp'.1, fun x => absurd x.1 hp⟩, fun d => ?_⟩
    · unfold pmate
      rw [if_neg hp, if_neg hp'.1, hp'.2]
    · unfold jump
      rw [if_neg hp, if_neg hp'.1]
      ring
  set q := pmate I.G side p with hqdef
  have hi := pmate_image hm p hp
  rw [← hqdef] at hi
  have hq := hi.1
  -- A face on a side of a copy of which the opposite face is in the copy `l`.
  have himage : ∀ l : Place M, (I'.G.face (copyOf τ k p)).nbr = none → (I'.G.face (copyOf τ l q)).nbr = none →
      (∀ e : Fin 3, e.val ≠ side (I.G.bface p) / 2 → l e = k e) → pmate I'.G side' (copyOf τ k p) = copyOf τ l q := by
    intro l n1 n2 hl
    refine image_unique hb' hf' hm' n1 (pmate_image hm' _ n1) ?_
    have s1 := side_copy h hb hb' k p hp n1
    have s2 := side_copy h hb hb' l q hq n2
    refine ⟨n2, by rw [s1, s2]; exact hi.2.1, by rw [s1, s2]; exact hi.2.2.1, ?_, fun e he => ?_⟩
    · exact (h.area (k, p.1) p.2).trans (hi.2.2.2.1.trans (h.area (l, q.1) q.2).symm)
    · rw [s1] at he
      refine (h.face (k, p.1) p.2 e).trans (Eq.trans ?_ (h.face (l, q.1) q.2 e).symm)
      dsimp only
      rw [hl e he]
      exact congrArg (· + _) (hi.2.2.2.2 e he)
  have htwin : ∀ l : Place M, (I'.G.face (copyOf τ k p)).nbr = some (σ (l, q.1)).val → (I'.G.face (copyOf τ l q)).nbr = some (σ (k, p.1)).val →
      pmate I'.G side' (copyOf τ k p) = copyOf τ l q := by
    intro l n1 n2
    unfold pmate
    rw [if_neg (by rw [n1]; simp)]
    exact ((twin_iff ht' _ _).mp ⟨n1, n2⟩).2.symm
  have hj : ∀ d, jump I.G side d p = if side (I.G.bface p) = 2 * d.val then 1 else if side (I.G.bface p) = 2 * d.val + 1 then -1 else 0 := by
    intro d
    unfold jump periodicCnd
    rw [if_pos hp]
  obtain ⟨e, ⟨x1, -, -⟩ | ⟨x1, -, -⟩⟩ := hb.sides p hp
  · -- low side
    have y1 : side (I.G.bface q) = 2 * e.val + 1 := by have := hi.2.1; have := hi.2.2.1; omega
    have np := ((side_normal hb p hp e).1).mp x1
    have nq := ((side_normal hb q hq e).2).mp y1
    have hne : ∀ d : Fin 3, d ≠ e → d.val ≠ e.val := fun d hd x => hd (Fin.ext x)
    have htan : ∀ d, d ≠ e → (I.G.face q).centroid d = (I.G.face p).centroid d := fun d hd =>
      (hi.2.2.2.2 d (by have := hne d hd; omega)).symm
    by_cases h0 : (k e).val = 0
    · have n1 : (I'.G.face (copyOf τ k p)).nbr = none := h.low k p.1 p.2 e hp np h0
      let l : Place M := Function.update k e ⟨M e - 1, by have := (k e).2; omega⟩
      have le : (l e).val + 1 = M e := by
        have := (k e).2
        simp only [l, Function.update_self]
        omega
      have lo_ : ∀ d, d ≠ e → l d = k d := fun d hd => Function.update_of_ne hd _ _
      have n2 : (I'.G.face (copyOf τ l q)).nbr = none := h.high l q.1 q.2 e hq nq le
      refine ⟨l, himage l n1 n2 fun d hd => lo_ d (fun x => hd (by rw [x, x1]; omega)), ⟨fun _ => ⟨hp, fun d => ⟨fun x => ?_, fun x => ?_⟩⟩, fun _ => n1⟩, fun d => ?_⟩
      · obtain rfl : d = e := Fin.ext (by omega)
        exact h0
      · omega
      · rw [if_pos n1, hj, x1]
        by_cases hd : d = e
        · subst hd
          have c1 : ((l d).val : K) + 1 = (M d : K) := by exact_mod_cast le
          rw [if_pos rfl, h0, Nat.cast_zero]
          linear_combination c1
        · have := hne d hd
          rw [if_neg (by omega), if_neg (by omega), lo_ d hd]
          ring
    · let l : Place M := Function.update k e ⟨(k e).val - 1, by have := (k e).2; omega⟩
      have le : (k e).val = (l e).val + 1 := by
        simp only [l, Function.update_self]
        omega
      have lo_ : ∀ d, d ≠ e → l d = k d := fun d hd => Function.update_of_ne hd _ _
      obtain ⟨n2, n1⟩ := h.next l k q.1 q.2 p.1 p.2 e hq nq hp np hi.2.2.2.1.symm htan le fun d hd => (lo_ d hd).symm
      have nn : (I'.G.face (copyOf τ k p)).nbr ≠ none := fun x => by
        have := n1.symm.trans x
        cases this
      refine ⟨l, htwin l n1 n2, ⟨fun x => absurd x nn, fun x => absurd ((x.2 e).1 x1) h0⟩, fun d => ?_⟩
      rw [if_neg nn, hj, x1]
      by_cases hd : d = e
      · subst hd
        rw [if_pos rfl, le]
        push_cast
        ring
      · have := hne d hd
        rw [if_neg (by omega), if_neg (by omega), lo_ d hd]
        ring
  · -- high side
    have y1 : side (I.G.bface q) = 2 * e.val := by have := hi.2.1; have := hi.2.2.1; omega
    have np := ((side_normal hb p hp e).2).mp x1
    have nq := ((side_normal hb q hq e).1).mp y1
    have hne : ∀ d : Fin 3, d ≠ e → d.val ≠ e.val := fun d hd x => hd (Fin.ext x)
    have htan : ∀ d, d ≠ e → (I.G.face p).centroid d = (I.G.face q).centroid d := fun d hd =>
      hi.2.2.2.2 d (by have := hne d hd; omega)
    by_cases h0 : (k e).val + 1 = M e
    · have n1 : (I'.G.face (copyOf τ k p)).nbr = none := h.high k p.1 p.2 e hp np h0
      let l : Place M := Function.update k e ⟨0, by omega⟩
      have le : (l e).val = 0 := by simp only [l, Function.update_self]
      have lo_ : ∀ d, d ≠ e → l d = k d := fun d hd => Function.update_of_ne hd _ _
      have n2 : (I'.G.face (copyOf τ l q)).nbr = none := h.low l q.1 q.2 e hq nq le
      refine ⟨l, himage l n1 n2 fun d hd => lo_ d (fun x => hd (by rw [x, x1]; omega)), ⟨fun _ => ⟨hp, fun d => ⟨fun x => ?_, fun x => ?_⟩⟩, fun _ => n1⟩, fun d => ?_⟩
      · omega
      · obtain rfl : d = e := Fin.ext (by omega)
        exact h0
      · rw [if_pos n1, hj, x1]
        by_cases hd : d = e
        · subst hd
          have c1 : ((k d).val : K) + 1 = (M d : K) := by exact_mod_cast h0
          rw [if_neg (by omega), if_pos rfl, le, Nat.cast_zero]
          linear_combination -c1
        · have := hne d hd
          rw [if_neg (by omega), if_neg (by omega), lo_ d hd]
          ring
    · let l : Place M := Function.update k e ⟨(k e).val + 1, by have := (k e).2; omega⟩
      have le : (l e).val = (k e).val + 1 := by simp only [l, Function.update_self]
      have lo_ : ∀ d, d ≠ e → l d = k d := fun d hd => Function.update_of_ne hd _ _
      obtain ⟨n1, n2⟩ := h.next k l p.1 p.2 q.1 q.2 e hp np hq nq hi.2.2.2.1 htan le lo_
      have nn : (I'.G.face (copyOf τ k p)).nbr ≠ none := fun x => by
        have := n1.symm.trans x
        cases this
      refine ⟨l, htwin l n1 n2, ⟨fun x => absurd x nn, fun x => absurd ((x.2 e).2 x1) h0⟩, fun d => ?_⟩
      rw [if_neg nn, hj, x1]
      by_cases hd : d = e
      · subst hd
        rw [if_neg (by omega), if_pos rfl, le]
        push_cast
        ring
      · have := hne d hd
        rw [if_neg (by omega), if_neg (by omega), lo_ d hd]
        ring

end

end Verif.SinglePhase
