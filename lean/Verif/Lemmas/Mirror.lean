import Verif.Spec.Mirror
import Verif.Props.SinglePhase

/-!
Lemmas for C159: upscaling the mirror image of a sample.
-/

namespace Verif.SinglePhase

variable {K : Type} [Field K] [LinearOrder K] [IsStrictOrderedRing K]

section
variable {I : Input K} {lo hi lo' hi' : Fin 3 → K} {side side' : Boundary.Face K → Nat} {s : Fin 3 → K} {bid : Half I.G → Nat}

omit [LinearOrder K] [IsStrictOrderedRing K] in
theorem sign_sq (h : ∀ k, s k = 1 ∨ s k = -1) (k : Fin 3) : s k * s k = 1 := by
  rcases h k with e | e <;> rw [e] <;> ring

omit [LinearOrder K] [IsStrictOrderedRing K] in
theorem inner_mirror {nf : Nat} (h : ∀ k, s k = 1 ∨ s k = -1) (g g' : Mimetic.Cell K 3 nf) (Q : Fin nf → Fin 3 → K) (P P' : Fin 3 → Fin 3 → K)
    (ha : ∀ i, (g'.face i).area = (g.face i).area) (hn : ∀ i k, (g'.face i).normal k = s k * (g.face i).normal k) (hv : g'.volume = g.volume)
    (hP : ∀ k l, P' k l = s k * s l * P k l) (i j : Fin nf) : Mimetic.inner g' Q P' i j = Mimetic.inner g Q P i j := by
  unfold Mimetic.inner Mimetic.trace Mimetic.second Mimetic.nmat
  simp only [ha, hn, hv, hP, sign_sq h, one_mul]
  congr 2
  refine Finset.sum_congr rfl fun k _ => ?_
  rw [Finset.sum_mul, Finset.sum_mul]
  refine Finset.sum_congr rfl fun l _ => ?_
  linear_combination ((g.face i).normal l * (g.face i).area * P l k * ((g.face j).normal k * (g.face j).area)) * (s l * s l * sign_sq h k + sign_sq h l)

theorem mirror_ip (h : ∀ k, s k = 1 ∨ s k = -1) (c : Fin I.G.nc) (i j : Fin (I.G.cell c).nf) : ipOf (mirror s I bid) c i j = ipOf I c i j := by
  refine (ipOf_cond (mirror s I bid) c i j).trans (Eq.trans ?_ (ipOf_cond I c i j).symm)
  have hP : ∀ k l, SinglePhase.cond (mirror s I bid) c k l = s k * s l * SinglePhase.cond I c k l := fun k l => by
    change (I.mob c).sum * (s k * s l * I.perm c k l) = s k * s l * ((I.mob c).sum * I.perm c k l)
    exact mul_left_comm _ _ _
  exact inner_mirror h (I.G.geo c) ((mirror s I bid).G.geo c) (I.Q c) (SinglePhase.cond I c) (SinglePhase.cond (mirror s I bid) c) (fun _ => rfl)
    (fun _ _ => rfl) rfl hP i j

theorem mirror_tiling (h : ∀ k, s k = 1 ∨ s k = -1) (ht : Tiling I.G) : Tiling (mirror s I bid).G where
  area p := ht.area p
  volume c := ht.volume c
  surface c d := by
    refine Eq.trans ?_ (mul_eq_zero_of_right (s d) (ht.surface c d))
    rw [Finset.mul_sum]
    exact Finset.sum_congr rfl fun i _ => mul_left_comm _ _ _
  closed c d e := by
    have := congrArg (fun x => s d * s e * x) (ht.closed c d e)
    beta_reduce at this
    refine Eq.trans (Eq.trans ?_ this) ?_
    · rw [Finset.mul_sum]
      refine Finset.sum_congr rfl fun i _ => ?_
      change ((I.G.cell c).face i).area * (s d * ((I.G.cell c).face i).normal d) * (s e * ((I.G.cell c).face i).centroid e - s e * (I.G.cell c).centroid e) = _
      ring
    · by_cases hde : d = e
      · subst hde
        rw [if_pos rfl, if_pos rfl, sign_sq h, one_mul]
        rfl
      · rw [if_neg hde, if_neg hde, mul_zero]
  mate p d hp := by
    obtain ⟨q, h1, h2, h3, h4, h5, h6⟩ := ht.mate p d hp
    refine ⟨q, h1, h2, h3, h4, funext fun k => congrArg (s k * ·) (congrFun h5 k), fun k => ?_⟩
    exact (congrArg (s k * ·) (h6 k)).trans (mul_neg _ _)
  once := ht.once
  connected := ht.connected

theorem mirror_sound (h : ∀ k, s k = 1 ∨ s k = -1) (hs : Sound I) : Sound (mirror s I bid) where
  symm c i j := by
    change s i * s j * _ = s j * s i * _
    rw [hs.symm c i j, mul_comm (s i)]
  posdef c := by
    intro v hv
    have := hs.posdef c (fun k => s k * v k) (by
      obtain ⟨k, hk⟩ := hv
      refine ⟨k, mul_ne_zero (fun e => ?_) hk⟩
      have := sign_sq h k
      rw [e, mul_zero] at this
      exact zero_ne_one this)
    refine this.trans_eq ?_
    unfold Mimetic.quadForm
    refine Finset.sum_congr rfl fun i _ => Finset.sum_congr rfl fun j _ => ?_
    change s i * v i * I.perm c i j * (s j * v j) = v i * (s i * s j * I.perm c i j) * v j
    ring
  mob := hs.mob
  basis c := by
    obtain ⟨h1, R, hR⟩ := hs.basis c
    refine ⟨h1, fun k e => s e * R k e, fun i e => ?_⟩
    change (s e * ((I.G.cell c).face i).centroid e - s e * (I.G.cell c).centroid e) * ((I.G.cell c).face i).area = _
    have := congrArg (s e * ·) (hR i e)
    beta_reduce at this
    rw [Finset.mul_sum] at this
    refine Eq.trans ?_ (this.trans (Finset.sum_congr rfl fun k _ => mul_left_comm _ _ _))
    change _ = s e * ((((I.G.cell c).face i).centroid e - (I.G.cell c).centroid e) * ((I.G.cell c).face i).area)
    ring
  sort := hs.sort
  solver := hs.solver
  gravity := hs.gravity

/-- Sides: those of a mirrored direction are exchanged. -/
theorem mirror_side (h : ∀ k, s k = 1 ∨ s k = -1) (hb : FillsBox I.G lo hi side) (hb' : FillsBox (mirror s I bid).G lo' hi' side') (p : Half I.G)
    (hp : (I.G.face p).nbr = none) : ∃ d : Fin 3,
      (side (I.G.bface p) = 2 * d.val ∧ ((s d = 1 ∧ side' ((mirror s I bid).G.bface p) = 2 * d.val ∧ lo' d = lo d) ∨
        (s d = -1 ∧ side' ((mirror s I bid).G.bface p) = 2 * d.val + 1 ∧ hi' d = -lo d))) ∨
      (side (I.G.bface p) = 2 * d.val + 1 ∧ ((s d = 1 ∧ side' ((mirror s I bid).G.bface p) = 2 * d.val + 1 ∧ hi' d = hi d) ∨
        (s d = -1 ∧ side' ((mirror s I bid).G.bface p) = 2 * d.val ∧ lo' d = -hi d))) := by
  obtain ⟨d, hd⟩ := hb.sides p hp
  obtain ⟨e, he⟩ := hb'.sides p hp
  have hn : ∀ k, ((mirror s I bid).G.face p).normal k = s k * (I.G.face p).normal k := fun _ => rfl
  have hf : ∀ k, ((mirror s I bid).G.face p).centroid k = s k * (I.G.face p).centroid k := fun _ => rfl
  have h1 : (1 : K) ≠ -1 := by
    intro e
    have : (0 : K) < 1 := one_pos
    linarith
  have hs0 : s d ≠ 0 := by
    rcases h d with e | e <;> rw [e]
    · exact one_ne_zero
    · exact neg_ne_zero.mpr one_ne_zero
  have e1 := hn d
  have e2 := hf d
  have hde : d = e := by
    by_contra hne
    rcases hd with ⟨-, -, x3⟩ | ⟨-, -, x3⟩ <;> rcases he with ⟨-, -, y3⟩ | ⟨-, -, y3⟩ <;> rw [x3, y3] at e1 <;> beta_reduce at e1 <;>
      rw [if_neg hne, if_pos rfl] at e1 <;> refine hs0 ?_ <;> linarith
  subst hde
  refine ⟨d, ?_⟩
  rcases hd with ⟨x1, x2, x3⟩ | ⟨x1, x2, x3⟩ <;> rcases he with ⟨y1, y2, y3⟩ | ⟨y1, y2, y3⟩ <;> rw [x3, y3] at e1 <;> beta_reduce at e1 <;>
    simp only [↓reduceIte] at e1 <;> rw [x2, y2] at e2
  · have hs1 : s d = 1 := by linarith
    exact Or.inl ⟨x1, Or.inl ⟨hs1, y1, by rw [e2, hs1, one_mul]⟩⟩
  · have hs1 : s d = -1 := by linarith
    exact Or.inl ⟨x1, Or.inr ⟨hs1, y1, by rw [e2, hs1]; ring⟩⟩
  · have hs1 : s d = -1 := by linarith
    exact Or.inr ⟨x1, Or.inr ⟨hs1, y1, by rw [e2, hs1]; ring⟩⟩
  · have hs1 : s d = 1 := by linarith
    exact Or.inr ⟨x1, Or.inl ⟨hs1, y1, by rw [e2, hs1, one_mul]⟩⟩

theorem mirror_side_iff (h : ∀ k, s k = 1 ∨ s k = -1) (hb : FillsBox I.G lo hi side) (hb' : FillsBox (mirror s I bid).G lo' hi' side') (p : Half I.G)
    (hp : (I.G.face p).nbr = none) (d : Fin 3) :
    (s d = 1 → (side' ((mirror s I bid).G.bface p) = 2 * d.val ↔ side (I.G.bface p) = 2 * d.val) ∧
      (side' ((mirror s I bid).G.bface p) = 2 * d.val + 1 ↔ side (I.G.bface p) = 2 * d.val + 1)) ∧
    (s d = -1 → (side' ((mirror s I bid).G.bface p) = 2 * d.val ↔ side (I.G.bface p) = 2 * d.val + 1) ∧
      (side' ((mirror s I bid).G.bface p) = 2 * d.val + 1 ↔ side (I.G.bface p) = 2 * d.val)) := by
  have h1 : (1 : K) ≠ -1 := by
    intro e
    have : (0 : K) < 1 := one_pos
    linarith
  obtain ⟨e, he⟩ := mirror_side h hb hb' p hp
  by_cases hde : e = d
  · subst hde
    rcases he with ⟨x1, ⟨x2, x3, -⟩ | ⟨x2, x3, -⟩⟩ | ⟨x1, ⟨x2, x3, -⟩ | ⟨x2, x3, -⟩⟩ <;> rw [x1, x2, x3] <;>
      refine ⟨fun hs => ?_, fun hs => ?_⟩ <;> first | exact absurd hs h1 | exact absurd hs.symm h1 | (constructor <;> constructor <;> intro k <;> omega)
  · have : e.val ≠ d.val := fun k => hde (Fin.ext k)
    rcases he with ⟨x1, ⟨-, x3, -⟩ | ⟨-, x3, -⟩⟩ | ⟨x1, ⟨-, x3, -⟩ | ⟨-, x3, -⟩⟩ <;> rw [x1, x3] <;>
      refine ⟨fun _ => ?_, fun _ => ?_⟩ <;> constructor <;> constructor <;> intro k <;> omega

theorem mirror_ends (h : ∀ k, s k = 1 ∨ s k = -1) (hb : FillsBox I.G lo hi side) (hb' : FillsBox (mirror s I bid).G lo' hi' side') (d : Fin 3) :
    (s d = 1 → lo' d = lo d ∧ hi' d = hi d) ∧ (s d = -1 → lo' d = -hi d ∧ hi' d = -lo d) := by
  have h1 : (1 : K) ≠ -1 := by
    intro e
    have : (0 : K) < 1 := one_pos
    linarith
  obtain ⟨p, hp, sp⟩ := hb.ne (2 * d.val) (by omega)
  obtain ⟨q, hq, sq⟩ := hb.ne (2 * d.val + 1) (by omega)
  have k1 : (s d = 1 → lo' d = lo d) ∧ (s d = -1 → hi' d = -lo d) := by
    obtain ⟨e, ⟨x1, x2⟩ | ⟨x1, -⟩⟩ := mirror_side h hb hb' p hp
    · obtain rfl : e = d := Fin.ext (by omega)
      rcases x2 with ⟨x2, -, x3⟩ | ⟨x2, -, x3⟩
      · exact ⟨fun _ => x3, fun y => absurd (x2.symm.trans y) h1⟩
      · exact ⟨fun y => absurd (y.symm.trans x2) h1, fun _ => x3⟩
    · omega
  have k2 : (s d = 1 → hi' d = hi d) ∧ (s d = -1 → lo' d = -hi d) := by
    obtain ⟨e, ⟨x1, -⟩ | ⟨x1, x2⟩⟩ := mirror_side h hb hb' q hq
    · omega
    · obtain rfl : e = d := Fin.ext (by omega)
      rcases x2 with ⟨x2, -, x3⟩ | ⟨x2, -, x3⟩
      · exact ⟨fun _ => x3, fun y => absurd (x2.symm.trans y) h1⟩
      · exact ⟨fun y => absurd (y.symm.trans x2) h1, fun _ => x3⟩
  exact ⟨fun y => ⟨k1.1 y, k2.1 y⟩, fun y => ⟨k2.2 y, k1.2 y⟩⟩

theorem mirror_twin (p : Half I.G) : twin (mirror s I bid).G p = twin I.G p := rfl

theorem mirror_mate (h : ∀ k, s k = 1 ∨ s k = -1) (hb : FillsBox I.G lo hi side) (hb' : FillsBox (mirror s I bid).G lo' hi' side') (hs : Suited I lo hi side)
    (hs' : Suited (mirror s I bid) lo' hi' side') (p : Half I.G) : mateOf (mirror s I bid) side' p = mateOf I side p := by
  have hc : (mirror s I bid).bct = I.bct := rfl
  unfold mateOf
  unfold Suited at hs hs'
  rw [hc] at hs' ⊢
  cases hbc : I.bct with
  | fixed => rfl
  | linear => rfl
  | periodic =>
    rw [hbc] at hs hs'
    dsimp only at hs hs' ⊢
    by_cases hp : (I.G.face p).nbr = none
    · refine image_unique (G := (mirror s I bid).G) (p := p) hb' hs'.1 hs'.2.1 hp (pmate_image hs'.2.1 p hp) ?_
      obtain ⟨i1, i2, i3, i4, i5⟩ := pmate_image hs.2.1 p hp
      have sp := mirror_side h hb hb' p hp
      have sq := mirror_side h hb hb' _ i1
      obtain ⟨d, hd⟩ := sp
      obtain ⟨e, he⟩ := sq
      have h1 : (1 : K) ≠ -1 := by
        intro e
        have : (0 : K) < 1 := one_pos
        linarith
      have hde : d = e := by
        refine Fin.ext ?_
        rcases hd with ⟨x1, -⟩ | ⟨x1, -⟩ <;> rcases he with ⟨y1, -⟩ | ⟨y1, -⟩ <;> omega
      subst hde
      have hd2 : side' ((mirror s I bid).G.bface p) / 2 = d.val := by
        rcases hd with ⟨-, ⟨-, x, -⟩ | ⟨-, x, -⟩⟩ | ⟨-, ⟨-, x, -⟩ | ⟨-, x, -⟩⟩ <;> rw [x] <;> omega
      have he2 : side' ((mirror s I bid).G.bface (pmate I.G side p)) / 2 = d.val := by
        rcases he with ⟨-, ⟨-, x, -⟩ | ⟨-, x, -⟩⟩ | ⟨-, ⟨-, x, -⟩ | ⟨-, x, -⟩⟩ <;> rw [x] <;> omega
      have hd1 : side (I.G.bface p) / 2 = d.val := by
        rcases hd with ⟨x, -⟩ | ⟨x, -⟩ <;> rw [x] <;> omega
      refine ⟨i1, hd2.trans he2.symm, ?_, i4, fun k hk => ?_⟩
      · rcases hd with ⟨x1, ⟨x2, x3, -⟩ | ⟨x2, x3, -⟩⟩ | ⟨x1, ⟨x2, x3, -⟩ | ⟨x2, x3, -⟩⟩ <;>
          rcases he with ⟨y1, ⟨y2, y3, -⟩ | ⟨y2, y3, -⟩⟩ | ⟨y1, ⟨y2, y3, -⟩ | ⟨y2, y3, -⟩⟩ <;>
          first | exact absurd (x2.symm.trans y2) h1 | exact absurd (y2.symm.trans x2) h1 | exact absurd (x1.trans y1.symm) i3 | (rw [x3, y3]; omega)
      · exact congrArg (s k * ·) (i5 k (by rw [hd1]; intro e; exact hk (e.trans hd2.symm)))
    · have e1 : pmate (mirror s I bid).G side' p = twin (mirror s I bid).G p := if_neg hp
      have e2 : pmate I.G side p = twin I.G p := if_neg hp
      exact e1.trans e2.symm

theorem mirror_sum (h : ∀ k, s k = 1 ∨ s k = -1) (hb : FillsBox I.G lo hi side) (hb' : FillsBox (mirror s I bid).G lo' hi' side') (f : Half I.G → K)
    (d : Fin 3) :
    (s d = 1 → sideSum (mirror s I bid).G side' f (2 * d.val) = sideSum I.G side f (2 * d.val) ∧
      sideSum (mirror s I bid).G side' f (2 * d.val + 1) = sideSum I.G side f (2 * d.val + 1)) ∧
    (s d = -1 → sideSum (mirror s I bid).G side' f (2 * d.val) = sideSum I.G side f (2 * d.val + 1) ∧
      sideSum (mirror s I bid).G side' f (2 * d.val + 1) = sideSum I.G side f (2 * d.val)) := by
  have key : ∀ a b : Nat, (∀ p, (I.G.face p).nbr = none → (side' ((mirror s I bid).G.bface p) = a ↔ side (I.G.bface p) = b)) →
      sideSum (mirror s I bid).G side' f a = sideSum I.G side f b := by
    intro a b hab
    unfold sideSum
    refine Finset.sum_congr rfl fun (p : Half I.G) _ => ?_
    refine if_congr ?_ rfl rfl
    constructor
    · rintro ⟨k1, k2⟩
      exact ⟨k1, (hab p k1).mp k2⟩
    · rintro ⟨k1, k2⟩
      exact ⟨k1, (hab p k1).mpr k2⟩
  refine ⟨fun k => ⟨key _ _ fun p hp => ?_, key _ _ fun p hp => ?_⟩, fun k => ⟨key _ _ fun p hp => ?_, key _ _ fun p hp => ?_⟩⟩
  · exact ((mirror_side_iff h hb hb' p hp d).1 k).1
  · exact ((mirror_side_iff h hb hb' p hp d).1 k).2
  · exact ((mirror_side_iff h hb hb' p hp d).2 k).1
  · exact ((mirror_side_iff h hb hb' p hp d).2 k).2

theorem mirror_avg (h : ∀ k, s k = 1 ∨ s k = -1) (hb : FillsBox I.G lo hi side) (hb' : FillsBox (mirror s I bid).G lo' hi' side') (f : Half I.G → K)
    (d : Fin 3) : avgVel (mirror s I bid).G side' f d = s d * avgVel I.G side f d := by
  obtain ⟨x1, x2⟩ := mirror_sum h hb hb' f d
  have y1 : s d = 1 → sideArea (mirror s I bid).G side' (2 * d.val) = sideArea I.G side (2 * d.val) ∧
      sideArea (mirror s I bid).G side' (2 * d.val + 1) = sideArea I.G side (2 * d.val + 1) :=
    (mirror_sum h hb hb' (fun p => (I.G.face p).area) d).1
  have y2 : s d = -1 → sideArea (mirror s I bid).G side' (2 * d.val) = sideArea I.G side (2 * d.val + 1) ∧
      sideArea (mirror s I bid).G side' (2 * d.val + 1) = sideArea I.G side (2 * d.val) :=
    (mirror_sum h hb hb' (fun p => (I.G.face p).area) d).2
  unfold avgVel
  rcases h d with k | k
  · rw [(x1 k).1, (x1 k).2, (y1 k).1, (y1 k).2, k, one_mul]
  · rw [(x2 k).1, (x2 k).2, (y2 k).1, (y2 k).2, k]
    ring

end

end Verif.SinglePhase
