import Verif.Props.Stiffness

/-!
Property C73: the average stress of a load case and the upscaled elasticity matrix.
-/

namespace Verif.Elastic

open Spec

variable {K : Type} [Field K] [LinearOrder K] [IsStrictOrderedRing K]

/-- The material of the element writes all of the matrix it is given, and `D` is what it writes. -/
def Writes (m : Material K) (D : Fin 6 → Fin 6 → K) : Prop := ∀ C, ∃ b, m.constitutive false C = some (b, D)

theorem pts_fold (N : Nat) (eps0 : Fin 6 → K) (v : Nat → K) (C : Fin 6 → Fin 6 → K) (pts : List (QP K 6)) (sg : Fin 6 → K)
    (vol : K) :
    pts.foldl (fun t q => (⟨t.C, fun i => t.sigma i + stress v N eps0 q.B t.C i * q.w, t.volume + q.w⟩ : Avg K)) ⟨C, sg, vol⟩ =
      ⟨C, fun i => sg i + (pts.map fun q => stress v N eps0 q.B C i * q.w).sum, vol + (pts.map fun q => q.w).sum⟩ := by
  induction pts generalizing sg vol with
  | nil => simp
  | cons q pts ih =>
    rw [List.foldl_cons, ih]
    simp only [List.map_cons, List.sum_cons, add_assoc]

theorem avg_fold (N : Nat) (eps0 : Fin 6 → K) (D : Elem K → Fin 6 → Fin 6 → K) (els : List (Elem K))
    (hD : ∀ e ∈ els, Writes e.mat (D e)) (s : Avg K) :
    ∃ t, els.foldlM (avgStep N eps0) s = some t ∧
      (∀ i, t.sigma i = s.sigma i + (els.map fun e => (e.pts.map fun q => stress e.v N eps0 q.B (D e) i * q.w).sum).sum) ∧
      t.volume = s.volume + (els.map fun e => (e.pts.map fun q => q.w).sum).sum := by
  induction els generalizing s with
  | nil => exact ⟨s, rfl, by simp, by simp⟩
  | cons e els ih =>
    obtain ⟨b, hb⟩ := hD e (List.mem_cons_self ..) s.C
    have hstep : avgStep N eps0 s e = some ⟨D e, fun i => s.sigma i + (e.pts.map fun q => stress e.v N eps0 q.B (D e) i * q.w).sum,
        s.volume + (e.pts.map fun q => q.w).sum⟩ := by
      unfold avgStep
      rw [hb, Option.map_some, pts_fold]
    obtain ⟨t, h1, h2, h3⟩ := ih (fun e' he => hD e' (List.mem_cons_of_mem _ he))
      ⟨D e, fun i => s.sigma i + (e.pts.map fun q => stress e.v N eps0 q.B (D e) i * q.w).sum,
        s.volume + (e.pts.map fun q => q.w).sum⟩
    refine ⟨t, ?_, ?_, ?_⟩
    · rw [List.foldlM_cons, hstep]
      exact h1
    · intro i
      rw [h2, List.map_cons, List.sum_cons]
      ring
    · rw [h3, List.map_cons, List.sum_cons]
      ring

/-- C73: for load case `m` the result is the volume average of the stress of the total strain (strain of the displacement plus
the unit strain), divided by the scaling of the moduli if there is one. -/
theorem C73_mean (Escale Emin : K) (N : Nat) (C0 : Fin 6 → Fin 6 → K) (sigma0 : Fin 6 → K) (m : Fin 6)
    (D : Elem K → Fin 6 → Fin 6 → K) (els : List (Elem K)) (hD : ∀ e ∈ els, Writes e.mat (D e))
    (hV : (els.map fun e => (e.pts.map fun q => q.w).sum).sum ≠ 0) (hE : 0 < Escale → Emin ≠ 0) :
    ∃ σ, averageStress Escale Emin N C0 sigma0 m els = some σ ∧
      ∀ i, σ i * (if 0 < Escale then Escale / Emin else 1) * (els.map fun e => (e.pts.map fun q => q.w).sum).sum =
        (els.map fun e => (e.pts.map fun q =>
          q.w * ∑ k, D e i k * (mulB q.B N e.v k + if k = m then 1 else 0)).sum).sum := by
  obtain ⟨t, h1, h2, h3⟩ := avg_fold N (unitStrain m.val) D els hD ⟨C0, fun _ => 0, 0⟩
  have hm := m.isLt
  have hnot : ¬(((m.val : Nat) : Int) < 0 ∨ ((m.val : Nat) : Int) > 5) := by omega
  have hvol : t.volume = (els.map fun e => (e.pts.map fun q => q.w).sum).sum := by rw [h3, zero_add]
  have hsig : ∀ i, t.sigma i = (els.map fun e => (e.pts.map fun q =>
          q.w * ∑ k, D e i k * (mulB q.B N e.v k + if k = m then 1 else 0)).sum).sum := by
    intro i
    rw [h2, zero_add]
    congr 1
    apply List.map_congr_left
    intro e _
    congr 1
    apply List.map_congr_left
    intro q _
    unfold stress unitStrain
    rw [mul_comm]
    simp only [Fin.ext_iff]
  unfold averageStress
  rw [if_neg hnot, Int.toNat_natCast, h1]
  dsimp only
  rw [if_neg (by rw [hvol]; exact hV)]
  by_cases hs : Escale > 0
  · rw [if_pos hs, if_neg (hE hs), if_pos hs]
    refine ⟨_, rfl, fun i => ?_⟩
    have : Escale / Emin ≠ 0 := div_ne_zero (ne_of_gt hs) (hE hs)
    rw [← hsig, ← hvol, div_mul_cancel₀ _ this, div_mul_cancel₀ _ (by rw [hvol]; exact hV)]
  · rw [if_neg hs, if_neg hs]
    refine ⟨_, rfl, fun i => ?_⟩
    rw [← hsig, ← hvol, mul_one, div_mul_cancel₀ _ (by rw [hvol]; exact hV)]

/-- C73: a load case outside 0 to 5 leaves the result as it was. -/
theorem C73_loadcase (Escale Emin : K) (N : Nat) (C0 : Fin 6 → Fin 6 → K) (sigma0 : Fin 6 → K) (m : Int)
    (els : List (Elem K)) (h : m < 0 ∨ 5 < m) : averageStress Escale Emin N C0 sigma0 m els = some sigma0 := by
  unfold averageStress
  rw [if_pos (by rcases h with h | h <;> omega)]

/-- C73: in a homogeneous medium, when the mean strain of the displacement vanishes, the result of load case `m` is column
`m` of the elasticity matrix. -/
theorem C73_homogeneous (Emin : K) (N : Nat) (C0 : Fin 6 → Fin 6 → K) (sigma0 : Fin 6 → K) (m : Fin 6)
    (D : Fin 6 → Fin 6 → K) (els : List (Elem K)) (hD : ∀ e ∈ els, Writes e.mat D)
    (hV : (els.map fun e => (e.pts.map fun q => q.w).sum).sum ≠ 0)
    (hmean : ∀ k, (els.map fun e => (e.pts.map fun q => q.w * mulB q.B N e.v k).sum).sum = 0) :
    averageStress 0 Emin N C0 sigma0 m els = some fun i => D i m := by
  obtain ⟨σ, h1, h2⟩ := C73_mean 0 Emin N C0 sigma0 m (fun _ => D) els hD hV (fun h => absurd h (lt_irrefl _))
  rw [h1]
  congr 1
  funext i
  have := h2 i
  rw [if_neg (lt_irrefl _), mul_one] at this
  apply mul_right_cancel₀ hV
  rw [this]
  have e1 : ∀ e : Elem K, (e.pts.map fun q => q.w * ∑ k, D i k * (mulB q.B N e.v k + if k = m then 1 else 0)).sum =
      (∑ k, D i k * (e.pts.map fun q => q.w * mulB q.B N e.v k).sum) + D i m * (e.pts.map fun q => q.w).sum := by
    intro e
    induction e.pts with
    | nil => simp
    | cons q l ih =>
      simp only [List.map_cons, List.sum_cons]
      rw [ih]
      simp only [mul_add, Finset.sum_add_distrib, mul_ite, mul_one, mul_zero, Finset.sum_ite_eq', Finset.mem_univ, if_true]
      have : q.w * ∑ k, D i k * mulB q.B N e.v k = ∑ k, D i k * (q.w * mulB q.B N e.v k) := by
        rw [Finset.mul_sum]
        exact Finset.sum_congr rfl fun k _ => by ring
      rw [this]
      ring
  have e2 : ∀ l : List (Elem K), (l.map fun e =>
      (e.pts.map fun q => q.w * ∑ k, D i k * (mulB q.B N e.v k + if k = m then 1 else 0)).sum).sum =
      (∑ k, D i k * (l.map fun e => (e.pts.map fun q => q.w * mulB q.B N e.v k).sum).sum) +
        D i m * (l.map fun e => (e.pts.map fun q => q.w).sum).sum := by
    intro l
    induction l with
    | nil => simp
    | cons e l ih =>
      simp only [List.map_cons, List.sum_cons]
      rw [ih, e1]
      simp only [mul_add, Finset.sum_add_distrib]
      ring
  rw [e2]
  simp only [hmean, mul_zero, Finset.sum_const_zero, zero_add]

/-- The matrix of an isotropic material is proportional to Young's modulus. -/
theorem iso_scaled (E nu s : K) : (isoC6 (E * s) nu false).2 = fun i j => (isoC6 E nu false).2 i j * s := by
  unfold isoC6
  by_cases h : nu < 0 ∨ nu ≥ 1 / 2
  · rw [if_pos h, if_pos h]
    simp
  · rw [if_neg h, if_neg h]
    funext i j
    dsimp only
    rw [mul_div_right_comm]
    simp only [Bool.false_eq_true, if_false]
    by_cases h1 : i.val < 3 ∧ j.val < 3
    · rw [if_pos h1, if_pos h1]
      by_cases h2 : i = j
      · rw [if_pos h2, if_pos h2]
        ring
      · rw [if_neg h2, if_neg h2]
        ring
    · rw [if_neg h1, if_neg h1]
      by_cases h2 : i = j
      · rw [if_pos h2, if_pos h2]
        ring
      · rw [if_neg h2, if_neg h2]
        ring

theorem iso_writes (E nu rho : K) : Writes (Material.iso E nu rho) (isoC6 E nu false).2 :=
  fun _ => ⟨(isoC6 E nu false).1, rfl⟩

/-- C73: scaling Young's moduli of an isotropic medium by `Escale / Emin` and dividing the stress by it is the same as not
scaling, for the same displacements. -/
theorem C73_scaled (Escale Emin : K) (hs : 0 < Escale) (hm : 0 < Emin) (N : Nat) (C0 : Fin 6 → Fin 6 → K)
    (sigma0 : Fin 6 → K) (m : Fin 6) (cells : List ((K × K × K) × (Nat → K) × List (QP K 6)))
    (hV : (cells.map fun c => (c.2.2.map fun q => q.w).sum).sum ≠ 0) :
    averageStress Escale Emin N C0 sigma0 m
        (cells.map fun c => ⟨.iso (c.1.1 * (Escale / Emin)) c.1.2.1 c.1.2.2, c.2.1, c.2.2⟩) =
      averageStress 0 Emin N C0 sigma0 m (cells.map fun c => ⟨.iso c.1.1 c.1.2.1 c.1.2.2, c.2.1, c.2.2⟩) := by
  have hsne : Escale / Emin ≠ 0 := div_ne_zero hs.ne' hm.ne'
  let D : Elem K → Fin 6 → Fin 6 → K := fun e => match e.mat with
    | .iso E nu _ => (isoC6 E nu false).2
    | _ => fun _ _ => 0
  have hV' : ∀ f : ((K × K × K) × (Nat → K) × List (QP K 6)) → Material K,
      (((cells.map fun c => (⟨f c, c.2.1, c.2.2⟩ : Elem K))).map fun e => (e.pts.map fun q => q.w).sum).sum ≠ 0 := by
    intro f
    rw [List.map_map]
    exact hV
  obtain ⟨σ, h1, h2⟩ := C73_mean Escale Emin N C0 sigma0 m D
    (cells.map fun c => ⟨.iso (c.1.1 * (Escale / Emin)) c.1.2.1 c.1.2.2, c.2.1, c.2.2⟩)
    (by
      intro e he
      obtain ⟨c, -, rfl⟩ := List.mem_map.mp he
      exact iso_writes _ _ _) (hV' _) (fun _ => hm.ne')
  obtain ⟨τ, h3, h4⟩ := C73_mean 0 Emin N C0 sigma0 m D
    (cells.map fun c => ⟨.iso c.1.1 c.1.2.1 c.1.2.2, c.2.1, c.2.2⟩)
    (by
      intro e he
      obtain ⟨c, -, rfl⟩ := List.mem_map.mp he
      exact iso_writes _ _ _) (hV' _) (fun h => absurd h (lt_irrefl _))
  rw [h1, h3]
  congr 1
  funext i
  have g2 := h2 i
  have g4 := h4 i
  rw [if_pos hs] at g2
  rw [if_neg (lt_irrefl _), mul_one] at g4
  simp only [List.map_map, Function.comp_def] at g2 g4
  apply mul_right_cancel₀ (mul_ne_zero hsne hV)
  rw [← mul_assoc, g2]
  have : τ i * (Escale / Emin * (cells.map fun c => (c.2.2.map fun q => q.w).sum).sum) =
      τ i * (cells.map fun c => (c.2.2.map fun q => q.w).sum).sum * (Escale / Emin) := by ring
  rw [this, g4, ← List.sum_map_mul_right]
  congr 1
  apply List.map_congr_left
  intro c _
  rw [← List.sum_map_mul_right]
  congr 1
  apply List.map_congr_left
  intro q _
  rw [mul_assoc, Finset.sum_mul]
  congr 1
  apply Finset.sum_congr rfl
  intro k _
  show (isoC6 (c.1.1 * (Escale / Emin)) c.1.2.1 false).2 i k * _ = (isoC6 c.1.1 c.1.2.1 false).2 i k * _ * _
  rw [iso_scaled]
  ring

/-! ### The upscaled matrix -/

/-- A medium: one material and its quadrature points per element. -/
abbrev Medium (K : Type) := List (Material K × List (QP K 6))

/-- The medium with displacements `u k` of element `k`. -/
def withDisp (M : Medium K) (u : Nat → Nat → K) : List (Elem K) := M.zipIdx.map fun p => ⟨p.1.1, u p.2, p.1.2⟩

/-- Total volume. -/
def mvol (M : Medium K) : K := (M.map fun p => (p.2.map fun q => q.w).sum).sum

/-- All quadrature points, with the number and the elasticity matrix of their element. -/
def allPts (D : Material K → Fin 6 → Fin 6 → K) (M : Medium K) : List (Nat × (Fin 6 → Fin 6 → K) × QP K 6) :=
  M.zipIdx.flatMap fun p => p.1.2.map fun q => (p.2, D p.1.1, q)

/-- Energy product of two strain fields. -/
def eprod (P : List (Nat × (Fin 6 → Fin 6 → K) × QP K 6)) (s t : Nat × (Fin 6 → Fin 6 → K) × QP K 6 → Fin 6 → K) : K :=
  (P.map fun p => p.2.2.w * ∑ i, s p i * ∑ k, p.2.1 i k * t p k).sum

theorem eprod_add_left (P : List (Nat × (Fin 6 → Fin 6 → K) × QP K 6))
    (s s' t : Nat × (Fin 6 → Fin 6 → K) × QP K 6 → Fin 6 → K) :
    eprod P (fun p i => s p i + s' p i) t = eprod P s t + eprod P s' t := by
  unfold eprod
  rw [← List.sum_map_add]
  congr 1
  apply List.map_congr_left
  intro p _
  rw [← mul_add, ← Finset.sum_add_distrib]
  congr 1
  exact Finset.sum_congr rfl fun i _ => by ring

theorem eprod_smul_left (P : List (Nat × (Fin 6 → Fin 6 → K) × QP K 6)) (c : K)
    (s t : Nat × (Fin 6 → Fin 6 → K) × QP K 6 → Fin 6 → K) :
    eprod P (fun p i => c * s p i) t = c * eprod P s t := by
  unfold eprod
  rw [← List.sum_map_mul_left]
  congr 1
  apply List.map_congr_left
  intro p _
  rw [Finset.mul_sum, Finset.mul_sum, Finset.mul_sum]
  exact Finset.sum_congr rfl fun i _ => by ring

theorem eprod_symm (P : List (Nat × (Fin 6 → Fin 6 → K) × QP K 6)) (hP : ∀ p ∈ P, ∀ i k, p.2.1 i k = p.2.1 k i)
    (s t : Nat × (Fin 6 → Fin 6 → K) × QP K 6 → Fin 6 → K) : eprod P s t = eprod P t s := by
  unfold eprod
  congr 1
  apply List.map_congr_left
  intro p hp
  congr 1
  simp only [Finset.mul_sum]
  rw [Finset.sum_comm]
  apply Finset.sum_congr rfl
  intro i _
  apply Finset.sum_congr rfl
  intro k _
  rw [hP p hp k i]
  ring

theorem eprod_zero_left (P : List (Nat × (Fin 6 → Fin 6 → K) × QP K 6))
    (t : Nat × (Fin 6 → Fin 6 → K) × QP K 6 → Fin 6 → K) : eprod P (fun _ _ => 0) t = 0 := by
  unfold eprod
  simp

theorem eprod_sum_left (P : List (Nat × (Fin 6 → Fin 6 → K) × QP K 6)) (S : Finset (Fin 6)) (x : Fin 6 → K)
    (s : Fin 6 → Nat × (Fin 6 → Fin 6 → K) × QP K 6 → Fin 6 → K) (t : Nat × (Fin 6 → Fin 6 → K) × QP K 6 → Fin 6 → K) :
    eprod P (fun p i => ∑ m ∈ S, x m * s m p i) t = ∑ m ∈ S, x m * eprod P (s m) t := by
  classical
  induction S using Finset.induction_on with
  | empty => simp [eprod_zero_left]
  | insert a S ha ih =>
    rw [Finset.sum_insert ha, ← ih, ← eprod_smul_left, ← eprod_add_left]
    congr 1
    funext p i
    rw [Finset.sum_insert ha]

theorem eprod_nonneg (P : List (Nat × (Fin 6 → Fin 6 → K) × QP K 6)) (hw : ∀ p ∈ P, 0 ≤ p.2.2.w)
    (hP : ∀ p ∈ P, ∀ e : Fin 6 → K, 0 ≤ ∑ i, e i * ∑ k, p.2.1 i k * e k)
    (s : Nat × (Fin 6 → Fin 6 → K) × QP K 6 → Fin 6 → K) : 0 ≤ eprod P s s := by
  unfold eprod
  apply List.sum_nonneg
  intro x hx
  obtain ⟨p, hp, rfl⟩ := List.mem_map.mp hx
  exact mul_nonneg (hw p hp) (hP p hp _)

theorem allPts_sum (D : Material K → Fin 6 → Fin 6 → K) (M : Medium K)
    (F : Nat × (Fin 6 → Fin 6 → K) × QP K 6 → K) :
    ((allPts D M).map F).sum = (M.zipIdx.map fun p => (p.1.2.map fun q => F (p.2, D p.1.1, q)).sum).sum := by
  unfold allPts
  generalize M.zipIdx = l
  induction l with
  | nil => rfl
  | cons p l ih =>
    rw [List.flatMap_cons, List.map_append, List.sum_append, ih, List.map_cons, List.sum_cons, List.map_map]
    rfl

theorem zipIdx_vol (M : Medium K) : (M.zipIdx.map fun p => (p.1.2.map fun q => q.w).sum).sum = mvol M := by
  have : (M.zipIdx.map fun p => (p.1.2.map fun q => q.w).sum) = M.map fun p => (p.2.map fun q => q.w).sum := by
    have h : M.map (fun p => (p.2.map fun q => q.w).sum) =
        (M.zipIdx.map Prod.fst).map (fun p => (p.2.map fun q => q.w).sum) := by rw [List.zipIdx_map_fst]
    rw [h, List.map_map]
    rfl
  unfold mvol
  rw [this]

/-- Equilibrium: for all load cases `n`, `m` the displacement of case `n` does no work against the residual forces of case
`m` (element matrices times displacements minus load vectors). -/
def Equilibrium (D : Material K → Fin 6 → Fin 6 → K) (M : Medium K) (N : Nat) (u : Fin 6 → Nat → Nat → K) : Prop :=
  ∀ n m : Fin 6, (M.zipIdx.map fun p => ∑ a ∈ Finset.range N, u n p.2 a *
    ((∑ b ∈ Finset.range N, elemK (D p.1.1) p.1.2 a b * u m p.2 b) -
      elemLoad (D p.1.1) (unitStrain m.val) p.1.2 a)).sum = 0

/-- Strain field of a load case. -/
def fieldOf (N : Nat) (u : Fin 6 → Nat → Nat → K) (m : Fin 6) (p : Nat × (Fin 6 → Fin 6 → K) × QP K 6) (i : Fin 6) : K :=
  mulB p.2.2.B N (u m p.1) i

/-- Unit strain field. -/
def unitField (m : Fin 6) (_ : Nat × (Fin 6 → Fin 6 → K) × QP K 6) (i : Fin 6) : K := if i = m then 1 else 0

theorem equilibrium_eprod (D : Material K → Fin 6 → Fin 6 → K) (M : Medium K) (N : Nat) (u : Fin 6 → Nat → Nat → K)
    (h : Equilibrium D M N u) (n m : Fin 6) :
    eprod (allPts D M) (fieldOf N u n) (fun p i => fieldOf N u m p i + unitField m p i) = 0 := by
  have := h n m
  rw [← this]
  unfold eprod
  rw [allPts_sum]
  congr 1
  apply List.map_congr_left
  intro p _
  have e1 : ∑ a ∈ Finset.range N, u n p.2 a * ((∑ b ∈ Finset.range N, elemK (D p.1.1) p.1.2 a b * u m p.2 b) -
      elemLoad (D p.1.1) (unitStrain m.val) p.1.2 a) =
      (∑ a ∈ Finset.range N, u n p.2 a * ∑ b ∈ Finset.range N, elemK (D p.1.1) p.1.2 a b * u m p.2 b) -
      ∑ a ∈ Finset.range N, u n p.2 a * elemLoad (D p.1.1) (unitStrain m.val) p.1.2 a := by
    rw [← Finset.sum_sub_distrib]
    exact Finset.sum_congr rfl fun a _ => by ring
  rw [e1, C49_energy, C49_load_work, sub_neg_eq_add, ← List.sum_map_add]
  congr 1
  apply List.map_congr_left
  intro q _
  rw [← mul_add, ← Finset.sum_add_distrib]
  congr 1
  apply Finset.sum_congr rfl
  intro i _
  rw [← mul_add, ← Finset.sum_add_distrib]
  congr 1
  apply Finset.sum_congr rfl
  intro k _
  unfold unitField unitStrain
  simp only [Fin.ext_iff]
  rw [← mul_add]
  rfl

/-- The average stress in terms of the energy product. -/
theorem average_eprod (D : Material K → Fin 6 → Fin 6 → K) (M : Medium K) (hD : ∀ p ∈ M, Writes p.1 (D p.1)) (hV : mvol M ≠ 0)
    (Emin : K) (N : Nat) (C0 : Fin 6 → Fin 6 → K) (sigma0 : Fin 6 → K) (u : Fin 6 → Nat → Nat → K) (m : Fin 6) :
    ∃ σ, averageStress 0 Emin N C0 sigma0 m (withDisp M (u m)) = some σ ∧
      ∀ n, σ n * mvol M = eprod (allPts D M) (unitField n) (fun p i => fieldOf N u m p i + unitField m p i) := by
  have hvol : ((withDisp M (u m)).map fun e => (e.pts.map fun q => q.w).sum).sum = mvol M := by
    unfold withDisp
    rw [List.map_map, ← zipIdx_vol]
    rfl
  obtain ⟨σ, h1, h2⟩ := C73_mean 0 Emin N C0 sigma0 m (fun e => D e.mat) (withDisp M (u m))
    (by
      intro e he
      obtain ⟨p, hp, rfl⟩ := List.mem_map.mp he
      exact hD p.1 (List.fst_mem_of_mem_zipIdx hp))
    (by rw [hvol]; exact hV) (fun h => absurd h (lt_irrefl _))
  refine ⟨σ, h1, fun n => ?_⟩
  have := h2 n
  rw [if_neg (lt_irrefl _), mul_one, hvol] at this
  rw [this]
  unfold eprod
  rw [allPts_sum]
  unfold withDisp
  rw [List.map_map]
  congr 1
  apply List.map_congr_left
  intro p _
  show (p.1.2.map _).sum = _
  congr 1
  apply List.map_congr_left
  intro q _
  congr 1
  simp only [unitField, ite_mul, one_mul, zero_mul, Finset.sum_ite_eq', Finset.mem_univ, if_true]
  rfl

/-- C73: when the displacements of the six load cases are in equilibrium, the matrix of average stresses of a medium of
symmetric, positive semidefinite materials is symmetric and positive semidefinite, and never exceeds the volume average
of the elasticity matrices (Voigt's bound). -/
theorem C73_effective (D : Material K → Fin 6 → Fin 6 → K) (M : Medium K) (hD : ∀ p ∈ M, Writes p.1 (D p.1))
    (hsym : ∀ p ∈ M, ∀ i k, D p.1 i k = D p.1 k i)
    (hpsd : ∀ p ∈ M, ∀ e : Fin 6 → K, 0 ≤ ∑ i, e i * ∑ k, D p.1 i k * e k)
    (hw : ∀ p ∈ M, ∀ q ∈ p.2, 0 ≤ q.w) (hV : 0 < mvol M)
    (Emin : K) (N : Nat) (C0 : Fin 6 → Fin 6 → K) (sigma0 : Fin 6 → K) (u : Fin 6 → Nat → Nat → K)
    (heq : Equilibrium D M N u) :
    ∃ S : Fin 6 → Fin 6 → K, (∀ m : Fin 6, averageStress 0 Emin N C0 sigma0 m (withDisp M (u m)) = some (S m)) ∧
      (∀ m n, S m n = S n m) ∧ (∀ x : Fin 6 → K, 0 ≤ ∑ m, x m * ∑ n, S m n * x n) ∧
      ∀ x : Fin 6 → K, mvol M * ∑ m, x m * ∑ n, S m n * x n ≤
        (M.map fun p => (p.2.map fun q => q.w).sum * ∑ i, x i * ∑ k, D p.1 i k * x k).sum := by
  have hmem : ∀ p ∈ allPts D M, ∃ r ∈ M, ∃ q ∈ r.2, p.2 = (D r.1, q) := by
    intro p hp
    obtain ⟨r, hr, hp⟩ := List.mem_flatMap.mp hp
    obtain ⟨q, hq, rfl⟩ := List.mem_map.mp hp
    exact ⟨r.1, List.fst_mem_of_mem_zipIdx hr, q, hq, rfl⟩
  have hS : ∀ p ∈ allPts D M, ∀ i k, p.2.1 i k = p.2.1 k i := by
    intro p hp
    obtain ⟨r, hr, q, hq, he⟩ := hmem p hp
    rw [he]
    exact hsym r hr
  have hw' : ∀ p ∈ allPts D M, 0 ≤ p.2.2.w := by
    intro p hp
    obtain ⟨r, hr, q, hq, he⟩ := hmem p hp
    rw [he]
    exact hw r hr q hq
  have hpsd' : ∀ p ∈ allPts D M, ∀ e : Fin 6 → K, 0 ≤ ∑ i, e i * ∑ k, p.2.1 i k * e k := by
    intro p hp
    obtain ⟨r, hr, q, hq, he⟩ := hmem p hp
    rw [he]
    exact hpsd r hr
  choose S hS1 hS2 using average_eprod D M hD hV.ne' Emin N C0 sigma0 u
  -- total strain fields
  let T : Fin 6 → Nat × (Fin 6 → Fin 6 → K) × QP K 6 → Fin 6 → K := fun m p i => fieldOf N u m p i + unitField m p i
  have hU : ∀ m n, S m n * mvol M = eprod (allPts D M) (T n) (T m) := by
    intro m n
    rw [hS2]
    show _ = eprod _ (fun p i => fieldOf N u n p i + unitField n p i) _
    rw [eprod_add_left, equilibrium_eprod D M N u heq n m, zero_add]
  have hquad : ∀ x : Fin 6 → K, mvol M * ∑ m, x m * ∑ n, S m n * x n =
      eprod (allPts D M) (fun p i => ∑ m, x m * T m p i) (fun p i => ∑ m, x m * T m p i) := by
    intro x
    rw [eprod_sum_left, Finset.mul_sum]
    apply Finset.sum_congr rfl
    intro m _
    rw [eprod_symm _ hS, eprod_sum_left, Finset.mul_sum, Finset.mul_sum, Finset.mul_sum]
    apply Finset.sum_congr rfl
    intro n _
    rw [← hU m n]
    ring
  refine ⟨S, hS1, ?_, ?_, ?_⟩
  · intro m n
    apply mul_right_cancel₀ hV.ne'
    rw [hU, hU, eprod_symm _ hS]
  · intro x
    have h := eprod_nonneg (allPts D M) hw' hpsd' (fun p i => ∑ m, x m * T m p i)
    rw [← hquad] at h
    exact nonneg_of_mul_nonneg_right h hV
  · intro x
    let X : Nat × (Fin 6 → Fin 6 → K) × QP K 6 → Fin 6 → K := fun _ i => x i
    let W : Nat × (Fin 6 → Fin 6 → K) × QP K 6 → Fin 6 → K := fun p i => ∑ m, x m * fieldOf N u m p i
    have hsplit : (fun (p : Nat × (Fin 6 → Fin 6 → K) × QP K 6) (i : Fin 6) => ∑ m, x m * T m p i) = fun p i => W p i + X p i := by
      funext p i
      show ∑ m, x m * (fieldOf N u m p i + unitField m p i) = (∑ m, x m * fieldOf N u m p i) + x i
      simp only [mul_add, Finset.sum_add_distrib]
      congr 1
      simp [unitField]
    have hres : eprod (allPts D M) W (fun p i => W p i + X p i) = 0 := by
      show eprod (allPts D M) (fun p i => ∑ m, x m * fieldOf N u m p i) _ = 0
      rw [eprod_sum_left]
      apply Finset.sum_eq_zero
      intro n _
      rw [← hsplit, eprod_symm _ hS, eprod_sum_left]
      rw [Finset.sum_eq_zero, mul_zero]
      intro m _
      rw [eprod_symm _ hS, equilibrium_eprod D M N u heq n m, mul_zero]
    have hVoigt : (M.map fun p => (p.2.map fun q => q.w).sum * ∑ i, x i * ∑ k, D p.1 i k * x k).sum =
        eprod (allPts D M) X X := by
      unfold eprod
      rw [allPts_sum]
      have h : M.map (fun p => (p.2.map fun q => q.w).sum * ∑ i, x i * ∑ k, D p.1 i k * x k) =
          (M.zipIdx.map Prod.fst).map (fun p => (p.2.map fun q => q.w).sum * ∑ i, x i * ∑ k, D p.1 i k * x k) := by
        rw [List.zipIdx_map_fst]
      rw [h, List.map_map]
      congr 1
      apply List.map_congr_left
      intro p _
      show _ = (p.1.2.map fun q => q.w * ∑ i, x i * ∑ k, D p.1.1 i k * x k).sum
      rw [List.sum_map_mul_right]
      rfl
    rw [hquad, hVoigt, hsplit, eprod_add_left, hres, zero_add, eprod_symm _ hS, eprod_add_left]
    have hWW := eprod_nonneg (allPts D M) hw' hpsd' W
    have hres2 : eprod (allPts D M) W W + eprod (allPts D M) W X = 0 := by
      rw [eprod_symm _ hS W X, ← eprod_add_left, eprod_symm _ hS]
      exact hres
    linarith

/-- The hypotheses are met by a chain of two different elements with the displacement 1/2 in the first load case; the result
is the harmonic mean 3/2 of the moduli 1 and 3. -/
def chainMedium : Medium ℚ :=
  [(.iso 1 0 0, [⟨1, fun i _ => if i = 0 then 1 else 0⟩]), (.iso 3 0 0, [⟨1, fun i _ => if i = 0 then -1 else 0⟩])]

/-- Displacements of the chain. -/
def chainDisp (m : Fin 6) (_ _ : Nat) : ℚ := if m = 0 then 1 / 2 else 0

/-- Elasticity matrix of a material of the chain. -/
def chainD : Material ℚ → Fin 6 → Fin 6 → ℚ
  | .iso E nu _ => (isoC6 E nu false).2
  | _ => fun _ _ => 0

example : Equilibrium chainD chainMedium 1 chainDisp ∧ (∀ p ∈ chainMedium, Writes p.1 (chainD p.1)) ∧
    (averageStress 0 1 1 (fun _ _ => 0) (fun _ => 0) 0 (withDisp chainMedium (chainDisp 0))).map (fun s => decide (s 0 = 3 / 2)) =
      some true := by
  refine ⟨?_, ?_, by decide +kernel⟩
  · unfold Equilibrium
    decide +kernel
  · intro p hp
    rcases List.mem_cons.mp hp with rfl | hp
    · exact iso_writes _ _ _
    · rcases List.mem_cons.mp hp with rfl | hp
      · exact iso_writes _ _ _
      · exact absurd hp (List.not_mem_nil)

/-- The matrix passed in survives outside the diagonal for `OrthotropicD`, so the average stress depends on what the
previous element (or, for the first one, uninitialised memory) left there. -/
theorem C73_violated_stale : ∃ (els : List (Elem ℚ)) (C0 C0' : Fin 6 → Fin 6 → ℚ),
    averageStress 0 1 3 C0 (fun _ => 0) 0 els ≠ averageStress 0 1 3 C0' (fun _ => 0) 0 els ∧
    ((averageStress 0 1 3 C0 (fun _ => 0) 0 els).isSome = true) := by
  refine ⟨[⟨mkOrthoD 1 1 1 1 1 1, fun _ => 0, [⟨1, fun _ _ => 0⟩]⟩], fun _ _ => 0, fun _ _ => 1, ?_, by decide +kernel⟩
  intro h
  have := congrArg (Option.map fun s => decide (s 1 = 0)) h
  revert this
  decide +kernel

end Verif.Elastic
