import Verif.Spec.ResistChain
import Verif.Props.Resistivity
import Verif.Props.RelPermChainAniso

/-!
C148: upscaled resistivity lies between means of the cells' resistivities and falls with saturation.
-/

namespace Verif.ResistChain

open Verif.Dense Verif.Control Verif.SinglePhase Verif.Resist Verif.Resist.Spec Verif.Upscale

open Verif.RelPermChain (ofVoigt)

variable {K : Type} [Field K] [LinearOrder K] [IsStrictOrderedRing K]

section lemmas
variable {J : Job K} {lo hi : Fin 3 → K} {side : Boundary.Face K → Nat}

/-- The job as one of the capillary limit; cell data does not matter. -/
def base (J : Job K) : RelPermChain.Job K where
  S := ⟨[], fun _ => 0, fun _ => 0, fun _ => 0, fun _ => 0, [], false, fun _ => ⟨[], fun _ => 0⟩, fun _ => ⟨[], fun _ => 0⟩, id⟩
  I := J.I
  permy := fun _ => 0
  permz := fun _ => 0
  contrast := 1
  minPerm := 1
  invert := J.invert

theorem base_ready (h : Ready J lo hi side) : RelPermChain.Ready (base J) lo hi side :=
  ⟨h.tiling, h.box, h.suited, h.basis, h.sort, h.solver, h.gravity, fun A M h1 h2 => (h.invert A M h1 h2).1⟩

omit [LinearOrder K] [IsStrictOrderedRing K] in
/-- The list of conductivities as a function of the number of the cell. -/
theorem indexed (R : List K) :
    ((R.map (1 / ·)).map fun k (_ : Fin 3) => k) = (List.range R.length).map fun i (_ : Fin 3) => 1 / R.getD i 0 := by
  apply List.ext_getElem
  · simp
  · intro i h1 h2
    have hi : i < R.length := by simpa using h1
    simp [List.getD_eq_getElem?_getD, List.getElem?_eq_getElem hi]

theorem getD_pos {R : List K} (hR : ∀ r ∈ R, 0 < r) {i : Nat} (hi : i < R.length) : 0 < R.getD i 0 := by
  rw [List.getD_eq_getElem?_getD, List.getElem?_eq_getElem hi]
  exact hR _ (List.getElem_mem hi)

/-- The permeabilities in the grid. -/
theorem perm_eq (R : List K) (hl : R.length = J.I.G.nc) (c : Fin J.I.G.nc) :
    (RelPermChain.setPerms J.I ((R.map (1 / ·)).map fun k (_ : Fin 3) => k)).perm c = fun i j => if i = j then 1 / R.getD c.val 0 else 0 := by
  have hc : c.val < R.length := by rw [hl]; exact c.2
  have e := (RelPermChain.setPerms_perm J.I (List.range R.length) (fun i (_ : Fin 3) => 1 / R.getD i 0) (by rw [List.length_range]; exact hl) c).2
  rw [indexed, e]
  have : (List.range R.length).getD c.val 0 = c.val := by
    rw [List.getD_eq_getElem?_getD, List.getElem?_range hc, Option.getD_some]
  rw [this]

theorem sound (h : Ready J lo hi side) (R : List K) (hl : R.length = J.I.G.nc) (hR : ∀ r ∈ R, 0 < r) :
    Sound (tracer (RelPermChain.setPerms J.I ((R.map (1 / ·)).map fun k (_ : Fin 3) => k))) := by
  rw [indexed]
  exact RelPermChain.ready_sound (base_ready h) (List.range R.length) _ (by rw [List.length_range]; exact hl)
    fun c hc _ => one_div_pos.mpr (getD_pos hR (List.mem_range.mp hc))

/-- The inverse of the conductivities of the cells. -/
theorem inv_diag (R : List K) (hl : R.length = J.I.G.nc) (hR : ∀ r ∈ R, 0 < r) (c : Fin J.I.G.nc) (i j : Fin 3) :
    ∑ k, (RelPermChain.setPerms J.I ((R.map (1 / ·)).map fun k (_ : Fin 3) => k)).perm c i k * (if k = j then R.getD c.val 0 else 0) =
      if i = j then 1 else 0 := by
  rw [perm_eq R hl c]
  have hp : R.getD c.val 0 ≠ 0 := (getD_pos hR (by rw [hl]; exact c.2)).ne'
  rw [Finset.sum_eq_single i]
  · dsimp only
    rw [if_pos rfl]
    by_cases e : i = j
    · rw [if_pos e, if_pos e, one_div, inv_mul_cancel₀ hp]
    · rw [if_neg e, if_neg e, mul_zero]
  · intro k _ hk
    dsimp only
    rw [if_neg (Ne.symm hk), zero_mul]
  · intro hk; exact absurd (Finset.mem_univ i) hk

/-- The entries that are printed. -/
theorem entries (h : Ready J lo hi side) (T : Fin 3 → Fin 3 → K) (hT : Mimetic.PosDef T) :
    ∃ S : Fin 3 → Fin 3 → K, Matrix.of S = (Matrix.of T)⁻¹ ∧
      (((List.range 3).mapM fun (v : Nat) => getVoigtValue (J.invert (RelPermChain.tensor T)) (v : Int)) = some [S 0 0, S 1 1, S 2 2]) ∧
      (((List.range 9).mapM fun (v : Nat) => getVoigtValue (J.invert (RelPermChain.tensor T)) (v : Int)) =
        some [S 0 0, S 1 1, S 2 2, S 1 2, S 0 2, S 0 1, S 2 1, S 2 0, S 1 0]) := by
  obtain ⟨hr, ho⟩ := h.invert _ _ (RelPermChain.tensor_rep T) (RelPermChain.unit_posdef T hT)
  refine ⟨fun i j => (Matrix.of T)⁻¹ i j, rfl, ?_⟩
  have ht : IsTensor (J.invert (RelPermChain.tensor T)) := ⟨ho, hr.rows_eq, hr.cols_eq, hr.size_eq⟩
  have key := (C24_get _ ht).1
  have e : ∀ (v : Nat) (i j : Fin 3), Verif.Spec.voigtComponents[v]? = some (i.val, j.val) →
      getVoigtValue (J.invert (RelPermChain.tensor T)) (v : Int) = some ((Matrix.of T)⁻¹ i j) := fun v i j hv => by
    rw [(key v _ hv).2]
    exact hr.entry i j
  constructor
  · simp only [List.range, List.range.loop, List.mapM_cons, List.mapM_nil, e 0 0 0 rfl, e 1 1 1 rfl, e 2 2 2 rfl]
    rfl
  · simp only [List.range, List.range.loop, List.mapM_cons, List.mapM_nil, e 0 0 0 rfl, e 1 1 1 rfl, e 2 2 2 rfl, e 3 1 2 rfl, e 4 0 2 rfl, e 5 0 1 rfl,
      e 6 2 1 rfl, e 7 2 0 rfl, e 8 1 0 rfl]
    rfl

/-- What is computed in the cells at a pressure. -/
theorem cells_at (hv : Valid J) (p : K) : ∃ R w, Resistivities J p R ∧ R.length = J.I.G.nc ∧ (∀ r ∈ R, 0 < r ∧ r ≤ max J.O.cutoff J.O.mud) ∧ MeanSat J p w ∧
    (∃ v, compute J.O J.curves J.cells p = some (R.map (1 / ·), v) ∧ quot v (totalPorev J.cells) = some w) := by
  obtain ⟨R, h1, h2⟩ := C111_point J.O hv.options J.curves J.cells hv.checked p
  have hpv : 0 < poreVolume J.cells := poreVolume_pos J.O J.curves J.cells hv.checked hv.rock
  refine ⟨R, ((rocks J.cells).map fun c => saturation J.O J.curves p c * (c.vol * c.poro)).sum / poreVolume J.cells, h1.imp fun _ _ h => h.1,
    by rw [← h1.length_eq]; exact hv.cells, ?_, ?_, _, h2, ?_⟩
  · intro r hr
    obtain ⟨i, hi⟩ := List.mem_iff_getElem?.mp hr
    obtain ⟨hi', rfl⟩ := List.getElem?_eq_some_iff.mp hi
    obtain ⟨k1, k2, k3⟩ := h1.get (by rw [h1.length_eq]; exact hi') hi'
    refine ⟨k2, ?_⟩
    by_cases hm : isMud J.O (J.cells.get ⟨i, by rw [h1.length_eq]; exact hi'⟩)
    · exact (k1.mud hm).le.trans (le_max_right _ _)
    · exact (k3 hm).trans (le_max_left _ _)
  · unfold MeanSat
    rw [div_mul_cancel₀ _ hpv.ne']
  · rw [total_eq]
    unfold quot
    rw [if_neg hpv.ne']

/-- The point in terms of the resistivities. -/
theorem point_of (hv : Valid J) {p : K} {R : List K} {w v : K} (h1 : compute J.O J.curves J.cells p = some (R.map (1 / ·), v))
    (h2 : quot v (totalPorev J.cells) = some w) {b : Boundary.BCs K} {T : Fin 3 → Fin 3 → K} (hT : conductivity J (R.map (1 / ·)) b = some T) {l : List K}
    (hl : ((List.range (elements J.I.bct)).mapM fun (v : Nat) => getVoigtValue (J.invert (RelPermChain.tensor T)) (v : Int)) = some l) :
    point J p b = some (w, l) := by
  unfold point
  rw [h1, Option.bind_some, hT, Option.bind_some, h2, Option.bind_some, hl]
  rfl

theorem mul_inverse (T S : Fin 3 → Fin 3 → K) (hT : Mimetic.PosDef T) (hS : Matrix.of S = (Matrix.of T)⁻¹) :
    (∀ i j, ∑ k, T i k * S k j = if i = j then 1 else 0) ∧ ∀ i j, ∑ k, S i k * T k j = if i = j then 1 else 0 := by
  have hu := (Matrix.isUnit_iff_isUnit_det _).mp (RelPermChain.unit_posdef T hT)
  constructor
  · intro i j
    have := congrFun (congrFun (Matrix.mul_nonsing_inv _ hu) i) j
    rw [← hS, Matrix.mul_apply, Matrix.one_apply] at this
    exact this
  · intro i j
    have := congrFun (congrFun (Matrix.nonsing_inv_mul _ hu) i) j
    rw [← hS, Matrix.mul_apply, Matrix.one_apply] at this
    exact this

/-- A mean of numbers up to a bound. -/
theorem arithmetic_le (h : Ready J lo hi side) (R : List K) (hl : R.length = J.I.G.nc) (M : K) (hM : ∀ r ∈ R, r ≤ M) : arithmetic J R ≤ M := by
  have hV : 0 < ∑ c, (J.I.G.cell c).volume := vol_pos h.tiling h.box
  unfold arithmetic
  rw [div_le_iff₀ hV, Finset.mul_sum]
  refine Finset.sum_le_sum fun c _ => ?_
  rw [mul_comm]
  refine mul_le_mul_of_nonneg_right ?_ (h.tiling.volume c).le
  have hc : c.val < R.length := by rw [hl]; exact c.2
  rw [List.getD_eq_getElem?_getD, List.getElem?_eq_getElem hc]
  exact hM _ (List.getElem_mem hc)

theorem harmonic_pos (h : Ready J lo hi side) (R : List K) (hl : R.length = J.I.G.nc) (hR : ∀ r ∈ R, 0 < r) :
    0 < harmonic J R ∧ 0 < ∑ c, (J.I.G.cell c).volume / R.getD c.val 0 := by
  have hV : 0 < ∑ c, (J.I.G.cell c).volume := vol_pos h.tiling h.box
  have : 0 < ∑ c, (J.I.G.cell c).volume / R.getD c.val 0 := by
    obtain ⟨p, _, _⟩ := h.box.ne 0 (by omega)
    exact Finset.sum_pos (fun c _ => div_pos (h.tiling.volume c) (getD_pos hR (by rw [hl]; exact c.2))) ⟨p.1, Finset.mem_univ _⟩
  exact ⟨div_pos hV this, this⟩

/-- Fixed boundary conditions: conductivity and its inverse. -/
theorem run_fixed (h : Ready J lo hi side) (hbc : J.I.bct = .fixed) (R : List K) (hl : R.length = J.I.G.nc) (hR : ∀ r ∈ R, 0 < r) :
    ∃ T, ∃ r : Fin 3 → K, (∀ b, conductivity J (R.map (1 / ·)) b = some T) ∧ (∀ d, 0 < T d d ∧ T d d * r d = 1) ∧
      (((List.range (elements J.I.bct)).mapM fun (v : Nat) => getVoigtValue (J.invert (RelPermChain.tensor T)) (v : Int)) = some [r 0, r 1, r 2]) ∧
      ∀ d, harmonic J R ≤ r d ∧ r d ≤ arithmetic J R := by
  obtain ⟨T, h1, h2, h3⟩ := C90_single_phase (sound h R hl hR) h.tiling h.box h.suited hbc _ (inv_diag R hl hR)
  have hp := RelPermChain.posdef_diag T h2 fun d => (h3 d).1
  obtain ⟨S, hS, e3, -⟩ := entries h T hp
  obtain ⟨m1, -⟩ := mul_inverse T S hp hS
  obtain ⟨-, k⟩ := C111_fixed (fun c => R.getD c.val 0) (fun c => getD_pos hR (by rw [hl]; exact c.2)) (fun c i j => by rw [perm_eq R hl c])
    (sound h R hl hR) h.tiling h.box h.suited hbc ⟨⟨[], []⟩, [], []⟩ T S (h1 _) m1
  refine ⟨T, fun d => S d d, h1, fun d => ⟨(h3 d).1, ?_⟩, ?_, fun d => ⟨?_, (k d).2⟩⟩
  · have := m1 d d
    rw [Finset.sum_eq_single d (fun k _ hk => by rw [h2 d k (Ne.symm hk), zero_mul]) (fun hk => absurd (Finset.mem_univ _) hk), if_pos rfl] at this
    exact this
  · rw [hbc]
    exact e3
  · refine le_trans (le_of_eq ?_) (k d).1
    unfold harmonic
    rw [one_div_div]
    congr 1
    exact Finset.sum_congr rfl fun c _ => by rw [mul_one_div]; rfl

/-- Conductivity rises when resistivities fall. -/
theorem cond_mono (h : Ready J lo hi side) (hbc : J.I.bct = .fixed) (R Q : List K) (hl : R.length = J.I.G.nc) (hQ : ∀ r ∈ Q, 0 < r)
    (hRQ : List.Forall₂ (fun r q => q ≤ r) R Q) {T U : Fin 3 → Fin 3 → K} (hT : ∀ b, conductivity J (R.map (1 / ·)) b = some T)
    (hU : ∀ b, conductivity J (Q.map (1 / ·)) b = some U) (hR : ∀ r ∈ R, 0 < r) : ∀ d, T d d ≤ U d d := by
  obtain ⟨P, P', p1, p2, -, -, p3⟩ := RelPermChain.flow_fixed (base_ready h) (List.range R.length) (fun i _ => 1 / R.getD i 0) (fun i _ => 1 / Q.getD i 0)
    (by rw [List.length_range]; exact hl) (fun c hc _ => one_div_pos.mpr (getD_pos hR (List.mem_range.mp hc)))
    (fun c hc _ => by
      have hc' : c < R.length := List.mem_range.mp hc
      have hq : c < Q.length := by rw [← hRQ.length_eq]; exact hc'
      refine one_div_le_one_div_of_le (getD_pos hQ hq) ?_
      rw [List.getD_eq_getElem?_getD, List.getD_eq_getElem?_getD, List.getElem?_eq_getElem hc', List.getElem?_eq_getElem hq]
      exact hRQ.get hc' hq) hbc
  rw [← indexed R] at p1
  rw [hRQ.length_eq, ← indexed Q] at p2
  have b0 : Boundary.BCs K := ⟨⟨[], []⟩, [], []⟩
  have eT : T = P := Option.some.inj ((hT b0).symm.trans (p1 b0))
  have eU : U = P' := Option.some.inj ((hU b0).symm.trans (p2 b0))
  intro d
  rw [eT, eU]
  exact (p3 d).2

/-- Product with a vector. -/
def act (T : Fin 3 → Fin 3 → K) (y : Fin 3 → K) (i : Fin 3) : K := ∑ j, T i j * y j

omit [LinearOrder K] [IsStrictOrderedRing K] in
theorem quad_act (T : Fin 3 → Fin 3 → K) (y : Fin 3 → K) : Mimetic.quadForm T y = ∑ i, y i * act T y i := by
  unfold Mimetic.quadForm act
  refine Finset.sum_congr rfl fun i _ => ?_
  rw [Finset.mul_sum]
  exact Finset.sum_congr rfl fun j _ => mul_assoc _ _ _

omit [LinearOrder K] [IsStrictOrderedRing K] in
theorem act_act (T S : Fin 3 → Fin 3 → K) (h : ∀ i j, ∑ k, T i k * S k j = if i = j then 1 else 0) (y : Fin 3 → K) : act T (act S y) = y := by
  funext i
  unfold act
  have : ∀ k, T i k * ∑ j, S k j * y j = ∑ j, T i k * S k j * y j := fun k => by
    rw [Finset.mul_sum]
    exact Finset.sum_congr rfl fun j _ => (mul_assoc _ _ _).symm
  simp only [this]
  rw [Finset.sum_comm]
  have : ∀ j, ∑ k, T i k * S k j * y j = (if i = j then 1 else 0) * y j := fun j => by rw [← Finset.sum_mul, h]
  simp only [this]
  simp

omit [LinearOrder K] [IsStrictOrderedRing K] in
theorem act_symm (T : Fin 3 → Fin 3 → K) (h : Mimetic.Symm T) (x y : Fin 3 → K) : ∑ i, x i * act T y i = ∑ i, y i * act T x i := by
  unfold act
  simp only [Finset.mul_sum]
  rw [Finset.sum_comm]
  refine Finset.sum_congr rfl fun i _ => Finset.sum_congr rfl fun j _ => ?_
  rw [h j i]
  ring

/-- The inverse of a symmetric positive definite matrix. -/
theorem inverse_form (T S : Fin 3 → Fin 3 → K) (hs : Mimetic.Symm T) (hp : Mimetic.PosDef T) (m1 : ∀ i j, ∑ k, T i k * S k j = if i = j then 1 else 0) :
    Mimetic.Symm S ∧ (∀ y, Mimetic.quadForm T (act S y) = Mimetic.quadForm S y) ∧ (∀ y, Mimetic.quadForm S y = ∑ d, act S y d * y d) ∧
    ∀ y u : Fin 3 → K, 2 * ∑ d, y d * u d - Mimetic.quadForm T u ≤ Mimetic.quadForm S y := by
  have hbil : ∀ x y, ∑ i, x i * act S y i = ∑ i, y i * act S x i := by
    intro x y
    have := act_symm T hs (act S x) (act S y)
    rw [act_act T S m1, act_act T S m1] at this
    calc ∑ i, x i * act S y i = ∑ i, act S y i * x i := Finset.sum_congr rfl fun i _ => mul_comm _ _
      _ = ∑ i, act S x i * y i := this.symm
      _ = _ := Finset.sum_congr rfl fun i _ => mul_comm _ _
  have hq : ∀ y, Mimetic.quadForm T (act S y) = Mimetic.quadForm S y := by
    intro y
    rw [quad_act, act_act T S m1, quad_act]
    exact Finset.sum_congr rfl fun i _ => mul_comm _ _
  refine ⟨fun i j => ?_, hq, fun y => by rw [quad_act]; exact Finset.sum_congr rfl fun i _ => mul_comm _ _, fun y u => ?_⟩
  · have := hbil (Pi.single i 1) (Pi.single j 1)
    unfold act at this
    simpa [Pi.single_apply] using this
  · have h0 : 0 ≤ Mimetic.quadForm T (fun d => act S y d - u d) := by
      by_cases hz : ∃ i, act S y i - u i ≠ 0
      · exact (hp _ hz).le
      · push Not at hz
        have : (fun d => act S y d - u d) = fun _ => 0 := funext hz
        rw [this]
        unfold Mimetic.quadForm
        simp
    have e : act T (fun d => act S y d - u d) = fun i => y i - act T u i := by
      funext i
      have := congrFun (act_act T S m1 y) i
      rw [← this]
      unfold act
      rw [← Finset.sum_sub_distrib]
      exact Finset.sum_congr rfl fun j _ => mul_sub _ _ _
    rw [quad_act, e] at h0
    have e1 : ∑ i, (act S y i - u i) * (y i - act T u i) =
        ∑ i, y i * act S y i - ∑ i, act S y i * act T u i - ∑ i, y i * u i + ∑ i, u i * act T u i := by
      rw [← Finset.sum_sub_distrib, ← Finset.sum_sub_distrib, ← Finset.sum_add_distrib]
      exact Finset.sum_congr rfl fun i _ => by ring
    have e2 : ∑ i, act S y i * act T u i = ∑ i, y i * u i := by
      rw [act_symm T hs, act_act T S m1]
      exact Finset.sum_congr rfl fun i _ => mul_comm _ _
    rw [e1, e2, ← quad_act, ← quad_act] at h0
    linarith

/-- Periodic boundary conditions: conductivity and its inverse. -/
theorem run_periodic (h : Ready J lo hi side) (hbc : J.I.bct = .periodic) (R : List K) (hl : R.length = J.I.G.nc) (hR : ∀ r ∈ R, 0 < r) :
    ∃ T, ∃ r : Fin 9 → K, (∀ b, conductivity J (R.map (1 / ·)) b = some T) ∧ Mimetic.Symm T ∧ Mimetic.PosDef T ∧
      (∀ i j, ∑ k, T i k * ofVoigt r k j = if i = j then 1 else 0) ∧
      (((List.range (elements J.I.bct)).mapM fun (v : Nat) => getVoigtValue (J.invert (RelPermChain.tensor T)) (v : Int)) = some (List.ofFn r)) ∧
      ∀ x : Fin 3 → K, harmonic J R * ∑ d, x d ^ 2 ≤ Mimetic.quadForm (fun i j => ofVoigt r i j) x ∧
        Mimetic.quadForm (fun i j => ofVoigt r i j) x ≤ arithmetic J R * ∑ d, x d ^ 2 := by
  obtain ⟨T, h1, h2, hp, h3, h4⟩ := C91_single_phase (sound h R hl hR) h.tiling h.box h.suited hbc (fun c i j => if i = j then R.getD c.val 0 else 0) (inv_diag R hl hR)
  obtain ⟨S, hS, -, e9⟩ := entries h T hp
  obtain ⟨m1, -⟩ := mul_inverse T S hp hS
  have hSv : ∀ i j, ofVoigt ![S 0 0, S 1 1, S 2 2, S 1 2, S 0 2, S 0 1, S 2 1, S 2 0, S 1 0] i j = S i j := by
    intro i j
    fin_cases i <;> fin_cases j <;> rfl
  obtain ⟨-, f2, f3, f4⟩ := inverse_form T S h2 hp m1
  have hSf : (fun i j => ofVoigt ![S 0 0, S 1 1, S 2 2, S 1 2, S 0 2, S 0 1, S 2 1, S 2 0, S 1 0] i j) = S := funext fun i => funext fun j => hSv i j
  have hV : 0 < ∑ c, (J.I.G.cell c).volume := vol_pos h.tiling h.box
  refine ⟨T, ![S 0 0, S 1 1, S 2 2, S 1 2, S 0 2, S 0 1, S 2 1, S 2 0, S 1 0], h1, h2, hp, fun i j => ?_, ?_, fun x => ?_⟩
  · simp only [hSv]
    exact m1 i j
  · rw [hbc]
    exact e9
  · rw [hSf]
    constructor
    · -- harmonic mean
      obtain ⟨hh, hm⟩ := harmonic_pos h R hl hR
      have hvo : ∀ u : Fin 3 → K, Mimetic.quadForm T u ≤ (∑ c, (J.I.G.cell c).volume / R.getD c.val 0) / (∑ c, (J.I.G.cell c).volume) * ∑ d, u d ^ 2 := by
        intro u
        refine (h3 u).trans (le_of_eq ?_)
        rw [div_mul_eq_mul_div, Finset.sum_mul]
        congr 1
        refine Finset.sum_congr rfl fun c _ => ?_
        rw [perm_eq R hl c, RelPermChain.quad_diag, ← Finset.mul_sum, ← mul_assoc, mul_one_div]
        rfl
      have := f4 x (fun d => harmonic J R * x d)
      have hu := hvo (fun d => harmonic J R * x d)
      have e1 : ∑ d, x d * (harmonic J R * x d) = harmonic J R * ∑ d, x d ^ 2 := by
        rw [Finset.mul_sum]
        exact Finset.sum_congr rfl fun d _ => by ring
      have e2 : ∑ d, (harmonic J R * x d) ^ 2 = harmonic J R ^ 2 * ∑ d, x d ^ 2 := by
        rw [Finset.mul_sum]
        exact Finset.sum_congr rfl fun d _ => by ring
      have e3 : (∑ c, (J.I.G.cell c).volume / R.getD c.val 0) / (∑ c, (J.I.G.cell c).volume) * harmonic J R = 1 := by
        unfold harmonic
        field_simp
      rw [e2, pow_two, ← mul_assoc, ← mul_assoc, e3, one_mul] at hu
      rw [e1] at this
      linarith
    · -- arithmetic mean
      have := h4 (act S x) x
      rw [f2 x, ← f3 x] at this
      have e : (∑ c, ((RelPermChain.setPerms J.I ((R.map (1 / ·)).map fun k (_ : Fin 3) => k)).G.cell c).volume *
          Mimetic.quadForm (fun i j => if i = j then R.getD c.val 0 else 0) x) / vol (RelPermChain.setPerms J.I ((R.map (1 / ·)).map fun k (_ : Fin 3) => k)) =
          arithmetic J R * ∑ d, x d ^ 2 := by
        unfold arithmetic
        rw [div_mul_eq_mul_div, Finset.sum_mul]
        congr 1
        refine Finset.sum_congr rfl fun c _ => ?_
        rw [RelPermChain.quad_diag (fun _ => R.getD c.val 0) x, ← Finset.mul_sum, ← mul_assoc]
        rfl
      rw [e, pow_two] at this
      by_cases hx : ∃ i, x i ≠ 0
      · have hpos : 0 < Mimetic.quadForm S x := by
          rw [← f2 x]
          refine hp _ ?_
          by_contra hh
          push Not at hh
          obtain ⟨i, hi⟩ := hx
          have := congrFun (act_act T S m1 x) i
          rw [show act S x = fun _ => 0 from funext hh] at this
          unfold act at this
          simp at this
          exact hi this.symm
        exact le_of_mul_le_mul_left this hpos
      · push Not at hx
        rw [show x = fun _ => 0 from funext hx]
        unfold Mimetic.quadForm
        simp

/-- Saturations of the cells at a lower pressure are not lower. -/
theorem sat_mono (hv : Valid J) (hf : Falling J) {p q : K} (hqp : q ≤ p) : ∀ c ∈ rocks J.cells,
    saturation J.O J.curves p c ≤ saturation J.O J.curves q c := by
  intro c hc
  obtain ⟨hm, hs⟩ := List.mem_filter.mp hc
  have hs' : 0 < c.satnum := by simpa using hs
  have hch := hv.checked c hm
  refine hf c hc _ _ (div_le_div_of_nonneg_right (mul_le_mul_of_nonneg_left hqp ?_) hv.options.sigma.le)
  exact (hv.options.sqrt _ (div_pos (mul_pos (hch.perm hs') hv.options.mD) (hch.poro hs'))).le

/-- A higher mean saturation means a lower pressure. -/
theorem lower (hv : Valid J) (hf : Falling J) {p q w w' : K} (hp : MeanSat J p w) (hq : MeanSat J q w') (hw : w < w') : q ≤ p := by
  by_contra hh
  have hpv : 0 < poreVolume J.cells := poreVolume_pos J.O J.curves J.cells hv.checked hv.rock
  have hle : ((rocks J.cells).map fun c => saturation J.O J.curves q c * (c.vol * c.poro)).sum ≤
      ((rocks J.cells).map fun c => saturation J.O J.curves p c * (c.vol * c.poro)).sum := by
    refine List.sum_le_sum fun c hc => mul_le_mul_of_nonneg_right (sat_mono hv hf (not_le.mp hh).le c hc) ?_
    obtain ⟨hm, hs⟩ := List.mem_filter.mp hc
    have hch := hv.checked c hm
    exact mul_nonneg hch.vol.le (hch.poro (by simpa using hs)).le
  rw [← hp, ← hq] at hle
  exact absurd (le_of_mul_le_mul_right hle hpv) (not_le.mpr hw)

/-- Resistivities of the cells at a lower pressure are not higher. -/
theorem resist_mono (hv : Valid J) (hf : Falling J) {p q : K} (hqp : q ≤ p) {R Q : List K} (hR : Resistivities J p R) (hQ : Resistivities J q Q) :
    List.Forall₂ (fun r s => s ≤ r) R Q := by
  rw [List.forall₂_iff_get]
  have e : R.length = Q.length := hR.length_eq.symm.trans hQ.length_eq
  refine ⟨e, fun i h1 h2 => ?_⟩
  have hc : i < J.cells.length := by rw [hR.length_eq]; exact h1
  have k1 := hR.get hc h1
  have k2 := hQ.get hc h2
  set c := J.cells.get ⟨i, hc⟩ with hcd
  have hm : c ∈ J.cells := List.get_mem _ _
  by_cases hs : 0 < c.satnum
  · have hch := hv.checked c hm
    exact C111_monotone J.O hv.options c c _ _ _ _ hs rfl (hch.poro hs) (le_refl _) (hch.nonneg.trans (hch.lo _))
      (sat_mono hv hf hqp c (List.mem_filter.mpr ⟨hm, by simpa using hs⟩)) k1 k2
  · rw [k1.void (not_lt.mp hs), k2.void (not_lt.mp hs)]

theorem point_mean (hv : Valid J) {p w : K} {b : Boundary.BCs K} {l : List K} (h : point J p b = some (w, l)) : MeanSat J p w := by
  obtain ⟨R, w', -, -, -, h1, v, h2, h3⟩ := cells_at hv p
  unfold point at h
  rw [h2, Option.bind_some] at h
  obtain ⟨T, -, h⟩ := Option.bind_eq_some_iff.mp h
  rw [h3, Option.bind_some] at h
  obtain ⟨l', -, h⟩ := Option.map_eq_some_iff.mp h
  have : w' = w := congrArg Prod.fst h
  rw [← this]
  exact h1

omit [IsStrictOrderedRing K] in
/-- Archie's law determines the resistivity. -/
theorem resist_unique {O : Opts K} {c : Cell K} {s r q : K} (h : IsResistivity O c s r) (k : IsResistivity O c s q) : r = q := by
  by_cases h0 : 0 < c.satnum
  · by_cases hm : isMud O c
    · exact (h.mud hm).trans (k.mud hm).symm
    · by_cases hz : O.pow c.poro (cementation O c) * O.pow s (satExponent O c) = 0
      · exact (h.dry h0 hm hz).trans (k.dry h0 hm hz).symm
      · exact (h.wet h0 hm hz).trans (k.wet h0 hm hz).symm
  · exact (h.void (not_lt.mp h0)).trans (k.void (not_lt.mp h0)).symm

end lemmas

section props
variable {J : Job K} {lo hi : Fin 3 → K} {side : Boundary.Face K → Nat}

/-- **C148.** Fixed boundary conditions: for every capillary pressure the program reports the pore volume weighted mean of the saturations, and in each direction a resistivity
between the harmonic and the arithmetic mean of the resistivities of the cells by Archie's law; so it is positive and not larger than the cutoff and the resistivity of mud. -/
theorem C148_fixed (h : Ready J lo hi side) (hv : Valid J) (hbc : J.I.bct = .fixed) (p : K) :
    ∃ R w, ∃ r : Fin 3 → K, Resistivities J p R ∧ MeanSat J p w ∧ (∀ b, point J p b = some (w, [r 0, r 1, r 2])) ∧
      ∀ d, harmonic J R ≤ r d ∧ r d ≤ arithmetic J R ∧ 0 < r d ∧ r d ≤ max J.O.cutoff J.O.mud := by
  obtain ⟨R, w, h1, h2, h3, h4, v, h5, h6⟩ := cells_at hv p
  obtain ⟨T, r, t1, t2, t3, t4⟩ := run_fixed h hbc R h2 fun r hr => (h3 r hr).1
  refine ⟨R, w, r, h1, h4, fun b => point_of hv h5 h6 (t1 b) t3, fun d => ⟨(t4 d).1, (t4 d).2, ?_, ?_⟩⟩
  · exact (harmonic_pos h R h2 fun r hr => (h3 r hr).1).1.trans_le (t4 d).1
  · exact (t4 d).2.trans (arithmetic_le h R h2 _ fun r hr => (h3 r hr).2)

/-- **C148.** Fixed boundary conditions: the upscaled resistivity curves fall. Of two points the one with the higher saturation has no higher resistivity in any direction. -/
theorem C148_monotone (h : Ready J lo hi side) (hv : Valid J) (hf : Falling J) (hbc : J.I.bct = .fixed) (p q w w' : K) (b b' : Boundary.BCs K) (l l' : List K)
    (hp : point J p b = some (w, l)) (hq : point J q b' = some (w', l')) (hw : w < w') : List.Forall₂ (· ≤ ·) l' l := by
  have hqp := lower hv hf (point_mean hv hp) (point_mean hv hq) hw
  obtain ⟨R, _, h1, h2, h3, _, v, h5, h6⟩ := cells_at hv p
  obtain ⟨Q, _, k1, k2, k3, _, u, k5, k6⟩ := cells_at hv q
  obtain ⟨T, r, t1, t2, t3, -⟩ := run_fixed h hbc R h2 fun r hr => (h3 r hr).1
  obtain ⟨U, s, u1, u2, u3, -⟩ := run_fixed h hbc Q k2 fun r hr => (k3 r hr).1
  have hm := cond_mono h hbc R Q h2 (fun r hr => (k3 r hr).1) (resist_mono hv hf hqp h1 k1) t1 u1 fun r hr => (h3 r hr).1
  have hle : ∀ d, s d ≤ r d := by
    intro d
    have e1 : r d = 1 / T d d := by rw [eq_div_iff (t2 d).1.ne', mul_comm]; exact (t2 d).2
    have e2 : s d = 1 / U d d := by rw [eq_div_iff (u2 d).1.ne', mul_comm]; exact (u2 d).2
    rw [e1, e2]
    exact one_div_le_one_div_of_le (t2 d).1 (hm d)
  rw [point_of hv h5 h6 (t1 b) t3] at hp
  rw [point_of hv k5 k6 (u1 b') u3] at hq
  have el : [r 0, r 1, r 2] = l := congrArg Prod.snd (Option.some.inj hp)
  have el' : [s 0, s 1, s 2] = l' := congrArg Prod.snd (Option.some.inj hq)
  rw [← el, ← el']
  exact .cons (hle 0) (.cons (hle 1) (.cons (hle 2) .nil))

/-- **C148.** The same with periodic boundary conditions: the reported tensor is the symmetric inverse of the upscaled conductivity, and for every direction it lies between harmonic and arithmetic mean of
the resistivities of the cells. -/
theorem C148_periodic (h : Ready J lo hi side) (hv : Valid J) (hbc : J.I.bct = .periodic) (p : K) :
    ∃ R w, ∃ r : Fin 9 → K, Resistivities J p R ∧ MeanSat J p w ∧ (∀ b, point J p b = some (w, List.ofFn r)) ∧
      Mimetic.Symm (fun i j => ofVoigt r i j) ∧ 0 < harmonic J R ∧ arithmetic J R ≤ max J.O.cutoff J.O.mud ∧
      ∀ x : Fin 3 → K, harmonic J R * ∑ d, x d ^ 2 ≤ Mimetic.quadForm (fun i j => ofVoigt r i j) x ∧
        Mimetic.quadForm (fun i j => ofVoigt r i j) x ≤ arithmetic J R * ∑ d, x d ^ 2 := by
  obtain ⟨R, w, h1, h2, h3, h4, v, h5, h6⟩ := cells_at hv p
  obtain ⟨T, r, t1, t2, t3, t4, t5, t6⟩ := run_periodic h hbc R h2 fun r hr => (h3 r hr).1
  exact ⟨R, w, r, h1, h4, fun b => point_of hv h5 h6 (t1 b) t5, (inverse_form T _ t2 t3 t4).1, (harmonic_pos h R h2 fun r hr => (h3 r hr).1).1,
    arithmetic_le h R h2 _ fun r hr => (h3 r hr).2, t6⟩

/-- **C148.** Periodic boundary conditions: of two points the one with the higher saturation has no higher resistivity in any direction of space. -/
theorem C148_monotone_periodic (h : Ready J lo hi side) (hv : Valid J) (hf : Falling J) (hbc : J.I.bct = .periodic) (p q w w' : K) (b b' : Boundary.BCs K)
    (r r' : Fin 9 → K) (hp : point J p b = some (w, List.ofFn r)) (hq : point J q b' = some (w', List.ofFn r')) (hw : w < w') (x : Fin 3 → K) :
    Mimetic.quadForm (fun i j => ofVoigt r' i j) x ≤ Mimetic.quadForm (fun i j => ofVoigt r i j) x := by
  have hqp := lower hv hf (point_mean hv hp) (point_mean hv hq) hw
  obtain ⟨R, _, h1, h2, h3, _, v, h5, h6⟩ := cells_at hv p
  obtain ⟨Q, _, k1, k2, k3, _, u, k5, k6⟩ := cells_at hv q
  obtain ⟨T, s, t1, t2, t3, t4, t5, -⟩ := run_periodic h hbc R h2 fun r hr => (h3 r hr).1
  obtain ⟨U, s', u1, u2, u3, u4, u5, -⟩ := run_periodic h hbc Q k2 fun r hr => (k3 r hr).1
  have hm : ∀ y, Mimetic.quadForm T y ≤ Mimetic.quadForm U y := by
    have hRQ := resist_mono hv hf hqp h1 k1
    obtain ⟨P, P', p1, p2, -, -, -, -, p3⟩ := RelPermChain.flow_periodic (base_ready h) (List.range R.length) (fun i _ => 1 / R.getD i 0) (fun i _ => 1 / Q.getD i 0)
      (by rw [List.length_range]; exact h2) (fun c hc _ => one_div_pos.mpr (getD_pos (fun r hr => (h3 r hr).1) (List.mem_range.mp hc)))
      (fun c hc _ => by
        have hc' : c < R.length := List.mem_range.mp hc
        have hq : c < Q.length := by rw [← hRQ.length_eq]; exact hc'
        refine one_div_le_one_div_of_le (getD_pos (fun r hr => (k3 r hr).1) hq) ?_
        rw [List.getD_eq_getElem?_getD, List.getD_eq_getElem?_getD, List.getElem?_eq_getElem hc', List.getElem?_eq_getElem hq]
        exact hRQ.get hc' hq) hbc
    rw [← indexed R] at p1
    rw [hRQ.length_eq, ← indexed Q] at p2
    have b0 : Boundary.BCs K := ⟨⟨[], []⟩, [], []⟩
    have eT : T = P := Option.some.inj ((t1 b0).symm.trans (p1 b0))
    have eU : U = P' := Option.some.inj ((u1 b0).symm.trans (p2 b0))
    intro y
    rw [eT, eU]
    exact p3 y
  rw [point_of hv h5 h6 (t1 b) t5] at hp
  rw [point_of hv k5 k6 (u1 b') u5] at hq
  have es : s = r := List.ofFn_injective (congrArg Prod.snd (Option.some.inj hp))
  have es' : s' = r' := List.ofFn_injective (congrArg Prod.snd (Option.some.inj hq))
  subst es es'
  obtain ⟨-, -, -, f4⟩ := inverse_form T _ t2 t3 t4
  obtain ⟨-, g2, g3, -⟩ := inverse_form U _ u2 u3 u4
  have k := f4 x (act (fun i j => ofVoigt s' i j) x)
  have k' := hm (act (fun i j => ofVoigt s' i j) x)
  rw [g2 x] at k'
  have e : ∑ d, x d * act (fun i j => ofVoigt s' i j) x d = Mimetic.quadForm (fun i j => ofVoigt s' i j) x := (quad_act _ _).symm
  rw [e] at k
  linarith

/-- **C148.** If all cells have the same resistivity, it is the result, for every type of boundary conditions. -/
theorem C148_uniform (h : Ready J lo hi side) (hv : Valid J) (p ρ : K) (R : List K) (hR : Resistivities J p R) (hρ : ∀ r ∈ R, r = ρ) (b : Boundary.BCs K) :
    ∃ w, MeanSat J p w ∧ point J p b = some (w, if J.I.bct = .fixed then [ρ, ρ, ρ] else [ρ, ρ, ρ, 0, 0, 0, 0, 0, 0]) := by
  obtain ⟨Q, w, h1, h2, h3, h4, v, h5, h6⟩ := cells_at hv p
  have hQR : Q = R := by
    refine List.ext_getElem (h1.length_eq.symm.trans hR.length_eq) fun i hi hi' => ?_
    have a := h1.get (by rw [h1.length_eq]; exact hi) hi
    have b := hR.get (by rw [hR.length_eq]; exact hi') hi'
    exact resist_unique a b
  subst hQR
  have hnc : 0 < Q.length := by
    rw [← h1.length_eq]
    refine List.length_pos_of_ne_nil fun he => hv.rock ?_
    rw [he]
    rfl
  have hpos : 0 < ρ := by
    obtain ⟨r, hr⟩ := List.exists_mem_of_length_pos hnc
    rw [← hρ r hr]
    exact (h3 r hr).1
  have hget : ∀ c : Fin J.I.G.nc, Q.getD c.val 0 = ρ := fun c => by
    have hc : c.val < Q.length := by rw [h2]; exact c.2
    rw [List.getD_eq_getElem?_getD, List.getElem?_eq_getElem hc]
    exact hρ _ (List.getElem_mem hc)
  have hT : conductivity J (Q.map (1 / ·)) b = some fun i j => if i = j then 1 / ρ else 0 :=
    C89_single_phase (sound h Q h2 fun r hr => (h3 r hr).1) h.tiling h.box h.suited (fun i j => if i = j then 1 / ρ else 0)
      (fun c i j => by rw [perm_eq Q h2 c, hget c]) (fun _ i j hij => if_neg hij) b
  have hp : Mimetic.PosDef (fun i j : Fin 3 => if i = j then 1 / ρ else 0) := RelPermChain.posdef_diag _ (fun i j hij => if_neg hij) fun i => by rw [if_pos rfl]; exact one_div_pos.mpr hpos
  obtain ⟨S, hS, e3, e9⟩ := entries h _ hp
  have hSe : ∀ i j, S i j = if i = j then ρ else 0 := by
    obtain ⟨m1, -⟩ := mul_inverse _ S hp hS
    intro i j
    have := m1 i j
    rw [Finset.sum_eq_single i (fun k _ hk => by rw [if_neg (Ne.symm hk), zero_mul]) fun hk => absurd (Finset.mem_univ i) hk, if_pos rfl] at this
    by_cases e : i = j
    · rw [if_pos e] at this ⊢
      rw [one_div, inv_mul_eq_div, div_eq_one_iff_eq hpos.ne'] at this
      exact this
    · rw [if_neg e] at this ⊢
      exact (mul_eq_zero.mp this).resolve_left (one_div_pos.mpr hpos).ne'
  refine ⟨w, h4, point_of hv h5 h6 hT ?_⟩
  cases hb : J.I.bct
  · rw [if_pos rfl]
    simpa [hSe, elements] using e3
  all_goals
    rw [if_neg (by decide)]
    simpa [hSe, elements] using e9

end props

/-! ### Concrete cases -/

/-- Inversion that keeps the ordering. -/
noncomputable def exInvert (A : FullMatrix ℚ) : FullMatrix ℚ :=
  let T := fun i j : Fin 3 => ((RelPermChain.exInvert A).get i j).getD 0
  match A.ord with
  | .c => ⟨.c, 3, 3, [T 0 0, T 0 1, T 0 2, T 1 0, T 1 1, T 1 2, T 2 0, T 2 1, T 2 2]⟩
  | .fortran => ⟨.fortran, 3, 3, [T 0 0, T 1 0, T 2 0, T 0 1, T 1 1, T 2 1, T 0 2, T 1 2, T 2 2]⟩

theorem exInvert_ok (A : FullMatrix ℚ) (M : Matrix (Fin 3) (Fin 3) ℚ) (h : Represents A M) : Represents (exInvert A) M⁻¹ ∧ (exInvert A).ord = A.ord := by
  have e : (fun i j : Fin 3 => ((RelPermChain.exInvert A).get i j).getD 0) = fun i j => M⁻¹ i j := by
    funext i j
    rw [(RelPermChain.exInvert_ok A M h).entry i j]
    rfl
  unfold exInvert
  rw [e]
  cases A.ord
  all_goals
    refine ⟨⟨rfl, rfl, rfl, fun i j => ?_⟩, rfl⟩
    fin_cases i <;> fin_cases j <;> rfl

/-- Two different cells of sandstone on the two-cell grid. -/
noncomputable def exJob (bct : BCType) (poro : ℚ) : Job ℚ where
  O := ⟨1 / 100, 1 / 10, 1, 1, 0, 100, 5, 0, 0, 1, 2, 2, 1 / 20, fun _ => 0, fun _ => 0, id, fun x _ => x⟩
  curves _ := ⟨0, 1, 1 / 5, 1, fun x => max (1 / 5) (min 1 (1 - 4 / 5 * x))⟩
  cells := [⟨1, 1 / 4, 1, 343⟩, ⟨1, poro, 1, 343⟩]
  I := exInput bct 0 exPerm
  invert := exInvert

theorem ex_ready (bct : BCType) (poro : ℚ) : Ready (exJob bct poro) exLo exHi exSide :=
  have h := RelPermChain.ex_ready bct false (fun _ => 1) (fun _ => 1)
  { tiling := h.tiling, box := h.box, suited := h.suited, basis := h.basis, sort := h.sort, solver := h.solver, gravity := h.gravity
    invert := fun A M h1 _ => exInvert_ok A M h1 }

theorem ex_valid (bct : BCType) {poro : ℚ} (hp : 0 < poro) : Valid (exJob bct poro) where
  options := ⟨by norm_num [exJob], by norm_num [exJob], by norm_num [exJob], by norm_num [exJob], by norm_num [exJob], by norm_num [exJob], by norm_num [exJob],
    by norm_num [exJob], fun _ h => h, ⟨fun _ _ h => h, fun _ => le_refl _, fun _ _ _ _ _ h => h⟩⟩
  cells := rfl
  checked c hc := by
    have hc : c = ⟨1, 1 / 4, 1, 343⟩ ∨ c = ⟨1, poro, 1, 343⟩ := by simpa [exJob] using hc
    rcases hc with rfl | rfl
    · exact ⟨by norm_num, fun _ => by norm_num, fun _ => by norm_num, fun _ => le_max_left _ _, fun _ => max_le (by norm_num [exJob]) (min_le_left _ _), by norm_num [exJob]⟩
    · exact ⟨by norm_num, fun _ => hp, fun _ => by norm_num, fun _ => le_max_left _ _, fun _ => max_le (by norm_num [exJob]) (min_le_left _ _), by norm_num [exJob]⟩
  rock h := by simp [exJob, rocks] at h

theorem ex_falling (bct : BCType) (poro : ℚ) : Falling (exJob bct poro) := fun _ _ x y h =>
  show max (1 / 5) (min 1 (1 - 4 / 5 * y)) ≤ max (1 / 5 : ℚ) (min 1 (1 - 4 / 5 * x)) from max_le_max (le_refl _) (min_le_min (le_refl _) (by linarith))

example (p : ℚ) : ∃ w, ∃ r : Fin 3 → ℚ, ∀ b, point (exJob .fixed (1 / 10)) p b = some (w, [r 0, r 1, r 2]) := by
  obtain ⟨R, w, r, -, -, h, -⟩ := C148_fixed (ex_ready .fixed (1 / 10)) (ex_valid .fixed (by norm_num)) rfl p
  exact ⟨w, r, h⟩

example (p : ℚ) : ∃ w, ∃ r : Fin 9 → ℚ, ∀ b, point (exJob .periodic (1 / 10)) p b = some (w, List.ofFn r) := by
  obtain ⟨R, w, r, -, -, h, -⟩ := C148_periodic (ex_ready .periodic (1 / 10)) (ex_valid .periodic (by norm_num)) rfl p
  exact ⟨w, r, h⟩

/-- Two points with different saturations. -/
example (b : Boundary.BCs ℚ) : ∃ w w' l l', point (exJob .fixed (1 / 10)) 1 b = some (w, l) ∧ point (exJob .fixed (1 / 10)) 0 b = some (w', l') ∧ w < w' := by
  obtain ⟨_, w, r, -, m, h, -⟩ := C148_fixed (ex_ready .fixed (1 / 10)) (ex_valid .fixed (by norm_num)) rfl 1
  obtain ⟨_, w', r', -, m', h', -⟩ := C148_fixed (ex_ready .fixed (1 / 10)) (ex_valid .fixed (by norm_num)) rfl 0
  refine ⟨w, w', _, _, h b, h' b, ?_⟩
  simp [MeanSat, exJob, rocks, poreVolume, saturation, leverett] at m m'
  norm_num at m m'
  linarith

/-- Water alone in equal cells: the resistivity of one. -/
example (b : Boundary.BCs ℚ) : ∃ w, point (exJob .linear (1 / 4)) 0 b = some (w, [1 / 5, 1 / 5, 1 / 5, 0, 0, 0, 0, 0, 0]) := by
  obtain ⟨w, -, h⟩ := C148_uniform (ex_ready .linear (1 / 4)) (ex_valid .linear (by norm_num)) 0 (1 / 5) [1 / 5, 1 / 5]
    (by
      have k : IsResistivity (exJob .linear (1 / 4)).O ⟨1, 1 / 4, 1, 343⟩ (saturation (exJob .linear (1 / 4)).O (exJob .linear (1 / 4)).curves 0 ⟨1, 1 / 4, 1, 343⟩) (1 / 5) := by
        constructor
        · intro h; norm_num at h
        · intro h; simp [isMud, exJob] at h
        · intro _ _ h; norm_num [exJob, saturation, leverett] at h
        · intro _ _ _; norm_num [exJob, saturation, leverett]
      exact .cons k (.cons k .nil)) (by simp) b
  exact ⟨w, h⟩

end Verif.ResistChain
