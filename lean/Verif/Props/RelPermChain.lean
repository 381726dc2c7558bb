import Verif.Spec.RelPermChain
import Verif.Props.RelPermMore
import Verif.Props.SinglePhase
import Verif.Lemmas.Pattern
import Mathlib.LinearAlgebra.Matrix.ToLin
import Mathlib.Tactic.Linarith

/-!
C143: upscaled relative permeabilities lie between zero and one and the upscaled curves are monotone.
-/

namespace Verif.RelPermChain

open Verif.Dense Verif.Control Verif.RelPerm Verif.SinglePhase

variable {K : Type} [Field K] [LinearOrder K] [IsStrictOrderedRing K]

/-! ### Permeabilities of the cells -/

/-- Phase permeability of a cell at saturation `s`, zero without rock. -/
def raw (S : Sys K) (kr : Nat → K → K) (s : Nat → K) (c : Nat) : K :=
  if 0 < S.satnum c then kr (S.satnum c - 1).toNat (s c) * S.permx c else 0

def top (S : Sys K) (kr : Nat → K → K) (minPerm : K) (s : Nat → K) (m : K) (l : List Nat) : K :=
  l.foldl (fun m c => if 0 < S.satnum c then max (max m (raw S kr s c)) minPerm else m) m

def cellK (S : Sys K) (kr : Nat → K → K) (contrast minPerm : K) (s : Nat → K) (c : Nat) : K :=
  max (max (top S kr minPerm s 0 S.globalCell / contrast) minPerm) (raw S kr s c)

omit [IsStrictOrderedRing K] in
theorem maxFold_eq (S : Sys K) (kr : Nat → K → K) (minPerm p : K) (s : Nat → K) (l : List Nat)
    (hs : ∀ c ∈ l, 0 < S.satnum c → RelPerm.Spec.CellSat S p c (s c)) (m : K) :
    l.foldl (maxStep S kr minPerm p) (some m) = some (top S kr minPerm s m l) := by
  induction l generalizing m with
  | nil => rfl
  | cons c l ih =>
    have ih' := ih (fun d hd => hs d (List.mem_cons_of_mem _ hd))
    rw [List.foldl_cons]
    unfold top
    rw [List.foldl_cons]
    by_cases hr : 0 < S.satnum c
    · have e : phasePerm S kr p c = some (raw S kr s c) := by
        unfold phasePerm raw
        rw [cellSw_of_sat S p c _ (hs c (List.mem_cons_self ..) hr) hr, if_pos hr]
        rfl
      have e' : maxStep S kr minPerm p (some m) c = some (max (max m (raw S kr s c)) minPerm) := by
        unfold maxStep
        rw [e]
        simp [hr]
      rw [e', if_pos hr]
      exact ih' _
    · have e' : maxStep S kr minPerm p (some m) c = some m := by
        unfold maxStep
        simp [hr]
      rw [e', if_neg hr]
      exact ih' _

omit [IsStrictOrderedRing K] in
theorem cellPerms_eq (S : Sys K) (kr : Nat → K → K) (contrast minPerm p : K) (s : Nat → K)
    (hs : ∀ c ∈ S.globalCell, 0 < S.satnum c → RelPerm.Spec.CellSat S p c (s c)) :
    cellPerms S kr contrast minPerm p = some (S.globalCell.map (cellK S kr contrast minPerm s)) := by
  unfold cellPerms
  rw [maxFold_eq S kr minPerm p s _ hs]
  dsimp only
  refine Pattern.mapM_total _ _ _ fun c hc => ?_
  unfold cellK raw floorPerm
  by_cases hr : 0 < S.satnum c
  · rw [if_pos hr, if_pos hr]
    unfold phasePerm
    rw [cellSw_of_sat S p c _ (hs c hc hr) hr]
    rfl
  · rw [if_neg hr, if_neg hr]

omit [IsStrictOrderedRing K] in
theorem top_mono (S : Sys K) (kr kr' : Nat → K → K) (minPerm : K) (s s' : Nat → K) (l : List Nat)
    (h : ∀ c ∈ l, raw S kr s c ≤ raw S kr' s' c) (m m' : K) (hm : m ≤ m') :
    top S kr minPerm s m l ≤ top S kr' minPerm s' m' l := by
  induction l generalizing m m' with
  | nil => exact hm
  | cons c l ih =>
    unfold top
    rw [List.foldl_cons, List.foldl_cons]
    refine ih (fun d hd => h d (List.mem_cons_of_mem _ hd)) _ _ ?_
    have := h c (List.mem_cons_self ..)
    split
    · exact max_le_max (max_le_max hm this) (le_refl _)
    · exact hm

theorem cellK_mono (S : Sys K) (kr kr' : Nat → K → K) (contrast minPerm : K) (s s' : Nat → K) (hc : 1 ≤ contrast)
    (h : ∀ c ∈ S.globalCell, raw S kr s c ≤ raw S kr' s' c) (c : Nat) (hm : c ∈ S.globalCell) :
    cellK S kr contrast minPerm s c ≤ cellK S kr' contrast minPerm s' c := by
  unfold cellK
  refine max_le_max (max_le_max ?_ (le_refl _)) (h c hm)
  exact div_le_div_of_nonneg_right (top_mono S kr kr' minPerm s s' _ h 0 0 (le_refl _)) (zero_le_one.trans hc)

/-- The permeability of a cell for the single phase calculation. -/
def singleK (S : Sys K) (contrast minPerm : K) (c : Nat) : K := max (S.permx c) (singleFloor S contrast minPerm)

omit [IsStrictOrderedRing K] in
theorem singlePerms_eq (S : Sys K) (permy permz : Nat → K) (contrast minPerm : K) (ha : S.aniso = false) :
    singlePerms S permy permz contrast minPerm = S.globalCell.map fun c (_ : Fin 3) => singleK S contrast minPerm c := by
  unfold singlePerms
  rw [ha]
  rfl

omit [IsStrictOrderedRing K] in
theorem top_le_single (S : Sys K) (kr : Nat → K → K) (minPerm : K) (s : Nat → K) (l : List Nat)
    (h : ∀ c ∈ l, 0 < S.satnum c → raw S kr s c ≤ S.permx c) (m m' : K) (hm : m ≤ max m' minPerm) :
    top S kr minPerm s m l ≤ max (l.foldl (maxSingle S) m') minPerm := by
  induction l generalizing m m' with
  | nil => exact hm
  | cons c l ih =>
    unfold top
    rw [List.foldl_cons, List.foldl_cons]
    refine ih (fun d hd => h d (List.mem_cons_of_mem _ hd)) _ _ ?_
    unfold maxSingle
    by_cases hr : 0 < S.satnum c
    · rw [if_pos hr, if_pos hr]
      have := h c (List.mem_cons_self ..) hr
      refine max_le (max_le (hm.trans (max_le_max (le_max_left _ _) (le_refl _))) ?_) (le_max_right _ _)
      exact this.trans ((le_max_right _ _).trans (le_max_left _ _))
    · rw [if_neg hr, if_neg hr]
      exact hm

theorem cellK_le_single (S : Sys K) (kr : Nat → K → K) (contrast minPerm : K) (s : Nat → K) (hc : 1 ≤ contrast)
    (hmin : 0 < minPerm) (hp : ∀ c ∈ S.globalCell, 0 ≤ S.permx c)
    (h : ∀ c ∈ S.globalCell, 0 < S.satnum c → kr (S.satnum c - 1).toNat (s c) ≤ 1) (c : Nat) (hm : c ∈ S.globalCell) :
    cellK S kr contrast minPerm s c ≤ singleK S contrast minPerm c := by
  have hr : ∀ c ∈ S.globalCell, 0 < S.satnum c → raw S kr s c ≤ S.permx c := by
    intro c hc hs
    unfold raw
    rw [if_pos hs]
    exact mul_le_of_le_one_left (hp c hc) (h c hc hs)
  have ht := top_le_single S kr minPerm s S.globalCell hr 0 0 (le_max_left _ _)
  have hcp : 0 < contrast := zero_lt_one.trans_le hc
  have hfl : top S kr minPerm s 0 S.globalCell / contrast ≤ singleFloor S contrast minPerm := by
    unfold singleFloor
    rw [div_le_iff₀ hcp]
    refine ht.trans (max_le ?_ ?_)
    · rw [← div_le_iff₀ hcp]; exact le_max_left _ _
    · calc minPerm ≤ max (S.globalCell.foldl (maxSingle S) 0 / contrast) minPerm := le_max_right _ _
        _ ≤ _ := le_mul_of_one_le_right (hmin.le.trans (le_max_right _ _)) hc
  unfold cellK singleK
  refine max_le (max_le (hfl.trans (le_max_right _ _)) ((le_max_right _ _).trans (le_max_right _ _))) ?_
  by_cases hs : 0 < S.satnum c
  · exact (hr c hm hs).trans (le_max_left _ _)
  · unfold raw
    rw [if_neg hs]
    exact (hp c hm).trans (le_max_left _ _)

omit [IsStrictOrderedRing K] in
theorem cellK_pos (S : Sys K) (kr : Nat → K → K) (contrast minPerm : K) (s : Nat → K) (hmin : 0 < minPerm) (c : Nat) :
    0 < cellK S kr contrast minPerm s c := hmin.trans_le ((le_max_right _ _).trans (le_max_left _ _))

omit [IsStrictOrderedRing K] in
theorem singleK_pos (S : Sys K) (contrast minPerm : K) (hmin : 0 < minPerm) (c : Nat) : 0 < singleK S contrast minPerm c :=
  hmin.trans_le ((le_max_right _ _).trans (le_max_right _ _))

/-! ### The flow problems -/

section flow
variable {J : Job K} {lo hi : Fin 3 → K} {side : Boundary.Face K → Nat}

omit [LinearOrder K] [IsStrictOrderedRing K] in
theorem quad_diag (k : Fin 3 → K) (v : Fin 3 → K) :
    Mimetic.quadForm (fun i j => if i = j then k i else 0) v = ∑ i, k i * v i ^ 2 := by
  unfold Mimetic.quadForm
  refine Finset.sum_congr rfl fun i _ => ?_
  rw [Finset.sum_eq_single i]
  · dsimp only; rw [if_pos rfl]; ring
  · intro j _ hj; dsimp only; rw [if_neg (Ne.symm hj)]; ring
  · simp

omit [LinearOrder K] [IsStrictOrderedRing K] in
theorem setPerms_perm (I : Input K) (l : List Nat) (f : Nat → Fin 3 → K) (hl : l.length = I.G.nc) (c : Fin I.G.nc) :
    l.getD c.val 0 ∈ l ∧ (setPerms I (l.map f)).perm c = fun i j => if i = j then f (l.getD c.val 0) i else 0 := by
  have hc : c.val < l.length := by rw [hl]; exact c.2
  have e0 : l.getD c.val 0 = l[c.val] := by
    rw [List.getD_eq_getElem?_getD, List.getElem?_eq_getElem hc, Option.getD_some]
  have e : (l.map f)[c.val]? = some (f (l.getD c.val 0)) := by
    rw [List.getElem?_map, List.getElem?_eq_getElem hc, e0]
    rfl
  refine ⟨by rw [e0]; exact List.getElem_mem hc, ?_⟩
  funext i j
  unfold setPerms
  simp only [e]

theorem ready_sound (h : Ready J lo hi side) (l : List Nat) (f : Nat → Fin 3 → K) (hl : l.length = J.I.G.nc)
    (hf : ∀ c ∈ l, ∀ d, 0 < f c d) : Sound (tracer (setPerms J.I (l.map f))) where
  symm c i j := by
    change (setPerms J.I (l.map f)).perm c i j = (setPerms J.I (l.map f)).perm c j i
    rw [(setPerms_perm J.I l f hl c).2]
    dsimp only
    by_cases e : i = j
    · rw [e]
    · rw [if_neg e, if_neg (Ne.symm e)]
  posdef c v hv := by
    change 0 < Mimetic.quadForm ((setPerms J.I (l.map f)).perm c) v
    rw [(setPerms_perm J.I l f hl c).2, quad_diag]
    have hp := hf _ (setPerms_perm J.I l f hl c).1
    obtain ⟨i, hi⟩ := hv
    exact Finset.sum_pos' (fun j _ => mul_nonneg (hp j).le (sq_nonneg _))
      ⟨i, Finset.mem_univ _, mul_pos (hp i) (by positivity)⟩
  mob c := by
    change (0 : K) < [1, 1 - 1].sum
    simp
  basis c := h.basis c
  sort := h.sort
  solver := h.solver
  gravity := h.gravity

theorem cond_le (I : Input K) (l : List Nat) (f g : Nat → Fin 3 → K) (hl : l.length = I.G.nc)
    (hfg : ∀ c ∈ l, ∀ d, f c d ≤ g c d) (c : Fin I.G.nc) (x : Fin 3 → K) :
    Mimetic.quadForm (cond (tracer (setPerms I (l.map f))) c) x ≤
      (tracerMob (1 : K)).sum * Mimetic.quadForm ((setPerms I (l.map g)).perm c) x := by
  have e : cond (tracer (setPerms I (l.map f))) c = (setPerms I (l.map f)).perm c :=
    funext fun i => funext fun j => tracer_cond (setPerms I (l.map f)) c i j
  have e1 : (tracerMob (1 : K)).sum = 1 := by simp [tracerMob]
  obtain ⟨hm, ef⟩ := setPerms_perm I l f hl c
  obtain ⟨_, eg⟩ := setPerms_perm I l g hl c
  rw [e, e1, one_mul, ef, eg, quad_diag, quad_diag]
  exact Finset.sum_le_sum fun i _ => mul_le_mul_of_nonneg_right (hfg _ hm i) (sq_nonneg _)

theorem flow_fixed (h : Ready J lo hi side) (l : List Nat) (f g : Nat → Fin 3 → K) (hl : l.length = J.I.G.nc)
    (hf : ∀ c ∈ l, ∀ d, 0 < f c d) (hfg : ∀ c ∈ l, ∀ d, f c d ≤ g c d) (hbc : J.I.bct = .fixed) :
    ∃ P T, (∀ b, upscaleSinglePhase (setPerms J.I (l.map f)) b = some P) ∧
      (∀ b, upscaleSinglePhase (setPerms J.I (l.map g)) b = some T) ∧
      (∀ i j, i ≠ j → P i j = 0) ∧ (∀ i j, i ≠ j → T i j = 0) ∧ ∀ d, 0 < P d d ∧ P d d ≤ T d d := by
  have hg : ∀ c ∈ l, ∀ d, 0 < g c d := fun c hc d => (hf c hc d).trans_le (hfg c hc d)
  have sf := ready_sound h l f hl hf
  have sg := ready_sound h l g hl hg
  obtain ⟨P, p1, p2, p3⟩ := C90_bounds sf h.tiling h.box h.suited hbc
  obtain ⟨T, t1, t2, _⟩ := C90_bounds sg h.tiling h.box h.suited hbc
  obtain ⟨P', T', q1, q2, q3⟩ := C92_monotone_fixed sf h.tiling h.box h.suited hbc
    (tracer (setPerms J.I (l.map g))).perm (fun _ => tracerMob 1) (fun _ => tracerRho) sg
    (cond_le J.I l f g hl hfg)
  have b0 : Boundary.BCs K := ⟨⟨[], []⟩, [], []⟩
  have eP : P = P' := Option.some.inj ((p1 b0).symm.trans (q1 b0))
  have eT : T = T' := Option.some.inj ((t1 b0).symm.trans (q2 b0))
  exact ⟨P, T, p1, t1, p2, t2, fun d => ⟨(p3 d).1, by rw [eP, eT]; exact q3 d⟩⟩

theorem flow_periodic (h : Ready J lo hi side) (l : List Nat) (f g : Nat → Fin 3 → K) (hl : l.length = J.I.G.nc)
    (hf : ∀ c ∈ l, ∀ d, 0 < f c d) (hfg : ∀ c ∈ l, ∀ d, f c d ≤ g c d) (hbc : J.I.bct = .periodic) :
    ∃ P T, (∀ b, upscaleSinglePhase (setPerms J.I (l.map f)) b = some P) ∧
      (∀ b, upscaleSinglePhase (setPerms J.I (l.map g)) b = some T) ∧
      Mimetic.Symm P ∧ Mimetic.Symm T ∧ Mimetic.PosDef P ∧ Mimetic.PosDef T ∧
      ∀ x, Mimetic.quadForm P x ≤ Mimetic.quadForm T x := by
  have hg : ∀ c ∈ l, ∀ d, 0 < g c d := fun c hc d => (hf c hc d).trans_le (hfg c hc d)
  have sf := ready_sound h l f hl hf
  have sg := ready_sound h l g hl hg
  obtain ⟨P, p1, p2, p3, _⟩ := C91_bounds sf h.tiling h.box h.suited hbc
  obtain ⟨T, t1, t2, t3, _⟩ := C91_bounds sg h.tiling h.box h.suited hbc
  obtain ⟨P', T', q1, q2, q3⟩ := C92_monotone_periodic sf h.tiling h.box h.suited hbc
    (tracer (setPerms J.I (l.map g))).perm (fun _ => tracerMob 1) (fun _ => tracerRho) sg
    (cond_le J.I l f g hl hfg)
  have b0 : Boundary.BCs K := ⟨⟨[], []⟩, [], []⟩
  have eP : P = P' := Option.some.inj ((p1 b0).symm.trans (q1 b0))
  have eT : T = T' := Option.some.inj ((t1 b0).symm.trans (q2 b0))
  exact ⟨P, T, p1, t1, p2, t2, p3, t3, fun x => by rw [eP, eT]; exact q3 x⟩

/-! ### The quotient of the tensors -/

omit [LinearOrder K] [IsStrictOrderedRing K] in
theorem tensor_rep (T : Fin 3 → Fin 3 → K) : Represents (tensor T) (Matrix.of T) := by
  refine ⟨rfl, rfl, rfl, fun i j => ?_⟩
  fin_cases i <;> fin_cases j <;> rfl

theorem unit_posdef (T : Fin 3 → Fin 3 → K) (h : Mimetic.PosDef T) : IsUnit (Matrix.of T) := by
  rw [← Matrix.mulVec_injective_iff_isUnit]
  intro x y e
  by_contra hne
  have hd : ∃ i, (x - y) i ≠ 0 := by
    by_contra hh
    push Not at hh
    exact hne (sub_eq_zero.mp (funext hh))
  have hp := h (x - y) hd
  have e' : (Matrix.of T).mulVec (x - y) = 0 := by rw [Matrix.mulVec_sub, sub_eq_zero]; exact e
  have : Mimetic.quadForm T (x - y) = ∑ i, (x - y) i * (Matrix.of T).mulVec (x - y) i := by
    unfold Mimetic.quadForm Matrix.mulVec dotProduct
    refine Finset.sum_congr rfl fun i _ => ?_
    rw [Finset.mul_sum]
    exact Finset.sum_congr rfl fun j _ => mul_assoc _ _ _
  rw [this, e'] at hp
  simp at hp

theorem posdef_diag (T : Fin 3 → Fin 3 → K) (h0 : ∀ i j, i ≠ j → T i j = 0) (hp : ∀ d, 0 < T d d) : Mimetic.PosDef T := by
  intro v hv
  have e : T = fun i j => if i = j then T i i else 0 := by
    funext i j
    by_cases e : i = j
    · rw [if_pos e, e]
    · rw [if_neg e, h0 i j e]
  rw [e, quad_diag]
  obtain ⟨i, hi⟩ := hv
  exact Finset.sum_pos' (fun j _ => mul_nonneg (hp j).le (sq_nonneg _))
    ⟨i, Finset.mem_univ _, mul_pos (hp i) (by positivity)⟩

theorem relPerm_fixed (h : Ready J lo hi side) (hbc : J.I.bct = .fixed) (T P : Fin 3 → Fin 3 → K)
    (h0 : ∀ i j, i ≠ j → T i j = 0) (hp : ∀ d, 0 < T d d) :
    relPerm J T P = some [P 0 0 / T 0 0, P 1 1 / T 1 1, P 2 2 / T 2 2] := by
  have hu := unit_posdef T (posdef_diag T h0 hp)
  obtain ⟨R, e1, e2⟩ := C69_diagonal (J.invert (tensor T)) _ (Matrix.of T) (h.invert _ _ (tensor_rep T) hu)
    (Matrix.nonsing_inv_mul _ ((Matrix.isUnit_iff_isUnit_det _).mp hu)) (P 0 0) (P 1 1) (P 2 2)
  have key : ∀ d : Fin 3, R d d = (![P 0 0, P 1 1, P 2 2] d) / T d d := by
    intro d
    have := congrFun (congrFun e2 d) d
    rw [Matrix.mul_apply, Finset.sum_eq_single d] at this
    · rw [eq_div_iff (hp d).ne']
      refine this.trans ?_
      fin_cases d <;> rfl
    · intro j _ hj
      rw [Matrix.of_apply, h0 j d hj, mul_zero]
    · simp
  unfold relPerm
  rw [hbc]
  change relPermRow zeroTensor (J.invert (tensor T)) 3 [P 0 0, P 1 1, P 2 2] = _
  rw [e1, key 0, key 1, key 2]
  rfl

theorem relPerm_full (h : Ready J lo hi side) (hbc : J.I.bct = .periodic) (T P : Fin 3 → Fin 3 → K)
    (hT : Mimetic.PosDef T) : ∃ r, relPerm J T P = some (List.ofFn r) ∧ ofVoigt r * Matrix.of T = Matrix.of P := by
  have hu := unit_posdef T hT
  obtain ⟨r, e1, e2⟩ := C69_full (J.invert (tensor T)) _ (Matrix.of T) (h.invert _ _ (tensor_rep T) hu)
    (Matrix.nonsing_inv_mul _ ((Matrix.isUnit_iff_isUnit_det _).mp hu))
    ![P 0 0, P 1 1, P 2 2, P 1 2, P 0 2, P 0 1, P 2 1, P 2 0, P 1 0]
  refine ⟨r, ?_, ?_⟩
  · unfold relPerm
    rw [hbc]
    refine Eq.trans ?_ e1
    change relPermRow zeroTensor (J.invert (tensor T)) 9 [P 0 0, P 1 1, P 2 2, P 1 2, P 0 2, P 0 1, P 2 1, P 2 0, P 1 0] = _
    congr 1
  · refine Eq.trans e2 ?_
    ext i j
    fin_cases i <;> fin_cases j <;> rfl

theorem eig_unit (T P : Fin 3 → Fin 3 → K) (hT : Mimetic.PosDef T) (hP : Mimetic.PosDef P)
    (hle : ∀ x, Mimetic.quadForm P x ≤ Mimetic.quadForm T x) (R : Matrix (Fin 3) (Fin 3) K)
    (e : R * Matrix.of T = Matrix.of P) (z : K) (v : Fin 3 → K) (hv : v ≠ 0) (hz : R.mulVec v = z • v) : 0 < z ∧ z ≤ 1 := by
  have hu := (Matrix.isUnit_iff_isUnit_det _).mp (unit_posdef T hT)
  set y := (Matrix.of T)⁻¹.mulVec v with hy
  have hTy : (Matrix.of T).mulVec y = v := by
    rw [hy, Matrix.mulVec_mulVec, Matrix.mul_nonsing_inv _ hu, Matrix.one_mulVec]
  have hPy : (Matrix.of P).mulVec y = z • (Matrix.of T).mulVec y := by
    rw [← e, ← Matrix.mulVec_mulVec, hTy, hz]
  have hy0 : ∃ i, y i ≠ 0 := by
    by_contra hh
    push Not at hh
    have : y = 0 := funext hh
    rw [this, Matrix.mulVec_zero] at hTy
    exact hv hTy.symm
  have q : ∀ A : Fin 3 → Fin 3 → K, Mimetic.quadForm A y = ∑ i, y i * (Matrix.of A).mulVec y i := by
    intro A
    unfold Mimetic.quadForm Matrix.mulVec dotProduct
    refine Finset.sum_congr rfl fun i _ => ?_
    rw [Finset.mul_sum]
    exact Finset.sum_congr rfl fun j _ => mul_assoc _ _ _
  have hq : Mimetic.quadForm P y = z * Mimetic.quadForm T y := by
    rw [q P, q T, hPy, Finset.mul_sum]
    refine Finset.sum_congr rfl fun i _ => ?_
    rw [Pi.smul_apply, smul_eq_mul]
    ring
  have h1 := hT y hy0
  have h2 := hP y hy0
  have h3 := hle y
  rw [hq] at h2 h3
  exact ⟨pos_of_mul_pos_left h2 h1.le, by nlinarith⟩

end flow

/-! ### The properties -/

section props
variable {J : Job K} {lo hi : Fin 3 → K} {side : Boundary.Face K → Nat}

omit [IsStrictOrderedRing K] in
theorem phase_eq (ha : J.S.aniso = false) (kr : Fin 3 → Nat → K → K) (p : K) (s : Nat → K)
    (hs : ∀ c ∈ J.S.globalCell, 0 < J.S.satnum c → RelPerm.Spec.CellSat J.S p c (s c)) (b : Boundary.BCs K) :
    phase J kr p b = upscaleSinglePhase (setPerms J.I (J.S.globalCell.map fun c (_ : Fin 3) =>
      cellK J.S (kr 0) J.contrast J.minPerm s c)) b := by
  unfold phase phaseDiags
  rw [if_neg (by rw [ha]; simp), cellPerms_eq J.S (kr 0) J.contrast J.minPerm p s hs]
  simp only [Option.map_some, Option.bind_some, List.map_map]
  rfl

omit [IsStrictOrderedRing K] in
theorem single_eq (ha : J.S.aniso = false) (b : Boundary.BCs K) :
    single J b = upscaleSinglePhase (setPerms J.I (J.S.globalCell.map fun c (_ : Fin 3) =>
      singleK J.S J.contrast J.minPerm c)) b := by
  unfold single
  rw [singlePerms_eq _ _ _ _ _ ha]

/-- Saturations of the cells. -/
def sats (S : Sys K) (h : Nat → K) (p : K) (c : Nat) : K :=
  (RelPerm.Spec.curve S c).eval (RelPerm.Spec.scale S c * (p - h c))

omit [IsStrictOrderedRing K] in
theorem heads_of (hv : Valid J) : ∃ h : Nat → K, ∀ p, ∀ c ∈ J.S.globalCell, 0 < J.S.satnum c →
    RelPerm.Spec.CellSat J.S p c (sats J.S h p c) := by
  classical
  have : ∀ c, ∃ h, c ∈ J.S.globalCell → 0 < J.S.satnum c → RelPerm.Spec.Head J.S c h := by
    intro c
    by_cases hc : c ∈ J.S.globalCell ∧ 0 < J.S.satnum c
    · obtain ⟨h, e⟩ := hv.heads c hc.1 hc.2
      exact ⟨h, fun _ _ => e⟩
    · exact ⟨0, fun a b => absurd ⟨a, b⟩ hc⟩
  choose h hh using this
  exact ⟨h, fun p c hc hr => ⟨h c, hh c hc hr, rfl⟩⟩

/-- The raw permeability of the cells is monotone in the pressure. -/
theorem raw_mono (hr : FallingRocks J) (kr : Nat → K → K) (hv : Valid J) (hd : Nat → K) {p q : K} (hpq : p ≤ q) :
    ((∀ r s t, s ≤ t → kr r s ≤ kr r t) → ∀ c ∈ J.S.globalCell,
      raw J.S kr (sats J.S hd q) c ≤ raw J.S kr (sats J.S hd p) c) ∧
    ((∀ r s t, s ≤ t → kr r t ≤ kr r s) → ∀ c ∈ J.S.globalCell,
      raw J.S kr (sats J.S hd p) c ≤ raw J.S kr (sats J.S hd q) c) := by
  have hsat : ∀ c ∈ J.S.globalCell, 0 < J.S.satnum c → sats J.S hd q c ≤ sats J.S hd p c := fun c hc hs =>
    hr.falls c hc hs _ _ (mul_le_mul_of_nonneg_left (sub_le_sub_right hpq _) (hr.scale c hc hs))
  constructor <;> intro hk c hc <;> unfold raw <;> split
  · exact mul_le_mul_of_nonneg_right (hk _ _ _ (hsat c hc ‹_›)) (hv.perm c hc)
  · exact le_refl _
  · exact mul_le_mul_of_nonneg_right (hk _ _ _ (hsat c hc ‹_›)) (hv.perm c hc)
  · exact le_refl _

omit [IsStrictOrderedRing K] in
theorem point_sat {kr : Fin 3 → Nat → K → K} {p w : K} {b b' : Boundary.BCs K} {row : List K}
    (h : point J kr p b b' = some (w, row)) : upscaledSw J.S p = some w := by
  unfold point at h
  simp only [Option.bind_eq_some_iff, Option.map_eq_some_iff, Prod.mk.injEq] at h
  obtain ⟨_, _, _, _, v, e, _, _, e', _⟩ := h
  rw [e, e']

omit [IsStrictOrderedRing K] in
theorem mean_unique {S : Sys K} {p w v : K} (h : RelPerm.Spec.MeanSat S p w) (h' : RelPerm.Spec.MeanSat S p v) : w = v := by
  obtain ⟨s, a1, a2, a3⟩ := h
  obtain ⟨t, b1, b2, b3⟩ := h'
  refine mul_right_cancel₀ a2 (a3.trans (Eq.trans ?_ b3.symm))
  congr 1
  refine List.map_congr_left fun c hc => ?_
  by_cases hr : 0 < S.satnum c
  · obtain ⟨hd, e1, e2⟩ := a1 c hc hr
    obtain ⟨hd', e3, e4⟩ := b1 c hc hr
    have : hd = hd' := by
      rcases e1 with ⟨a, b⟩ | ⟨a, b⟩ <;> rcases e3 with ⟨a', b'⟩ | ⟨a', b'⟩
      · rw [b, b']
      · exact absurd a a'
      · exact absurd a' a
      · rw [b] at b'; exact Option.some.inj b'
    rw [e2, e4, this]
  · simp [RelPerm.Spec.pv, hr]

/-- Larger permeabilities of the cells: larger relative permeabilities. -/
theorem ratio_mono (h : Ready J lo hi side) (hl : J.S.globalCell.length = J.I.G.nc) (hbc : J.I.bct = .fixed)
    (kr : Fin 3 → Nat → K → K) (p q : K) (f g t : Nat → Fin 3 → K)
    (hf : ∀ c ∈ J.S.globalCell, ∀ d, 0 < f c d) (ht : ∀ c ∈ J.S.globalCell, ∀ d, 0 < t c d)
    (hfg : ∀ c ∈ J.S.globalCell, ∀ d, f c d ≤ g c d)
    (eS : ∀ b, single J b = upscaleSinglePhase (setPerms J.I (J.S.globalCell.map t)) b)
    (eP : ∀ b, phase J kr p b = upscaleSinglePhase (setPerms J.I (J.S.globalCell.map f)) b)
    (eQ : ∀ b, phase J kr q b = upscaleSinglePhase (setPerms J.I (J.S.globalCell.map g)) b)
    {b b' e e' : Boundary.BCs K} {w w' : K} {row row' : List K}
    (hp : point J kr p b b' = some (w, row)) (hq : point J kr q e e' = some (w', row')) :
    List.Forall₂ (· ≤ ·) row row' := by
  obtain ⟨P, Q, p1, q1, _, _, le⟩ := flow_fixed h J.S.globalCell f g hl hf hfg hbc
  obtain ⟨T, _, t1, _, t2, _, tp⟩ := flow_fixed h J.S.globalCell t t hl ht (fun c _ _ => le_refl _) hbc
  have hT : ∀ d, 0 < T d d := fun d => (tp d).1
  unfold point at hp hq
  rw [eS, eP, t1, p1] at hp
  rw [eS, eQ, t1, q1] at hq
  simp only [Option.bind_some, Option.bind_eq_some_iff, Option.map_eq_some_iff, Prod.mk.injEq,
    relPerm_fixed h hbc T _ t2 hT, Option.some.injEq] at hp hq
  obtain ⟨_, _, _, er, _, er'⟩ := hp
  obtain ⟨_, _, _, fr, _, fr'⟩ := hq
  rw [← er', ← er, ← fr', ← fr]
  have := fun d => div_le_div_of_nonneg_right (le d).2 (hT d).le
  exact .cons (this 0) (.cons (this 1) (.cons (this 2) .nil))

/-- The point is computed, and is the quotient of the tensors. -/
theorem ratio_unit (h : Ready J lo hi side) (hl : J.S.globalCell.length = J.I.G.nc) (hbc : J.I.bct = .fixed)
    (hh : ∀ c ∈ J.S.globalCell, 0 < J.S.satnum c → ∃ h, RelPerm.Spec.Head J.S c h)
    (hvol : (J.S.globalCell.map (RelPerm.Spec.pv J.S)).sum ≠ 0)
    (kr : Fin 3 → Nat → K → K) (p : K) (f t : Nat → Fin 3 → K)
    (hf : ∀ c ∈ J.S.globalCell, ∀ d, 0 < f c d) (hft : ∀ c ∈ J.S.globalCell, ∀ d, f c d ≤ t c d)
    (eS : ∀ b, single J b = upscaleSinglePhase (setPerms J.I (J.S.globalCell.map t)) b)
    (eP : ∀ b, phase J kr p b = upscaleSinglePhase (setPerms J.I (J.S.globalCell.map f)) b) :
    ∃ T P w, ∃ r : Fin 3 → K, (∀ b, single J b = some T) ∧ (∀ b, phase J kr p b = some P) ∧ RelPerm.Spec.MeanSat J.S p w ∧
      (∀ b b', point J kr p b b' = some (w, [r 0, r 1, r 2])) ∧ ∀ d, r d * T d d = P d d ∧ 0 < r d ∧ r d ≤ 1 := by
  obtain ⟨w, hw⟩ := C68_defined J.S p hh hvol
  obtain ⟨P, T, p1, t1, p2, t2, le⟩ := flow_fixed h J.S.globalCell f t hl hf hft hbc
  have hT : ∀ d, 0 < T d d := fun d => (le d).1.trans_le (le d).2
  have hS : ∀ b, single J b = some T := fun b => (eS b).trans (t1 b)
  have hP : ∀ b, phase J kr p b = some P := fun b => (eP b).trans (p1 b)
  refine ⟨T, P, w, fun d => P d d / T d d, hS, hP, C68_mean J.S p w hw, fun b b' => ?_, fun d =>
    ⟨div_mul_cancel₀ _ (hT d).ne', div_pos (le d).1 (hT d), (div_le_one (hT d)).mpr (le d).2⟩⟩
  unfold point
  rw [hS b, hP b', hw]
  simp only [Option.bind_some]
  rw [relPerm_fixed h hbc T P t2 hT]
  rfl

theorem ratio_periodic (h : Ready J lo hi side) (hl : J.S.globalCell.length = J.I.G.nc) (hbc : J.I.bct = .periodic)
    (hh : ∀ c ∈ J.S.globalCell, 0 < J.S.satnum c → ∃ h, RelPerm.Spec.Head J.S c h)
    (hvol : (J.S.globalCell.map (RelPerm.Spec.pv J.S)).sum ≠ 0)
    (kr : Fin 3 → Nat → K → K) (p : K) (f t : Nat → Fin 3 → K)
    (hf : ∀ c ∈ J.S.globalCell, ∀ d, 0 < f c d) (hft : ∀ c ∈ J.S.globalCell, ∀ d, f c d ≤ t c d)
    (eS : ∀ b, single J b = upscaleSinglePhase (setPerms J.I (J.S.globalCell.map t)) b)
    (eP : ∀ b, phase J kr p b = upscaleSinglePhase (setPerms J.I (J.S.globalCell.map f)) b) :
    ∃ T P w, ∃ r : Fin 9 → K, (∀ b, single J b = some T) ∧ (∀ b, phase J kr p b = some P) ∧ RelPerm.Spec.MeanSat J.S p w ∧
      (∀ b b', point J kr p b b' = some (w, List.ofFn r)) ∧ ofVoigt r * Matrix.of T = Matrix.of P ∧
      Mimetic.Symm T ∧ Mimetic.Symm P ∧ (∀ x, (∃ i, x i ≠ 0) → 0 < Mimetic.quadForm P x ∧
        Mimetic.quadForm P x ≤ Mimetic.quadForm T x) ∧
      ∀ (z : K) (v : Fin 3 → K), v ≠ 0 → (ofVoigt r).mulVec v = z • v → 0 < z ∧ z ≤ 1 := by
  obtain ⟨w, hw⟩ := C68_defined J.S p hh hvol
  obtain ⟨P, T, p1, t1, p2, t2, p3, t3, le⟩ := flow_periodic h J.S.globalCell f t hl hf hft hbc
  have hS : ∀ b, single J b = some T := fun b => (eS b).trans (t1 b)
  have hP : ∀ b, phase J kr p b = some P := fun b => (eP b).trans (p1 b)
  obtain ⟨r, r1, r2⟩ := relPerm_full h hbc T P t3
  refine ⟨T, P, w, r, hS, hP, C68_mean J.S p w hw, fun b b' => ?_, r2, t2, p2, fun x hx => ⟨p3 x hx, le x⟩,
    fun z v hv' hz => eig_unit T P t3 p3 le _ r2 z v hv' hz⟩
  unfold point
  rw [hS b, hP b', hw]
  simp only [Option.bind_some]
  rw [r1]
  rfl

/-- C143: with fixed boundary conditions and isotropic input every upscaled relative permeability is the quotient of upscaled phase
and single phase permeability, positive and at most one, reported for the pore volume weighted mean of the cells' saturations. -/
theorem C143_unit (h : Ready J lo hi side) (hv : Valid J) (hbc : J.I.bct = .fixed) (ha : J.S.aniso = false)
    (kr : Fin 3 → Nat → K → K) (hk : UnitRange (kr 0)) (p : K) :
    ∃ T P w, ∃ r : Fin 3 → K, (∀ b, single J b = some T) ∧ (∀ b, phase J kr p b = some P) ∧ RelPerm.Spec.MeanSat J.S p w ∧
      (∀ b b', point J kr p b b' = some (w, [r 0, r 1, r 2])) ∧ ∀ d, r d * T d d = P d d ∧ 0 < r d ∧ r d ≤ 1 := by
  obtain ⟨hd, hs⟩ := heads_of hv
  exact ratio_unit h hv.cells hbc hv.heads hv.volume kr p _ _ (fun c _ _ => cellK_pos _ _ _ _ _ hv.minPerm c)
    (fun c hc _ => cellK_le_single J.S (kr 0) J.contrast J.minPerm _ hv.contrast hv.minPerm hv.perm
      (fun c _ _ => (hk _ _).2) c hc) (single_eq ha) (phase_eq ha kr p _ (hs p))

/-- C143: the same with periodic boundary conditions: single phase and phase permeability are symmetric positive definite, the phase
permeability is the smaller one, and all eigenvalues of the relative permeability tensor are positive and at most one. -/
theorem C143_periodic (h : Ready J lo hi side) (hv : Valid J) (hbc : J.I.bct = .periodic) (ha : J.S.aniso = false)
    (kr : Fin 3 → Nat → K → K) (hk : UnitRange (kr 0)) (p : K) :
    ∃ T P w, ∃ r : Fin 9 → K, (∀ b, single J b = some T) ∧ (∀ b, phase J kr p b = some P) ∧ RelPerm.Spec.MeanSat J.S p w ∧
      (∀ b b', point J kr p b b' = some (w, List.ofFn r)) ∧ ofVoigt r * Matrix.of T = Matrix.of P ∧
      Mimetic.Symm T ∧ Mimetic.Symm P ∧ (∀ x, (∃ i, x i ≠ 0) → 0 < Mimetic.quadForm P x ∧
        Mimetic.quadForm P x ≤ Mimetic.quadForm T x) ∧
      ∀ (z : K) (v : Fin 3 → K), v ≠ 0 → (ofVoigt r).mulVec v = z • v → 0 < z ∧ z ≤ 1 := by
  obtain ⟨hd, hs⟩ := heads_of hv
  exact ratio_periodic h hv.cells hbc hv.heads hv.volume kr p _ _ (fun c _ _ => cellK_pos _ _ _ _ _ hv.minPerm c)
    (fun c hc _ => cellK_le_single J.S (kr 0) J.contrast J.minPerm _ hv.contrast hv.minPerm hv.perm
      (fun c _ _ => (hk _ _).2) c hc) (single_eq ha) (phase_eq ha kr p _ (hs p))

/-- C143: the upscaled curves of isotropic input with fixed boundary conditions are monotone. Of any two points of the upscaled
curve the one with larger saturation has relative permeabilities that are not smaller, if relative permeability does not
fall with saturation in any rock type, and not larger, if it does not rise in any. -/
theorem C143_monotone (h : Ready J lo hi side) (hv : Valid J) (hbc : J.I.bct = .fixed) (ha : J.S.aniso = false)
    (hr : FallingRocks J) (kr : Fin 3 → Nat → K → K) (p q : K) (b b' e e' : Boundary.BCs K) (w w' : K) (row row' : List K)
    (hp : point J kr p b b' = some (w, row)) (hq : point J kr q e e' = some (w', row')) (hw : w < w') :
    ((∀ r s t, s ≤ t → kr 0 r s ≤ kr 0 r t) → List.Forall₂ (· ≤ ·) row row') ∧
    ((∀ r s t, s ≤ t → kr 0 r t ≤ kr 0 r s) → List.Forall₂ (· ≤ ·) row' row) := by
  obtain ⟨hd, hs⟩ := heads_of hv
  have hqp : q ≤ p := by
    by_contra hh
    have e1 := point_sat hp
    have e2 := point_sat hq
    exact absurd (C68_antitone J.S p q w w' (not_le.mp hh).le e1 e2 hr.pv hr.scale hr.falls) (not_le.mpr hw)
  have key : ∀ p q, (∀ c ∈ J.S.globalCell, raw J.S (kr 0) (sats J.S hd p) c ≤ raw J.S (kr 0) (sats J.S hd q) c) →
      ∀ {b b' e e' : Boundary.BCs K} {w w' : K} {row row' : List K}, point J kr p b b' = some (w, row) →
      point J kr q e e' = some (w', row') → List.Forall₂ (· ≤ ·) row row' := fun p q hraw _ _ _ _ _ _ _ _ hp hq =>
    ratio_mono h hv.cells hbc kr p q _ _ _ (fun c _ _ => cellK_pos _ _ _ _ _ hv.minPerm c)
      (fun c _ _ => singleK_pos _ _ _ hv.minPerm c)
      (fun c hc _ => cellK_mono J.S (kr 0) (kr 0) J.contrast J.minPerm _ _ hv.contrast hraw c hc)
      (single_eq ha) (phase_eq ha kr p _ (hs p)) (phase_eq ha kr q _ (hs q)) hp hq
  exact ⟨fun hk => key p q ((raw_mono hr (kr 0) hv hd hqp).1 hk) hp hq,
    fun hk => key q p ((raw_mono hr (kr 0) hv hd hqp).2 hk) hq hp⟩

/-! ### Where the rock conducts the phase fully -/

omit [IsStrictOrderedRing K] in
theorem top_full (S : Sys K) (kr : Nat → K → K) (minPerm : K) (s : Nat → K) (l : List Nat)
    (h : ∀ c ∈ l, 0 < S.satnum c → raw S kr s c = S.permx c) (m m' : K) (hm : max m minPerm = max m' minPerm) :
    max (top S kr minPerm s m l) minPerm = max (l.foldl (maxSingle S) m') minPerm := by
  induction l generalizing m m' with
  | nil => exact hm
  | cons c l ih =>
    unfold top
    rw [List.foldl_cons, List.foldl_cons]
    refine ih (fun d hd => h d (List.mem_cons_of_mem _ hd)) _ _ ?_
    unfold maxSingle
    by_cases hr : 0 < S.satnum c
    · rw [if_pos hr, if_pos hr, h c (List.mem_cons_self ..) hr, max_assoc, max_self, max_right_comm, hm, max_right_comm]
    · rw [if_neg hr, if_neg hr, hm]

theorem floor_full {a b c m : K} (hc : 1 ≤ c) (hm : 0 < m) (h : max a m = max b m) : max (a / c) m = max (b / c) m := by
  have key : ∀ x : K, max (x / c) m = max (max x m / c) m := by
    intro x
    have hcp : 0 < c := zero_lt_one.trans_le hc
    have e : max x m / c = max (x / c) (m / c) := (max_div_div_right hcp.le x m).symm
    rw [e, max_assoc, max_eq_right (div_le_self hm.le hc)]
  rw [key a, key b, h]

theorem cellK_full (S : Sys K) (kr : Nat → K → K) (contrast minPerm : K) (s : Nat → K) (hc : 1 ≤ contrast)
    (hmin : 0 < minPerm) (h0 : ∀ c ∈ S.globalCell, ¬ 0 < S.satnum c → S.permx c ≤ minPerm)
    (h : ∀ c ∈ S.globalCell, 0 < S.satnum c → kr (S.satnum c - 1).toNat (s c) = 1) (c : Nat) (hm : c ∈ S.globalCell) :
    cellK S kr contrast minPerm s c = singleK S contrast minPerm c := by
  have hr : ∀ c ∈ S.globalCell, 0 < S.satnum c → raw S kr s c = S.permx c := by
    intro c hc hs
    unfold raw
    rw [if_pos hs, h c hc hs, one_mul]
  have ht := floor_full hc hmin (top_full S kr minPerm s S.globalCell hr 0 0 rfl)
  unfold cellK singleK singleFloor
  rw [ht]
  by_cases hs : 0 < S.satnum c
  · rw [hr c hm hs, max_comm]
  · unfold raw
    rw [if_neg hs, max_eq_left (hmin.le.trans (le_max_right _ _)),
      max_eq_right ((h0 c hm hs).trans (le_max_right _ _))]

/-- C143: where every rock conducts the phase fully (and cells without rock have no more than the least permeability), the
upscaled relative permeability is one, exactly, with fixed and with periodic conditions. -/
theorem C143_full (h : Ready J lo hi side) (hv : Valid J) (hbc : J.I.bct ≠ .linear) (ha : J.S.aniso = false)
    (h0 : ∀ c ∈ J.S.globalCell, ¬ 0 < J.S.satnum c → J.S.permx c ≤ J.minPerm)
    (kr : Fin 3 → Nat → K → K) (p : K)
    (hk : ∀ c ∈ J.S.globalCell, 0 < J.S.satnum c → ∀ s, RelPerm.Spec.CellSat J.S p c s →
      kr 0 (J.S.satnum c - 1).toNat s = 1) :
    ∃ w, RelPerm.Spec.MeanSat J.S p w ∧ ∀ b b', point J kr p b b' =
      some (w, if J.I.bct = .fixed then [1, 1, 1] else [1, 1, 1, 0, 0, 0, 0, 0, 0]) := by
  obtain ⟨hd, hs⟩ := heads_of hv
  have hPS : ∀ b, phase J kr p b = single J b := by
    intro b
    rw [single_eq ha, phase_eq ha kr p _ (hs p)]
    congr 2
    refine List.map_congr_left fun c hc => ?_
    funext _
    exact cellK_full J.S (kr 0) J.contrast J.minPerm _ hv.contrast hv.minPerm h0
      (fun c hc hr => hk c hc hr _ (hs p c hc hr)) c hc
  have eS := single_eq (J := J) ha
  cases hb : J.I.bct with
  | linear => exact absurd hb hbc
  | fixed =>
    obtain ⟨T, P, w, r, e1, e2, e3, e4, e5⟩ := ratio_unit h hv.cells hb hv.heads hv.volume kr p _ _
      (fun c _ _ => singleK_pos J.S J.contrast J.minPerm hv.minPerm c) (fun c _ _ => le_refl _) eS (fun b => (hPS b).trans (eS b))
    refine ⟨w, e3, fun b b' => ?_⟩
    have : ∀ d, r d = 1 := by
      intro d
      obtain ⟨q1, q2, q3⟩ := e5 d
      have eTP : T = P := Option.some.inj ((e1 b).symm.trans ((hPS b).symm.trans (e2 b)))
      have hne : T d d ≠ 0 := by
        intro hz
        obtain ⟨_, T', _, t1, _, _, tp⟩ := flow_fixed h J.S.globalCell _ _ hv.cells
          (fun c _ (_ : Fin 3) => singleK_pos J.S J.contrast J.minPerm hv.minPerm c) (fun c _ _ => le_refl _) hb
        have : T = T' := Option.some.inj ((e1 b).symm.trans ((eS b).trans (t1 b)))
        have := (tp d).1.trans_le (tp d).2
        simp_all
      rw [← eTP] at q1
      exact mul_right_cancel₀ hne (by rw [q1, one_mul])
    rw [e4 b b', this, this, this]
    rfl
  | periodic =>
    obtain ⟨T, P, w, r, e1, e2, e3, e4, e5, e6, e7, e8, _⟩ := ratio_periodic h hv.cells hb hv.heads hv.volume kr p _ _
      (fun c _ _ => singleK_pos J.S J.contrast J.minPerm hv.minPerm c) (fun c _ _ => le_refl _) eS (fun b => (hPS b).trans (eS b))
    refine ⟨w, e3, fun b b' => ?_⟩
    have eTP : T = P := Option.some.inj ((e1 b).symm.trans ((hPS b).symm.trans (e2 b)))
    have hu := unit_posdef T (fun v hv => (e8 v hv).1.trans_le (e8 v hv).2)
    rw [← eTP] at e5
    have e : ofVoigt r = 1 := hu.mul_right_cancel (e5.trans (Matrix.one_mul _).symm)
    have g : ∀ i j, ofVoigt r i j = (1 : Matrix (Fin 3) (Fin 3) K) i j := fun i j => by rw [e]
    have r0 : r 0 = 1 := g 0 0
    have r1 : r 1 = 1 := g 1 1
    have r2 : r 2 = 1 := g 2 2
    have r3 : r 3 = 0 := g 1 2
    have r4 : r 4 = 0 := g 0 2
    have r5 : r 5 = 0 := g 0 1
    have r6 : r 6 = 0 := g 2 1
    have r7 : r 7 = 0 := g 2 0
    have r8 : r 8 = 0 := g 1 0
    rw [e4 b b', show List.ofFn r = [r 0, r 1, r 2, r 3, r 4, r 5, r 6, r 7, r 8] by simp [List.ofFn_succ, Fin.succ],
      r0, r1, r2, r3, r4, r5, r6, r7, r8]
    rfl

/-- C143: with periodic conditions the upscaled phase permeability is monotone as a quadratic form: at the larger saturation it is
not smaller for a phase whose relative permeability does not fall with saturation, and not larger for one whose does not rise. -/
theorem C143_monotone_periodic (h : Ready J lo hi side) (hv : Valid J) (hbc : J.I.bct = .periodic) (ha : J.S.aniso = false)
    (hr : FallingRocks J) (kr : Fin 3 → Nat → K → K) (p q w w' : K)
    (hp : RelPerm.Spec.MeanSat J.S p w) (hq : RelPerm.Spec.MeanSat J.S q w') (hw : w < w') :
    ∃ P Q, (∀ b, phase J kr p b = some P) ∧ (∀ b, phase J kr q b = some Q) ∧
      ((∀ r s t, s ≤ t → kr 0 r s ≤ kr 0 r t) → ∀ x, Mimetic.quadForm P x ≤ Mimetic.quadForm Q x) ∧
      ((∀ r s t, s ≤ t → kr 0 r t ≤ kr 0 r s) → ∀ x, Mimetic.quadForm Q x ≤ Mimetic.quadForm P x) := by
  obtain ⟨hd, hs⟩ := heads_of hv
  obtain ⟨v, e1⟩ := C68_defined J.S p hv.heads hv.volume
  obtain ⟨v', e2⟩ := C68_defined J.S q hv.heads hv.volume
  have hqp : q ≤ p := by
    by_contra hh
    have := C68_antitone J.S p q v v' (not_le.mp hh).le e1 e2 hr.pv hr.scale hr.falls
    have m1 := mean_unique hp (C68_mean _ _ _ e1)
    have m2 := mean_unique hq (C68_mean _ _ _ e2)
    rw [m1, m2] at hw
    exact absurd this (not_le.mpr hw)
  have key : ∀ p q, (∀ c ∈ J.S.globalCell, raw J.S (kr 0) (sats J.S hd p) c ≤ raw J.S (kr 0) (sats J.S hd q) c) →
      ∃ P Q, (∀ b, phase J kr p b = some P) ∧ (∀ b, phase J kr q b = some Q) ∧
      ∀ x, Mimetic.quadForm P x ≤ Mimetic.quadForm Q x := by
    intro p q hraw
    obtain ⟨P, Q, p1, q1, _, _, _, _, le⟩ := flow_periodic h J.S.globalCell _ _ hv.cells
      (fun c _ (_ : Fin 3) => cellK_pos J.S (kr 0) J.contrast J.minPerm (sats J.S hd p) hv.minPerm c)
      (fun c hc _ => cellK_mono J.S (kr 0) (kr 0) J.contrast J.minPerm _ _ hv.contrast hraw c hc) hbc
    exact ⟨P, Q, fun b => (phase_eq ha kr p _ (hs p) b).trans (p1 b), fun b => (phase_eq ha kr q _ (hs q) b).trans (q1 b), le⟩
  have b0 : Boundary.BCs K := ⟨⟨[], []⟩, [], []⟩
  have ex : ∀ p, ∃ P, ∀ b, phase J kr p b = some P := by
    intro p
    obtain ⟨P, _, h1, _⟩ := key p p (fun _ _ => le_refl _)
    exact ⟨P, h1⟩
  obtain ⟨P, hP⟩ := ex p
  obtain ⟨Q, hQ⟩ := ex q
  refine ⟨P, Q, hP, hQ, fun hk => ?_, fun hk => ?_⟩
  · obtain ⟨P', Q', h1, h2, h3⟩ := key p q ((raw_mono hr (kr 0) hv hd hqp).1 hk)
    have e1 : P = P' := Option.some.inj ((hP b0).symm.trans (h1 b0))
    have e2 : Q = Q' := Option.some.inj ((hQ b0).symm.trans (h2 b0))
    rw [e1, e2]; exact h3
  · obtain ⟨Q', P', h1, h2, h3⟩ := key q p ((raw_mono hr (kr 0) hv hd hqp).2 hk)
    have e1 : P = P' := Option.some.inj ((hP b0).symm.trans (h2 b0))
    have e2 : Q = Q' := Option.some.inj ((hQ b0).symm.trans (h1 b0))
    rw [e1, e2]; exact h3

end props
end Verif.RelPermChain
