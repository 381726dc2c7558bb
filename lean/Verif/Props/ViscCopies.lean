import Verif.Spec.ViscCopies
import Verif.Props.ViscChain
import Verif.Props.RelPermRelabel

/-!
C167: in the viscous limit, copies of a periodic sample have the relative permeabilities of one, and numbering, unit of length, origin and names of the axes do
not change relative permeabilities (`Verif.Model.ViscChain`).
-/

namespace Verif.ViscChain

open Verif.Dense Verif.Control Verif.RelPerm Verif.SinglePhase Verif.Visc

variable {K : Type} [Field K] [LinearOrder K] [IsStrictOrderedRing K]

/-! ### Greatest values depend on the set of values -/

omit [IsStrictOrderedRing K] in
theorem maxPhase_le (l : List (K × (Fin 3 → K))) (m u : K) :
    l.foldl (fun m x => max (max m x.1) (max (max (x.2 0) (x.2 1)) (x.2 2))) m ≤ u ↔
      m ≤ u ∧ ∀ x ∈ l, x.1 ≤ u ∧ (x.2 0 ≤ u ∧ x.2 1 ≤ u) ∧ x.2 2 ≤ u := by
  induction l generalizing m with
  | nil => exact ⟨fun h => ⟨h, fun c hc => absurd hc (List.not_mem_nil)⟩, fun h => h.1⟩
  | cons a l ih =>
    rw [List.foldl_cons, ih, List.forall_mem_cons]
    simp only [max_le_iff]
    tauto

omit [IsStrictOrderedRing K] in
theorem maxPhase_set (l l' : List (K × (Fin 3 → K))) (h : ∀ x, x ∈ l ↔ x ∈ l') : maxPhase l = maxPhase l' := by
  unfold maxPhase
  refine le_antisymm ?_ ?_
  · rw [maxPhase_le]
    have := (maxPhase_le l' 0 _).mp (le_refl _)
    exact ⟨this.1, fun x hx => this.2 x ((h x).mp hx)⟩
  · rw [maxPhase_le]
    have := (maxPhase_le l 0 _).mp (le_refl _)
    exact ⟨this.1, fun x hx => this.2 x ((h x).mpr hx)⟩

omit [IsStrictOrderedRing K] in
theorem maxCells_le (l : List (Cell K)) (m u : K) :
    l.foldl (fun m c => if c.satnum > 0 then max m (c.perm 0) else m) m ≤ u ↔ m ≤ u ∧ ∀ c ∈ l, c.satnum > 0 → c.perm 0 ≤ u := by
  induction l generalizing m with
  | nil => exact ⟨fun h => ⟨h, fun c hc => absurd hc (List.not_mem_nil)⟩, fun h => h.1⟩
  | cons a l ih =>
    rw [List.foldl_cons, ih, List.forall_mem_cons]
    split
    · rw [max_le_iff]
      tauto
    · tauto

/-- No cell. -/
def noCell : Cell K := ⟨0, 0, fun _ => 0, 0⟩

omit [IsStrictOrderedRing K] [LinearOrder K] in
theorem cells_sum {α : Type} {n : Nat} (l : List α) (d : α) (hl : l.length = n) (f : α → K) : (l.map f).sum = ∑ i : Fin n, f (l.getD i.val d) := by
  subst hl
  rw [← Fin.sum_univ_fun_getElem]
  refine Finset.sum_congr rfl fun i _ => ?_
  rw [List.getD_eq_getElem?_getD, List.getElem?_eq_getElem i.2, Option.getD_some]

theorem mem_cells {α : Type} {n : Nat} {l : List α} (d : α) (hl : l.length = n) (x : α) : x ∈ l ↔ ∃ i : Fin n, l.getD i.val d = x := by
  subst hl
  constructor
  · intro h
    obtain ⟨i, hi, e⟩ := List.getElem_of_mem h
    exact ⟨⟨i, hi⟩, by rw [List.getD_eq_getElem?_getD, List.getElem?_eq_getElem hi, Option.getD_some, e]⟩
  · rintro ⟨i, rfl⟩
    rw [List.getD_eq_getElem?_getD, List.getElem?_eq_getElem i.2, Option.getD_some]
    exact List.getElem_mem _

theorem getD_map' {α β : Type} (l : List α) (f : α → β) (d : α) (e : β) (i : Nat) (h : i < l.length) : (l.map f).getD i e = f (l.getD i d) := by
  rw [List.getD_eq_getElem?_getD, List.getD_eq_getElem?_getD, List.getElem?_map, List.getElem?_eq_getElem h]
  rfl

section
variable {J J' : Job K} {lo hi t lo' hi' : Fin 3 → K} {side side' : Boundary.Face K → Nat}

/-- Cells with the same data have the same permeabilities, and the mean saturation is the same. -/
theorem copied_cells {o : Fin J'.I.G.nc → Fin J.I.G.nc} {q : K} (r : CopiedCells J J' o q) (hv : Valid J) (hv' : Valid J')
    (ho : Function.Surjective o) (n : K) (hn : ∀ f : Fin J.I.G.nc → K, ∑ c, f (o c) = n * ∑ c, f c) (kr : Nat → Fin 3 → Curve K) (v : K) :
    (∀ c, (Visc.singlePerms J'.O J'.aniso J'.cells).getD c.val (fun _ => 0) = (Visc.singlePerms J.O J.aniso J.cells).getD (o c).val fun _ => 0) ∧
    (∀ c, (gridPerms J'.O J'.aniso kr (rockSats J' v) J'.cells).getD c.val (fun _ => 0) =
      (gridPerms J.O J.aniso kr (rockSats J v) J.cells).getD (o c).val fun _ => 0) ∧
    ∃ w, swAt J.aniso J.C J.vols (poreVolume J.cells) v = some w ∧ swAt J'.aniso J'.C J'.vols (poreVolume J'.cells) v = some w := by
  have lt : ∀ c : Fin J.I.G.nc, c.val < J.cells.length := fun c => by rw [hv.cells]; exact c.2
  have lt' : ∀ c : Fin J'.I.G.nc, c.val < J'.cells.length := fun c => by rw [hv'.cells]; exact c.2
  -- The cells.
  have hA : ∀ c : Fin J'.I.G.nc, J'.cells.getD c.val noCell = { J.cells.getD (o c).val noCell with vol := q * (J.cells.getD (o c).val noCell).vol } := by
    intro c
    have e := r.cell c _ (List.getElem?_eq_getElem (lt (o c)))
    rw [List.getD_eq_getElem?_getD, e, Option.getD_some, List.getD_eq_getElem?_getD, List.getElem?_eq_getElem (lt (o c)), Option.getD_some]
  have hS : rockSats J' v = rockSats J v := by
    funext x
    unfold rockSats
    rw [r.curves, r.aniso]
  have hphase : ∀ c : Fin J'.I.G.nc, cellPhase J'.O J'.aniso kr (rockSats J' v) (J'.cells.getD c.val noCell) =
      cellPhase J.O J.aniso kr (rockSats J v) (J.cells.getD (o c).val noCell) := by
    intro c
    rw [hA, hS, r.opts, r.aniso]
    rfl
  have hfloor : phaseFloor J'.O (J'.cells.map (cellPhase J'.O J'.aniso kr (rockSats J' v))) =
      phaseFloor J.O (J.cells.map (cellPhase J.O J.aniso kr (rockSats J v))) := by
    unfold phaseFloor
    rw [r.opts, maxPhase_set _ (J.cells.map (cellPhase J.O J.aniso kr (rockSats J v))) fun x => ?_]
    simp only [List.mem_map]
    constructor
    · rintro ⟨y, hy, rfl⟩
      obtain ⟨i, rfl⟩ := (mem_cells noCell hv'.cells y).mp hy
      refine ⟨_, (mem_cells noCell hv.cells _).mpr ⟨o i, rfl⟩, ?_⟩
      rw [← hphase, r.opts]
    · rintro ⟨y, hy, rfl⟩
      obtain ⟨i, rfl⟩ := (mem_cells noCell hv.cells y).mp hy
      obtain ⟨j, rfl⟩ := ho i
      refine ⟨_, (mem_cells noCell hv'.cells _).mpr ⟨j, rfl⟩, ?_⟩
      rw [← hphase, r.opts]
  have hsingle : Visc.singleFloor J'.O J'.cells = Visc.singleFloor J.O J.cells := by
    unfold Visc.singleFloor
    rw [r.opts]
    congr 2
    refine le_antisymm ?_ ?_
    · rw [maxCells_le]
      have := (maxCells_le J.cells 0 _).mp (le_refl _)
      refine ⟨this.1, fun x hx hs => ?_⟩
      obtain ⟨i, rfl⟩ := (mem_cells noCell hv'.cells x).mp hx
      rw [hA] at hs ⊢
      exact this.2 (J.cells.getD (o i).val noCell) ((mem_cells noCell hv.cells _).mpr ⟨o i, rfl⟩) hs
    · rw [maxCells_le]
      have := (maxCells_le J'.cells 0 _).mp (le_refl _)
      refine ⟨this.1, fun x hx hs => ?_⟩
      obtain ⟨i, rfl⟩ := (mem_cells noCell hv.cells x).mp hx
      obtain ⟨j, rfl⟩ := ho i
      have e := this.2 _ ((mem_cells noCell hv'.cells _).mpr ⟨j, rfl⟩)
      rw [hA] at e
      exact e hs
  refine ⟨fun c => ?_, fun c => ?_, ?_⟩
  · unfold Visc.singlePerms
    rw [getD_map' _ _ noCell _ _ (lt' c), getD_map' _ _ noCell _ _ (lt (o c)), hsingle, hA, r.aniso]
  · unfold gridPerms
    have l1 : c.val < (J'.cells.map (cellPhase J'.O J'.aniso kr (rockSats J' v))).length := by rw [List.length_map]; exact lt' c
    have l2 : (o c).val < (J.cells.map (cellPhase J.O J.aniso kr (rockSats J v))).length := by rw [List.length_map]; exact lt (o c)
    dsimp only
    rw [getD_map' _ _ (0, fun _ => 0) _ _ l1, getD_map' _ _ (0, fun _ => 0) _ _ l2, getD_map' _ _ noCell _ _ (lt' c), getD_map' _ _ noCell _ _ (lt (o c)), hfloor,
      hphase, r.aniso]
  · obtain ⟨w, hw, m1⟩ := sat_of hv v
    obtain ⟨w', hw', m2⟩ := sat_of hv' v
    have hpv : ∀ c : Fin J'.I.G.nc, Visc.Spec.pv (J'.cells.getD c.val noCell) = q * Visc.Spec.pv (J.cells.getD (o c).val noCell) := by
      intro c
      rw [hA]
      unfold Visc.Spec.pv
      dsimp only
      split
      · ring
      · rw [mul_zero]
    have hsum : ∀ f f' : Cell K → K, (∀ c : Fin J'.I.G.nc, f' (J'.cells.getD c.val noCell) = q * f (J.cells.getD (o c).val noCell)) →
        (J'.cells.map f').sum = n * q * (J.cells.map f).sum := by
      intro f f' e
      rw [cells_sum _ noCell hv'.cells, cells_sum _ noCell hv.cells]
      refine (Finset.sum_congr rfl fun c _ => e c).trans ?_
      rw [← Finset.mul_sum, hn fun c => f (J.cells.getD c.val noCell)]
      ring
    have hpos := hv'.volume
    unfold MeanSat at m1 m2
    rw [hsum _ _ hpv] at hpos m2
    rw [hsum (fun c => (J.C[(c.satnum - 1).toNat]?).elim 0 (fun q => Visc.Spec.rockSat J.aniso q v) * Visc.Spec.pv c) _ fun c => by
      rw [hpv, hA, r.curves, r.aniso]
      ring, ← m1] at m2
    have : w' = w := mul_right_cancel₀ hpos.ne' (m2.trans (by ring))
    subst this
    exact ⟨w', hw, hw'⟩

/-! ### Flow -/

theorem list_sound (h : Ready J lo hi side) (ks : List (Fin 3 → K)) (hl : ks.length = J.I.G.nc) (hp : ∀ k ∈ ks, ∀ d, 0 < k d) :
    Sound (tracer (RelPermChain.setPerms J.I ks)) := by
  have e := RelPermChain.ready_sound (base_ready h) (List.range ks.length) (fun i => ks.getD i fun _ => 0) (by rw [List.length_range]; exact hl) fun c hc d => by
    have : c < ks.length := List.mem_range.mp hc
    rw [List.getD_eq_getElem?_getD, List.getElem?_eq_getElem this]
    exact hp _ (List.getElem_mem _) d
  rw [← indexed ks] at e
  exact e

theorem cond_list (I : Input K) (ks : List (Fin 3 → K)) (hl : ks.length = I.G.nc) (c : Fin I.G.nc) (i j : Fin 3) :
    cond (tracer (RelPermChain.setPerms I ks)) c i j = if i = j then ks.getD c.val (fun _ => 0) i else 0 := by
  refine (tracer_cond (RelPermChain.setPerms I ks) c i j).trans ?_
  have : c.val < ks.length := by rw [hl]; exact c.2
  unfold RelPermChain.setPerms
  dsimp only
  rw [List.getD_eq_getElem?_getD, List.getElem?_eq_getElem this]
  rfl

theorem single_length (O : Opts K) (aniso : Bool) (cells : List (Cell K)) : (Visc.singlePerms O aniso cells).length = cells.length := by
  unfold Visc.singlePerms
  rw [List.length_map]

theorem single_positive (hv : Valid J) : ∀ k ∈ Visc.singlePerms J.O J.aniso J.cells, ∀ d, 0 < k d := fun k hk d =>
  (List.forall₂_same.mp (single_pos J.O J.aniso J.cells hv.minPerm) k hk d).1

theorem grid_positive (hv : Valid J) (kr : Nat → Fin 3 → Curve K) (s : Nat → K) : ∀ k ∈ gridPerms J.O J.aniso kr s J.cells, ∀ d, 0 < k d := fun k hk d =>
  (List.forall₂_same.mp (grid_mono J.O J.aniso kr kr s s J.cells hv.contrast hv.minPerm hv.perm fun _ _ _ _ => le_refl _) k hk d).1

section
variable {M : Fin 3 → Nat} {σ : Place M × Fin J.I.G.nc ≃ Fin J'.I.G.nc}
  {τ : (x : Place M × Fin J.I.G.nc) → Fin (J.I.G.cell x.2).nf ≃ Fin (J'.I.G.cell (σ x)).nf}

theorem flow_copies (g : StackedGrid J.I.G J'.I.G lo hi t M σ τ) (h : Ready J lo hi side) (h' : Ready J' lo' hi' side') (hp : J.I.bct = .periodic)
    (hp' : J'.I.bct = .periodic) (ks ks' : List (Fin 3 → K)) (hl : ks.length = J.I.G.nc) (hl' : ks'.length = J'.I.G.nc) (hk : ∀ k ∈ ks, ∀ d, 0 < k d)
    (hk' : ∀ k ∈ ks', ∀ d, 0 < k d) (e : ∀ c, ks'.getD c.val (fun _ => 0) = ks.getD (σ.symm c).2.val fun _ => 0) :
    ∃ T, (∀ b, upscaleSinglePhase (RelPermChain.setPerms J.I ks) b = some T) ∧ ∀ b, upscaleSinglePhase (RelPermChain.setPerms J'.I ks') b = some T :=
  C163_single_phase (I := RelPermChain.setPerms J.I ks) (I' := RelPermChain.setPerms J'.I ks') (t := t) (M := M) (σ := σ) (τ := τ)
    ⟨g, fun x i j => by
      refine (cond_list J'.I ks' hl' (σ x) i j).trans (Eq.trans ?_ (cond_list J.I ks hl x.2 i j).symm)
      exact if_congr Iff.rfl (congrFun ((e (σ x)).trans (congrArg (fun y : Place M × Fin J.I.G.nc => ks.getD y.2.val fun _ => 0) (σ.symm_apply_apply x))) i) rfl⟩
    (list_sound h ks hl hk) (list_sound h' ks' hl' hk') h.tiling h'.tiling h.box h'.box h.suited h'.suited hp hp'

/-- **C167**. In the viscous limit, a sample that consists of copies of a periodic sample has, at every ratio of mobilities, the upscaled saturation and the
relative permeabilities of the single sample, for isotropic and anisotropic input. -/
theorem C167_copies (g : StackedGrid J.I.G J'.I.G lo hi t M σ τ) (r : CopiedCells J J' (fun c => (σ.symm c).2) 1) (h : Ready J lo hi side)
    (h' : Ready J' lo' hi' side') (hv : Valid J) (hv' : Valid J') (hp : J.I.bct = .periodic) (hp' : J'.I.bct = .periodic) (hi : J'.invert = J.invert)
    (kr : Nat → Fin 3 → Curve K) (v : K) :
    ∃ T P w, (∀ b, single J b = some T) ∧ (∀ b, single J' b = some T) ∧ (∀ b, phase J kr v b = some P) ∧ (∀ b, phase J' kr v b = some P) ∧
      MeanSat J v w ∧ MeanSat J' v w ∧ ∀ b b' a a', point J' kr v b b' = point J kr v a a' := by
  obtain ⟨p0, -, -⟩ := h'.box.ne 0 (by omega)
  have k0 : Place M := (σ.symm p0.1).1
  obtain ⟨k1, k2, w, hw, hw'⟩ := copied_cells r hv hv' (fun c => ⟨σ (k0, c), by rw [σ.symm_apply_apply]⟩) (Fintype.card (Place M) : K) (fun f => by
    rw [← Equiv.sum_comp σ, Fintype.sum_prod_type]
    refine (Finset.sum_congr rfl fun k _ => Finset.sum_congr rfl fun c _ => by rw [σ.symm_apply_apply]).trans ?_
    exact (Finset.sum_const (∑ c : Fin J.I.G.nc, f c)).trans (by rw [Finset.card_univ, nsmul_eq_mul])) kr v
  obtain ⟨T, t1, t2⟩ := flow_copies g h h' hp hp' _ _ ((single_length ..).trans hv.cells) ((single_length ..).trans hv'.cells) (single_positive hv)
    (single_positive hv') k1
  obtain ⟨P, p1, p2⟩ := flow_copies g h h' hp hp' _ _ ((grid_length ..).trans hv.cells) ((grid_length ..).trans hv'.cells) (grid_positive hv kr _)
    (grid_positive hv' kr _) k2
  obtain ⟨w1, e1, m1⟩ := sat_of hv v
  obtain ⟨w2, e2, m2⟩ := sat_of hv' v
  obtain rfl : w1 = w := Option.some.inj (e1.symm.trans hw)
  obtain rfl : w2 = w1 := Option.some.inj (e2.symm.trans hw')
  have q1 : ∀ b, single J b = some T := t1
  have q2 : ∀ b, single J' b = some T := t2
  have q3 : ∀ b, phase J kr v b = some P := p1
  have q4 : ∀ b, phase J' kr v b = some P := p2
  refine ⟨T, P, w2, q1, q2, q3, q4, m1, m2, fun b b' a a' => ?_⟩
  unfold point relPerm
  rw [q1, q2, Option.bind_some, Option.bind_some, q3, q4, Option.bind_some, Option.bind_some, hw, hw', hi, hp, hp']

end

section
variable {a q : K} {π : Equiv.Perm (Fin 3)} {σ : Fin J.I.G.nc ≃ Fin J'.I.G.nc}
  {τ : (c : Fin J.I.G.nc) → Fin (J.I.G.cell c).nf ≃ Fin (J'.I.G.cell (σ c)).nf}

/-- Permeabilities that are the same for the two numbers of a cell, and the same in all directions. -/
theorem flow_relabel (g : SameGrid J.I.G J'.I.G a t π σ τ) (hc : J'.I.bct = J.I.bct) (h : Ready J lo hi side) (h' : Ready J' lo' hi' side')
    (ks ks' : List (Fin 3 → K)) (hl : ks.length = J.I.G.nc) (hl' : ks'.length = J'.I.G.nc) (hk : ∀ k ∈ ks, ∀ d, 0 < k d)
    (hk' : ∀ k ∈ ks', ∀ d, 0 < k d) (iso : ∀ c : Fin J.I.G.nc, ∀ d e, ks.getD c.val (fun _ => 0) d = ks.getD c.val (fun _ => 0) e)
    (e : ∀ c, ks'.getD c.val (fun _ => 0) = ks.getD (σ.symm c).val fun _ => 0) :
    ∃ T T', (∀ b, upscaleSinglePhase (RelPermChain.setPerms J.I ks) b = some T) ∧ (∀ b, upscaleSinglePhase (RelPermChain.setPerms J'.I ks') b = some T') ∧
      ∀ i j, T' (π i) (π j) = T i j :=
  C158_single_phase (I := RelPermChain.setPerms J.I ks) (I' := RelPermChain.setPerms J'.I ks') (a := a) (t := t) (π := π) (σ := σ) (τ := τ)
    ⟨g, fun c i j => by
      refine (cond_list J'.I ks' hl' (σ c) (π i) (π j)).trans (Eq.trans ?_ (cond_list J.I ks hl c i j).symm)
      refine if_congr π.injective.eq_iff ?_ rfl
      exact (congrFun ((e (σ c)).trans (congrArg (fun y : Fin J.I.G.nc => ks.getD y.val fun _ => 0) (σ.symm_apply_apply c))) (π i)).trans (iso c _ _), hc⟩
    (list_sound h ks hl hk) (list_sound h' ks' hl' hk') h.tiling h'.tiling h.box h'.box h.suited h'.suited

/-- **C167**. In the viscous limit with isotropic input, two descriptions of the same sample, with other numbers of cells and faces, unit of length, origin and
names of the axes, have the same upscaled saturation at every ratio of mobilities, and the same single-phase and phase permeability, up to the names of the axes. -/
theorem C167_tensors (g : SameGrid J.I.G J'.I.G a t π σ τ) (hc : J'.I.bct = J.I.bct) (r : CopiedCells J J' σ.symm q) (h : Ready J lo hi side)
    (h' : Ready J' lo' hi' side') (hv : Valid J) (hv' : Valid J') (ha : J.aniso = false) (kr : Nat → Fin 3 → Curve K) (v : K) :
    ∃ T T' P P' w, (∀ b, single J b = some T) ∧ (∀ b, single J' b = some T') ∧ (∀ b, phase J kr v b = some P) ∧ (∀ b, phase J' kr v b = some P') ∧
      swAt J.aniso J.C J.vols (poreVolume J.cells) v = some w ∧ swAt J'.aniso J'.C J'.vols (poreVolume J'.cells) v = some w ∧ MeanSat J v w ∧
      (∀ i j, T' (π i) (π j) = T i j) ∧ ∀ i j, P' (π i) (π j) = P i j := by
  obtain ⟨k1, k2, w, hw, hw'⟩ := copied_cells r hv hv' σ.symm.surjective 1 (fun f => by rw [one_mul, Equiv.sum_comp]) kr v
  have lt : ∀ c : Fin J.I.G.nc, c.val < J.cells.length := fun c => by rw [hv.cells]; exact c.2
  obtain ⟨T, T', t1, t2, t3⟩ := flow_relabel g hc h h' _ _ ((single_length ..).trans hv.cells) ((single_length ..).trans hv'.cells) (single_positive hv)
    (single_positive hv') (fun c d e => by
      unfold Visc.singlePerms
      rw [getD_map' _ _ noCell _ _ (lt c), ha]
      rfl) k1
  obtain ⟨P, P', p1, p2, p3⟩ := flow_relabel g hc h h' _ _ ((grid_length ..).trans hv.cells) ((grid_length ..).trans hv'.cells) (grid_positive hv kr _)
    (grid_positive hv' kr _) (fun c d e => by
      unfold gridPerms
      have l2 : c.val < (J.cells.map (cellPhase J.O J.aniso kr (rockSats J v))).length := by rw [List.length_map]; exact lt c
      dsimp only
      rw [getD_map' _ _ (0, fun _ => 0) _ _ l2, ha]
      rfl) k2
  obtain ⟨w1, e1, m1⟩ := sat_of hv v
  obtain rfl : w1 = w := Option.some.inj (e1.symm.trans hw)
  exact ⟨T, T', P, P', w1, t1, t2, p1, p2, hw, hw', m1, t3, p3⟩

/-- **C167**. With fixed boundary conditions, the relative permeability reported for a direction is the same under its old and its new name. -/
theorem C167_fixed (g : SameGrid J.I.G J'.I.G a t π σ τ) (hb : J.I.bct = .fixed) (hb' : J'.I.bct = .fixed) (r : CopiedCells J J' σ.symm q)
    (h : Ready J lo hi side) (h' : Ready J' lo' hi' side') (hv : Valid J) (hv' : Valid J') (ha : J.aniso = false) (kr : Nat → Fin 3 → Curve K) (v : K) :
    ∃ w, ∃ k k' : Fin 3 → K, (∀ b b', point J kr v b b' = some (w, List.ofFn k)) ∧ (∀ b b', point J' kr v b b' = some (w, List.ofFn k')) ∧
      ∀ d, k' (π d) = k d := by
  obtain ⟨T, T', P, P', w, s1, s2, q1, q2, w1, w2, -, eT, eP⟩ := C167_tensors g (hb'.trans hb.symm) r h h' hv hv' ha kr v
  have key : ∀ {J : Job K} {lo hi : Fin 3 → K} {side : Boundary.Face K → Nat} {T P : Fin 3 → Fin 3 → K}, Ready J lo hi side → Valid J → J.I.bct = .fixed →
      (∀ b, single J b = some T) → (∀ b, phase J kr v b = some P) → swAt J.aniso J.C J.vols (poreVolume J.cells) v = some w →
      ∀ b b', point J kr v b b' = some (w, List.ofFn fun d => P d d / T d d) := by
    intro J lo hi side T P h hv hb s q hw b b'
    obtain ⟨T1, _, t1, _, t0, _, tp⟩ := flow2_fixed h _ _ ((single_length ..).trans hv.cells) (single_pos J.O J.aniso J.cells hv.minPerm) hb
    obtain rfl : T1 = T := Option.some.inj ((t1 b).symm.trans (s b))
    unfold point
    rw [s, q, hw, Option.bind_some, Option.bind_some, Option.bind_some, relPerm_eq,
      RelPermChain.relPerm_fixed (base_ready h) hb T1 P t0 fun d => (tp d).1]
    rfl
  exact ⟨w, _, _, key h hv hb s1 q1 w1, key h' hv' hb' s2 q2 w2, fun d => by rw [eT, eP]⟩

/-- **C167**. With periodic boundary conditions, the reported relative permeability tensor is the same, up to the names of the axes. -/
theorem C167_periodic (g : SameGrid J.I.G J'.I.G a t π σ τ) (hb : J.I.bct = .periodic) (hb' : J'.I.bct = .periodic) (r : CopiedCells J J' σ.symm q)
    (h : Ready J lo hi side) (h' : Ready J' lo' hi' side') (hv : Valid J) (hv' : Valid J') (ha : J.aniso = false) (kr : Nat → Fin 3 → Curve K) (v : K) :
    ∃ w, ∃ k k' : Fin 9 → K, (∀ b b', point J kr v b b' = some (w, List.ofFn k)) ∧ (∀ b b', point J' kr v b b' = some (w, List.ofFn k')) ∧
      ∀ i j, RelPermChain.ofVoigt k' (π i) (π j) = RelPermChain.ofVoigt k i j := by
  obtain ⟨T, T', P, P', w, s1, s2, q1, q2, w1, w2, -, eT, eP⟩ := C167_tensors g (hb'.trans hb.symm) r h h' hv hv' ha kr v
  have key : ∀ {J : Job K} {lo hi : Fin 3 → K} {side : Boundary.Face K → Nat} {T P : Fin 3 → Fin 3 → K}, Ready J lo hi side → Valid J → J.I.bct = .periodic →
      (∀ b, single J b = some T) → (∀ b, phase J kr v b = some P) → swAt J.aniso J.C J.vols (poreVolume J.cells) v = some w →
      IsUnit (Matrix.of T) ∧ ∃ k : Fin 9 → K, (∀ b b', point J kr v b b' = some (w, List.ofFn k)) ∧ RelPermChain.ofVoigt k * Matrix.of T = Matrix.of P := by
    intro J lo hi side T P h hv hb s q hw
    obtain ⟨T1, _, t1, _, _, _, tp, _⟩ := flow2_periodic h _ _ ((single_length ..).trans hv.cells) (single_pos J.O J.aniso J.cells hv.minPerm) hb
    let b0 : Boundary.BCs K := ⟨⟨[], []⟩, [], []⟩
    obtain rfl : T1 = T := Option.some.inj ((t1 b0).symm.trans (s b0))
    obtain ⟨k, k1, k2⟩ := RelPermChain.relPerm_full (base_ready h) hb T1 P tp
    refine ⟨RelPermChain.unit_posdef T1 tp, k, fun b b' => ?_, k2⟩
    unfold point
    rw [s, q, hw, Option.bind_some, Option.bind_some, Option.bind_some, relPerm_eq, k1]
    rfl
  obtain ⟨u, k, k1, k2⟩ := key h hv hb s1 q1 w1
  obtain ⟨-, k', k1', k2'⟩ := key h' hv' hb' s2 q2 w2
  refine ⟨w, k, k', k1, k1', fun i j => ?_⟩
  have e : (RelPermChain.ofVoigt k').submatrix π π * Matrix.of T = Matrix.of P := by
    have e1 : Matrix.of T = (Matrix.of T').submatrix π π := by
      ext i j
      exact (eT i j).symm
    have e2 : Matrix.of P = (Matrix.of P').submatrix π π := by
      ext i j
      exact (eP i j).symm
    rw [e1, e2, ← k2', Matrix.submatrix_mul_equiv]
  exact congrFun (congrFun (u.mul_right_cancel (e.trans k2.symm)) i) j

end

end

/-! ### The hypotheses are met -/

/-- Two copies of the sample of `exJob`, with anisotropic input. -/
noncomputable def twoJob : Job ℚ :=
  { exJob .periodic true ![3, 2, 1] ![6, 5, 4] with
    cells := [⟨1, 1 / 4, ![3, 2, 1], 343⟩, ⟨1, 1 / 4, ![6, 5, 4], 343⟩, ⟨1, 1 / 4, ![3, 2, 1], 343⟩, ⟨1, 1 / 4, ![6, 5, 4], 343⟩]
    vols := [343]
    I := twoInput }

theorem two_ready : Ready twoJob twoLo twoHi twoSide :=
  have h := RelPermChain.two_ready
  ⟨h.tiling, h.box, h.suited, h.basis, h.sort, h.solver, h.gravity, h.invert⟩

theorem two_valid : Valid twoJob where
  cells := rfl
  typed := by
    have : ∀ c ∈ twoJob.cells, c = ⟨1, 1 / 4, ![3, 2, 1], 343⟩ ∨ c = ⟨1, 1 / 4, ![6, 5, 4], 343⟩ := by
      intro c hc
      change c ∈ [_, _, _, _] at hc
      simp only [List.mem_cons, List.not_mem_nil, or_false] at hc
      tauto
    intro c hc
    rcases this c hc with rfl | rfl <;> exact ⟨by decide, by norm_num, by norm_num⟩
  volume := by
    change 0 < [(343 : ℚ) * (1 / 4), 343 * (1 / 4), 343 * (1 / 4), 343 * (1 / 4)].sum
    norm_num
  vols := by
    refine ⟨rfl, fun r hr => ?_⟩
    obtain rfl : r = 0 := by
      change r < 1 at hr
      omega
    change some (343 : ℚ) = some [(343 : ℚ) * (1 / 4), 343 * (1 / 4), 343 * (1 / 4), 343 * (1 / 4)].sum
    norm_num
  perm := by
    intro c hc
    change c ∈ [_, _, _, _] at hc
    simp only [List.mem_cons, List.not_mem_nil, or_false] at hc
    rcases hc with rfl | rfl | rfl | rfl <;> decide
  minPerm := by change (0 : ℚ) < 1 / 10 ^ 12; norm_num
  contrast := by change (1 : ℚ) ≤ 10 ^ 7; norm_num

theorem two_cells : CopiedCells (exJob .periodic true ![3, 2, 1] ![6, 5, 4]) twoJob (fun c => (twoCell.symm c).2) 1 where
  cell := by
    intro c x h
    have key : ∀ c : Fin 4, (twoCell.symm c).2 = (⟨c.val % 2, by omega⟩ : Fin 2) := by decide +kernel
    have e : (twoCell.symm c).2 = (⟨c.val % 2, by omega⟩ : Fin 2) := key c
    rw [e] at h
    have hc : c.val < 4 := c.2
    change [(⟨1, 1 / 4, ![3, 2, 1], 343⟩ : Cell ℚ), ⟨1, 1 / 4, ![6, 5, 4], 343⟩][c.val % 2]? = some x at h
    change [(⟨1, 1 / 4, ![3, 2, 1], 343⟩ : Cell ℚ), ⟨1, 1 / 4, ![6, 5, 4], 343⟩, ⟨1, 1 / 4, ![3, 2, 1], 343⟩, ⟨1, 1 / 4, ![6, 5, 4], 343⟩][c.val]? = _
    obtain h0 | h0 | h0 | h0 : c.val = 0 ∨ c.val = 1 ∨ c.val = 2 ∨ c.val = 3 := by omega
    all_goals
      rw [h0] at h ⊢
      obtain rfl := Option.some.inj h
      rw [one_mul]
      rfl
  opts := rfl
  aniso := rfl
  curves := rfl

example (v : ℚ) (b b' a a' : Boundary.BCs ℚ) : point twoJob exKr v b b' = point (exJob .periodic true ![3, 2, 1] ![6, 5, 4]) exKr v a a' := by
  obtain ⟨T, P, w, -, -, -, -, -, -, h⟩ := C167_copies (t := 0) (τ := fun _ => Equiv.refl (Fin 6)) two_stacked.toStackedGrid two_cells
    (ex_ready .periodic true ![3, 2, 1] ![6, 5, 4]) two_ready (ex_valid _ _ _ _ (by decide) (by decide)) two_valid rfl rfl rfl exKr v
  exact h b b' a a'

/-- The sample of `exJob` with other numbers, unit of length, origin and names of the axes. -/
noncomputable def otherJob (bct : Upscale.BCType) : Job ℚ :=
  { exJob bct false (fun _ => 2) (fun _ => 1) with
    cells := [⟨1, 1 / 4, fun _ => 2, 2744⟩, ⟨1, 1 / 4, fun _ => 1, 2744⟩]
    vols := [1372]
    I := ex2Input bct }

theorem other_ready (bct : Upscale.BCType) : Ready (otherJob bct) ex2Lo ex2Hi ex2Side :=
  have h := RelPermChain.other_ready bct
  ⟨h.tiling, h.box, h.suited, h.basis, h.sort, h.solver, h.gravity, h.invert⟩

theorem other_valid (bct : Upscale.BCType) : Valid (otherJob bct) where
  cells := rfl
  typed := by
    intro c hc
    change c ∈ [_, _] at hc
    simp only [List.mem_cons, List.not_mem_nil, or_false] at hc
    rcases hc with rfl | rfl <;> exact ⟨le_refl _, by norm_num, by norm_num⟩
  volume := by
    change 0 < [(2744 : ℚ) * (1 / 4), 2744 * (1 / 4)].sum
    norm_num
  vols := by
    refine ⟨rfl, fun r hr => ?_⟩
    obtain rfl : r = 0 := by
      change r < 1 at hr
      omega
    change some (1372 : ℚ) = some [(2744 : ℚ) * (1 / 4), 2744 * (1 / 4)].sum
    norm_num
  perm := by
    intro c hc
    change c ∈ [_, _] at hc
    simp only [List.mem_cons, List.not_mem_nil, or_false] at hc
    rcases hc with rfl | rfl <;> intro d <;> norm_num
  minPerm := by change (0 : ℚ) < 1 / 10 ^ 12; norm_num
  contrast := by change (1 : ℚ) ≤ 10 ^ 7; norm_num

theorem other_cells (bct : Upscale.BCType) : CopiedCells (exJob bct false (fun _ => 1) fun _ => 2) (otherJob bct) swapCells.symm 8 where
  cell := by
    intro c x h
    have key : ∀ c : Fin 2, swapCells.symm c = (⟨1 - c.val, by omega⟩ : Fin 2) := by decide +kernel
    have e : swapCells.symm c = (⟨1 - c.val, by omega⟩ : Fin 2) := key c
    rw [e] at h
    have hc : c.val < 2 := c.2
    change [(⟨1, 1 / 4, fun _ => 1, 343⟩ : Cell ℚ), ⟨1, 1 / 4, fun _ => 2, 343⟩][1 - c.val]? = some x at h
    change [(⟨1, 1 / 4, fun _ => 2, 2744⟩ : Cell ℚ), ⟨1, 1 / 4, fun _ => 1, 2744⟩][c.val]? = _
    obtain h0 | h0 : c.val = 0 ∨ c.val = 1 := by omega
    all_goals
      rw [h0] at h ⊢
      obtain rfl := Option.some.inj h
      have : (8 : ℚ) * 343 = 2744 := by norm_num
      dsimp only
      rw [this]
      rfl
  opts := rfl
  aniso := rfl
  curves := rfl

example (v : ℚ) : ∃ w, ∃ k k' : Fin 3 → ℚ, (∀ b b', point (exJob .fixed false (fun _ => 1) fun _ => 2) exKr v b b' = some (w, List.ofFn k)) ∧
    (∀ b b', point (otherJob .fixed) exKr v b b' = some (w, List.ofFn k')) ∧ ∀ d, k' (swapAxes d) = k d :=
  C167_fixed (ex2_same .fixed).toSameGrid rfl rfl (other_cells .fixed) (ex_ready .fixed false (fun _ => 1) fun _ => 2) (other_ready .fixed)
    (ex_valid _ _ _ _ (fun _ => by norm_num) fun _ => by norm_num) (other_valid .fixed) rfl exKr v

example (v : ℚ) : ∃ w, ∃ k k' : Fin 9 → ℚ, (∀ b b', point (exJob .periodic false (fun _ => 1) fun _ => 2) exKr v b b' = some (w, List.ofFn k)) ∧
    (∀ b b', point (otherJob .periodic) exKr v b b' = some (w, List.ofFn k')) ∧
    ∀ i j, RelPermChain.ofVoigt k' (swapAxes i) (swapAxes j) = RelPermChain.ofVoigt k i j :=
  C167_periodic (ex2_same .periodic).toSameGrid rfl rfl (other_cells .periodic) (ex_ready .periodic false (fun _ => 1) fun _ => 2) (other_ready .periodic)
    (ex_valid _ _ _ _ (fun _ => by norm_num) fun _ => by norm_num) (other_valid .periodic) rfl exKr v

end Verif.ViscChain
