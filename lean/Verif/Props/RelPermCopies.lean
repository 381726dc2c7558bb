import Verif.Spec.RelPermCopies
import Verif.Props.FlowCopies
import Verif.Props.RelPermLayers

/-!
C164: copies of a periodic sample have the relative permeabilities of one (`Verif.Model.RelPermChain`).
-/

namespace Verif.RelPermChain

open Verif.RelPerm Verif.SinglePhase

variable {K : Type} [Field K] [LinearOrder K] [IsStrictOrderedRing K]

/-! ### Greatest values -/

/-- The greatest of the values `w` of a list. -/
def greatest (w : Nat → Option K) (m : K) (l : List Nat) : K := l.foldl (fun m c => (w c).elim m (max m)) m

omit [IsStrictOrderedRing K] in
theorem greatest_le (w : Nat → Option K) (m : K) (l : List Nat) (u : K) : greatest w m l ≤ u ↔ m ≤ u ∧ ∀ c ∈ l, ∀ x, w c = some x → x ≤ u := by
  induction l generalizing m with
  | nil => exact ⟨fun h => ⟨h, fun c hc => absurd hc (List.not_mem_nil)⟩, fun h => h.1⟩
  | cons a l ih =>
    change greatest w ((w a).elim m (max m)) l ≤ u ↔ _
    rw [ih, List.forall_mem_cons]
    cases w a with
    | none =>
      exact ⟨fun h => ⟨h.1, fun x e => by (cases e), h.2⟩, fun h => ⟨h.1, h.2.2⟩⟩
    | some y =>
      rw [Option.elim_some, max_le_iff]
      exact ⟨fun h => ⟨h.1.1, fun x e => by obtain rfl := Option.some.inj e; exact h.1.2, h.2⟩, fun h => ⟨⟨h.1, h.2.1 y rfl⟩, h.2.2⟩⟩

omit [IsStrictOrderedRing K] in
theorem greatest_eq (w w' : Nat → Option K) (m : K) (l l' : List Nat) (h : ∀ c ∈ l, ∃ c' ∈ l', w' c' = w c) (h' : ∀ c' ∈ l', ∃ c ∈ l, w' c' = w c) :
    greatest w' m l' = greatest w m l := by
  refine eq_of_forall_ge_iff fun u => ?_
  rw [greatest_le, greatest_le]
  refine and_congr_right fun _ => ⟨fun k c hc x e => ?_, fun k c hc x e => ?_⟩
  · obtain ⟨c', hc', e'⟩ := h c hc
    exact k c' hc' x (e'.trans e)
  · obtain ⟨c', hc', e'⟩ := h' c hc
    exact k c' hc' x (e'.symm.trans e)

omit [IsStrictOrderedRing K] in
theorem top_greatest (S : Sys K) (kr : Nat → K → K) (minPerm : K) (s : Nat → K) (m : K) (l : List Nat) :
    top S kr minPerm s m l = greatest (fun c => if 0 < S.satnum c then some (max (raw S kr s c) minPerm) else none) m l := by
  unfold top greatest
  congr 1
  funext m c
  beta_reduce
  split
  · exact max_assoc _ _ _
  · rfl

omit [IsStrictOrderedRing K] in
theorem single_greatest (S : Sys K) (m : K) (l : List Nat) :
    l.foldl (maxSingle S) m = greatest (fun c => if 0 < S.satnum c then some (S.permx c) else none) m l := by
  unfold greatest
  congr 1
  funext m c
  unfold maxSingle
  beta_reduce
  split
  · rfl
  · rfl

omit [LinearOrder K] [IsStrictOrderedRing K] in
theorem list_sum {n : Nat} (l : List Nat) (hl : l.length = n) (f : Nat → K) : (l.map f).sum = ∑ i : Fin n, f (l.getD i.val 0) := by
  subst hl
  rw [← Fin.sum_univ_fun_getElem]
  refine Finset.sum_congr rfl fun i _ => ?_
  rw [List.getD_eq_getElem?_getD, List.getElem?_eq_getElem i.2, Option.getD_some]

omit [IsStrictOrderedRing K] in
theorem sat_unique {S : Sys K} {p : K} {c : Nat} {s s' : K} (h : RelPerm.Spec.CellSat S p c s) (h' : RelPerm.Spec.CellSat S p c s') : s = s' := by
  obtain ⟨a, e1, rfl⟩ := h
  obtain ⟨b, e2, rfl⟩ := h'
  have : a = b := by
    rcases e1 with ⟨x, y⟩ | ⟨x, y⟩ <;> rcases e2 with ⟨x', y'⟩ | ⟨x', y'⟩
    · rw [y, y']
    · exact absurd x x'
    · exact absurd x' x
    · rw [y] at y'; exact Option.some.inj y'
  rw [this]

/-- Cells with the same rock have the same permeabilities, and the mean saturation is the same. -/
theorem copied_rock {J J' : Job K} {o : Fin J'.I.G.nc → Fin J.I.G.nc} {v : K} (r : CopiedRock J J' o v) (hv : Valid J) (hv' : Valid J')
    (ha : J.S.aniso = false) (ha' : J'.S.aniso = false) (ho : Function.Surjective o) (n : K) (hn : ∀ f : Fin J.I.G.nc → K, ∑ c, f (o c) = n * ∑ c, f c)
    (kr : Fin 3 → Nat → K → K) (p : K) (s s' : Nat → K)
    (hsat : ∀ c ∈ J.S.globalCell, 0 < J.S.satnum c → RelPerm.Spec.CellSat J.S p c (s c))
    (hsat' : ∀ c ∈ J'.S.globalCell, 0 < J'.S.satnum c → RelPerm.Spec.CellSat J'.S p c (s' c)) :
    (∀ c, singleK J'.S J'.contrast J'.minPerm (deckCell J' c) = singleK J.S J.contrast J.minPerm (deckCell J (o c))) ∧
    (∀ c, cellK J'.S (kr 0) J'.contrast J'.minPerm s' (deckCell J' c) = cellK J.S (kr 0) J.contrast J.minPerm s (deckCell J (o c))) ∧
    ∃ w, upscaledSw J.S p = some w ∧ upscaledSw J'.S p = some w := by
  have mem : ∀ c, deckCell J c ∈ J.S.globalCell := fun c => (setPerms_perm J.I J.S.globalCell (fun _ _ => 0) hv.cells c).1
  have mem' : ∀ c, deckCell J' c ∈ J'.S.globalCell := fun c => (setPerms_perm J'.I J'.S.globalCell (fun _ _ => 0) hv'.cells c).1
  have hsame : ∀ c, 0 < J.S.satnum (deckCell J (o c)) → s' (deckCell J' c) = s (deckCell J (o c)) := by
    intro c hr
    obtain ⟨a, e1, e2⟩ := hsat' _ (mem' c) (by rw [r.satnum]; exact hr)
    refine sat_unique (S := J.S) (p := p) ⟨a, (r.head c a).mp e1, e2.trans ?_⟩ (hsat _ (mem (o c)) hr)
    unfold RelPerm.Spec.curve RelPerm.Spec.scale
    rw [ha, ha', r.curves, r.sqrt, r.satnum, r.permx, r.poro, if_neg Bool.false_ne_true, if_neg Bool.false_ne_true, if_neg Bool.false_ne_true]
  have hraw : ∀ c, raw J'.S (kr 0) s' (deckCell J' c) = raw J.S (kr 0) s (deckCell J (o c)) := by
    intro c
    unfold raw
    rw [r.satnum, r.permx]
    split
    · rename_i hr
      rw [hsame c hr]
    · rfl
  have hset : ∀ (w w' : Nat → Option K), (∀ c, w' (deckCell J' c) = w (deckCell J (o c))) → ∀ m,
      greatest w' m J'.S.globalCell = greatest w m J.S.globalCell := by
    intro w w' e m
    refine greatest_eq w w' m _ _ (fun c hc => ?_) (fun c hc => ?_)
    · obtain ⟨i, rfl⟩ := mem_getD hv.cells c hc
      obtain ⟨j, rfl⟩ := ho i
      exact ⟨_, mem' j, e j⟩
    · obtain ⟨i, rfl⟩ := mem_getD hv'.cells c hc
      exact ⟨_, mem (o i), e i⟩
  refine ⟨fun c => ?_, fun c => ?_, ?_⟩
  · unfold singleK singleFloor
    rw [r.permx, r.contrast, r.minPerm, single_greatest, single_greatest,
      hset (fun c => if 0 < J.S.satnum c then some (J.S.permx c) else none) _ fun x => by rw [r.satnum, r.permx]]
  · unfold cellK
    rw [hraw, r.contrast, r.minPerm, top_greatest, top_greatest,
      hset (fun c => if 0 < J.S.satnum c then some (max (raw J.S (kr 0) s c) J.minPerm) else none) _ fun x => by rw [r.satnum, hraw]]
  obtain ⟨w, hw⟩ := C68_defined J.S p hv.heads hv.volume
  obtain ⟨w', hw'⟩ := C68_defined J'.S p hv'.heads hv'.volume
  have hpv : ∀ c, RelPerm.Spec.pv J'.S (deckCell J' c) = v * RelPerm.Spec.pv J.S (deckCell J (o c)) := fun c => by
    unfold RelPerm.Spec.pv
    rw [r.satnum, r.volume, r.poro]
    split
    · ring
    · rw [mul_zero]
  have hsum : ∀ f f' : Nat → K, (∀ c, f' (deckCell J' c) = v * f (deckCell J (o c))) →
      (J'.S.globalCell.map f').sum = n * v * (J.S.globalCell.map f).sum := by
    intro f f' e
    rw [list_sum _ hv'.cells, list_sum _ hv.cells]
    refine (Finset.sum_congr rfl fun c _ => e c).trans ?_
    rw [← Finset.mul_sum, hn fun c => f (deckCell J c)]
    change v * (n * ∑ c, f (deckCell J c)) = n * v * ∑ c, f (deckCell J c)
    ring
  have hww : w' = w := by
    have m2 : RelPerm.Spec.MeanSat J'.S p w' := C68_mean J'.S p w' hw'
    obtain ⟨u, u1, -, u3⟩ := (C68_mean J.S p w hw : RelPerm.Spec.MeanSat J.S p w)
    refine mean_unique m2 ⟨s', hsat', hv'.volume, ?_⟩
    rw [hsum (RelPerm.Spec.pv J.S) _ hpv, hsum (fun c => s c * RelPerm.Spec.pv J.S c) (fun c => s' c * RelPerm.Spec.pv J'.S c) fun c => by
      rw [hpv]
      by_cases hr : 0 < J.S.satnum (deckCell J (o c))
      · rw [hsame c hr]
        ring
      · have : RelPerm.Spec.pv J.S (deckCell J (o c)) = 0 := if_neg hr
        rw [this, mul_zero, mul_zero, mul_zero, mul_zero]]
    have e4 : (J.S.globalCell.map fun c => s c * RelPerm.Spec.pv J.S c) = J.S.globalCell.map fun c => u c * RelPerm.Spec.pv J.S c := by
      refine List.map_congr_left fun c hc => ?_
      by_cases hr : 0 < J.S.satnum c
      · exact congrArg (· * RelPerm.Spec.pv J.S c) (sat_unique (hsat c hc hr) (u1 c hc hr))
      · have : RelPerm.Spec.pv J.S c = 0 := if_neg hr
        rw [this, mul_zero, mul_zero]
    rw [e4, ← u3]
    ring
  subst hww
  exact ⟨w', hw, hw'⟩

section
variable {J J' : Job K} {lo hi t lo' hi' : Fin 3 → K} {side side' : Boundary.Face K → Nat} {M : Fin 3 → Nat} {σ : Place M × Fin J.I.G.nc ≃ Fin J'.I.G.nc}
  {τ : (x : Place M × Fin J.I.G.nc) → Fin (J.I.G.cell x.2).nf ≃ Fin (J'.I.G.cell (σ x)).nf}

/-- Permeabilities of the copies that are those of the original cells. -/
theorem flow_copies (g : StackedGrid J.I.G J'.I.G lo hi t M σ τ) (h : Ready J lo hi side) (h' : Ready J' lo' hi' side') (hp : J.I.bct = .periodic)
    (hp' : J'.I.bct = .periodic) (hv : Valid J) (hv' : Valid J') (k k' : Nat → K) (hk : ∀ c ∈ J.S.globalCell, 0 < k c) (hk' : ∀ c ∈ J'.S.globalCell, 0 < k' c)
    (e : ∀ c, k' (deckCell J' c) = k (deckCell J (σ.symm c).2)) :
    ∃ T, (∀ b, upscaleSinglePhase (setPerms J.I (J.S.globalCell.map fun c (_ : Fin 3) => k c)) b = some T) ∧
      ∀ b, upscaleSinglePhase (setPerms J'.I (J'.S.globalCell.map fun c (_ : Fin 3) => k' c)) b = some T :=
  C163_single_phase (I := setPerms J.I (J.S.globalCell.map fun c (_ : Fin 3) => k c)) (I' := setPerms J'.I (J'.S.globalCell.map fun c (_ : Fin 3) => k' c))
    (t := t) (M := M) (σ := σ) (τ := τ)
    ⟨g, fun x i j => by
      refine (cond_iso J'.I J'.S.globalCell k' hv'.cells (σ x) i j).trans (Eq.trans ?_ (cond_iso J.I J.S.globalCell k hv.cells x.2 i j).symm)
      exact if_congr Iff.rfl ((e (σ x)).trans (congrArg (fun y : Place M × Fin J.I.G.nc => k (deckCell J y.2)) (σ.symm_apply_apply x))) rfl⟩
    (ready_sound h J.S.globalCell (fun c _ => k c) hv.cells fun c hc _ => hk c hc)
    (ready_sound h' J'.S.globalCell (fun c _ => k' c) hv'.cells fun c hc _ => hk' c hc) h.tiling h'.tiling h.box h'.box h.suited h'.suited hp hp'

/-- **C164**. A sample that consists of copies of a periodic sample has, at every capillary pressure, the upscaled saturation and relative permeabilities of
the single sample. The limits on least permeability and contrast are included. -/
theorem C164_copies (g : StackedGrid J.I.G J'.I.G lo hi t M σ τ) (r : CopiedRock J J' (fun c => (σ.symm c).2) 1) (h : Ready J lo hi side)
    (h' : Ready J' lo' hi' side') (hv : Valid J) (hv' : Valid J') (hp : J.I.bct = .periodic) (hp' : J'.I.bct = .periodic) (ha : J.S.aniso = false)
    (ha' : J'.S.aniso = false) (hi : J'.invert = J.invert) (kr : Fin 3 → Nat → K → K) (p : K) :
    ∃ T P w, (∀ b, single J b = some T) ∧ (∀ b, single J' b = some T) ∧ (∀ b, phase J kr p b = some P) ∧ (∀ b, phase J' kr p b = some P) ∧
      upscaledSw J.S p = some w ∧ upscaledSw J'.S p = some w ∧ ∀ b b' a a', point J' kr p b b' = point J kr p a a' := by
  obtain ⟨hd, hsat⟩ := heads_of hv
  obtain ⟨hd', hsat'⟩ := heads_of hv'
  -- A place.
  obtain ⟨p0, -, -⟩ := h'.box.ne 0 (by omega)
  have k0 : Place M := (σ.symm p0.1).1
  obtain ⟨k1, k2, w, hw, hw'⟩ := copied_rock r hv hv' ha ha' (fun c => ⟨σ (k0, c), by rw [σ.symm_apply_apply]⟩) (Fintype.card (Place M) : K) (fun f => by
    rw [← Equiv.sum_comp σ, Fintype.sum_prod_type]
    refine (Finset.sum_congr rfl fun k _ => Finset.sum_congr rfl fun c _ => by rw [σ.symm_apply_apply]).trans ?_
    exact (Finset.sum_const (∑ c : Fin J.I.G.nc, f c)).trans (by rw [Finset.card_univ, nsmul_eq_mul])) kr p _ _ (hsat p) (hsat' p)
  obtain ⟨T, t1, t2⟩ := flow_copies g h h' hp hp' hv hv' (singleK J.S J.contrast J.minPerm) (singleK J'.S J'.contrast J'.minPerm)
    (fun c _ => singleK_pos _ _ _ hv.minPerm c) (fun c _ => singleK_pos _ _ _ hv'.minPerm c) k1
  obtain ⟨P, p1, p2⟩ := flow_copies g h h' hp hp' hv hv' (cellK J.S (kr 0) J.contrast J.minPerm (sats J.S hd p))
    (cellK J'.S (kr 0) J'.contrast J'.minPerm (sats J'.S hd' p))
    (fun c _ => cellK_pos _ _ _ _ _ hv.minPerm c) (fun c _ => cellK_pos _ _ _ _ _ hv'.minPerm c) k2
  have q1 : ∀ b, single J b = some T := fun b => (single_eq ha b).trans (t1 b)
  have q2 : ∀ b, single J' b = some T := fun b => (single_eq ha' b).trans (t2 b)
  have q3 : ∀ b, phase J kr p b = some P := fun b => (phase_eq ha kr p _ (hsat p) b).trans (p1 b)
  have q4 : ∀ b, phase J' kr p b = some P := fun b => (phase_eq ha' kr p _ (hsat' p) b).trans (p2 b)
  refine ⟨T, P, w, q1, q2, q3, q4, hw, hw', fun b b' a a' => ?_⟩
  unfold point relPerm
  rw [q1, q2, Option.bind_some, Option.bind_some, q3, q4, Option.bind_some, Option.bind_some, hw, hw', hi, hp, hp']

end

/-! ### The hypotheses are met -/

/-- Four cells: two copies of the two cells of `exJob`, whose permeabilities are 1 and 2. -/
noncomputable def twoJob : Job ℚ :=
  { exJob .periodic false (fun c => (c % 2 : ℕ) + 1) (fun _ => 0) with
    S := { (exJob .periodic false (fun c => (c % 2 : ℕ) + 1) (fun _ => 0)).S with globalCell := [0, 1, 2, 3] }
    I := twoInput }

theorem two_ready : Ready twoJob twoLo twoHi twoSide where
  tiling := two_tiling
  box := two_box
  suited := two_suited
  basis := two_sound.basis
  sort := two_sound.sort
  solver := two_sound.solver
  gravity := rfl
  invert A M h _ := exInvert_ok A M h

theorem two_valid : Valid twoJob where
  cells := rfl
  heads _ _ _ := ⟨0, Or.inl ⟨rfl, rfl⟩⟩
  volume := by
    change [(343 : ℚ) * (1 / 4), 343 * (1 / 4), 343 * (1 / 4), 343 * (1 / 4)].sum ≠ 0
    norm_num
  perm c _ := by change (0 : ℚ) ≤ (c % 2 : ℕ) + 1; positivity
  minPerm := by change (0 : ℚ) < 1 / 10 ^ 12; norm_num
  contrast := by change (1 : ℚ) ≤ 10 ^ 7; norm_num

theorem two_rock : CopiedRock (exJob .periodic false (fun c => c + 1) fun _ => 0) twoJob (fun c => (twoCell.symm c).2) 1 where
  satnum _ := rfl
  poro _ := rfl
  permx := by
    have : ∀ c : Fin 4, ((([0, 1, 2, 3].getD c.val 0 % 2 : ℕ) : ℚ) + 1) = (([0, 1].getD (twoCell.symm c).2.val 0 : ℕ) : ℚ) + 1 := by decide +kernel
    exact this
  volume _ := (one_mul _).symm
  head _ _ := ⟨fun h => h.elim Or.inl fun x => absurd rfl x.1, fun h => h.elim Or.inl fun x => absurd rfl x.1⟩
  curves := rfl
  sqrt := rfl
  contrast := rfl
  minPerm := rfl

example (p : ℚ) (b b' a a' : Boundary.BCs ℚ) :
    point twoJob exKr p b b' = point (exJob .periodic false (fun c => c + 1) fun _ => 0) exKr p a a' := by
  obtain ⟨T, P, w, -, -, -, -, -, -, h⟩ := C164_copies (t := 0) (τ := fun _ => Equiv.refl (Fin 6)) two_stacked.toStackedGrid two_rock
    (ex_ready .periodic false (fun c => c + 1) fun _ => 0) two_ready (ex_valid _ _ _ _ fun c => by positivity) two_valid rfl rfl rfl rfl rfl exKr p
  exact h b b' a a'

end Verif.RelPermChain
