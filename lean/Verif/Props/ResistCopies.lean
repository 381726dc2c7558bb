import Verif.Spec.ResistCopies
import Verif.Props.ResistChain
import Verif.Props.ViscCopies

/-!
C168: copies of a periodic sample have the resistivity of one, and numbering, unit of length, origin and names of the axes do not change resistivity
(`Verif.Model.ResistChain`).
-/

namespace Verif.ResistChain

open Verif.Dense Verif.Control Verif.SinglePhase Verif.Resist Verif.Resist.Spec Verif.Upscale

open Verif.RelPermChain (ofVoigt)

variable {K : Type} [Field K] [LinearOrder K] [IsStrictOrderedRing K]

/-- No cell. -/
def noCell : Cell K := ⟨0, 0, 0, 0⟩

omit [IsStrictOrderedRing K] [LinearOrder K] in
theorem rocks_sum (l : List (Cell K)) (f : Cell K → K) : ((rocks l).map f).sum = (l.map fun c => if 0 < c.satnum then f c else 0).sum := by
  induction l with
  | nil => rfl
  | cons a l ih =>
    rw [List.map_cons, List.sum_cons, ← ih]
    unfold rocks
    by_cases h : 0 < a.satnum
    · rw [List.filter_cons_of_pos (by simpa using h), List.map_cons, List.sum_cons, if_pos h]
    · rw [List.filter_cons_of_neg (by simpa using h), if_neg h, zero_add]

/-- The inverses of tensors that agree up to the names of the axes. -/
theorem inverse_relabel (π : Equiv.Perm (Fin 3)) (T T' R R' : Matrix (Fin 3) (Fin 3) K) (e : ∀ i j, T' (π i) (π j) = T i j) (h : T * R = 1)
    (h' : T' * R' = 1) (i j : Fin 3) : R' (π i) (π j) = R i j := by
  have e1 : T = T'.submatrix π π := by
    ext i j
    exact (e i j).symm
  have e2 : T * R'.submatrix π π = 1 := by
    rw [e1, Matrix.submatrix_mul_equiv, h', Matrix.submatrix_one_equiv]
  have e3 : R'.submatrix π π = R := by
    have h1 : R * T = 1 := mul_eq_one_comm.mp h
    calc R'.submatrix π π = R * T * R'.submatrix π π := by rw [h1, Matrix.one_mul]
      _ = R := by rw [Matrix.mul_assoc, e2, Matrix.mul_one]
  exact congrFun (congrFun e3 i) j

/-- The job as one of the viscous limit; cell data does not matter. -/
def visc (J : Job K) : ViscChain.Job K := ⟨⟨0, 0, 0, 0, 0, 0, 0, 0⟩, false, [], [], [], J.I, J.invert⟩

section
variable {J J' : Job K} {lo hi t lo' hi' : Fin 3 → K} {side side' : Boundary.Face K → Nat}

theorem visc_ready (h : Ready J lo hi side) : ViscChain.Ready (visc J) lo hi side :=
  ⟨h.tiling, h.box, h.suited, h.basis, h.sort, h.solver, h.gravity, fun A M h1 h2 => (h.invert A M h1 h2).1⟩

/-- What is computed in the cells of two samples whose cells have the same data. -/
theorem copied_cells {o : Fin J'.I.G.nc → Fin J.I.G.nc} {q : K} (r : CopiedCells J J' o q) (hv : Valid J) (hv' : Valid J')
    (n : K) (hn : ∀ f : Fin J.I.G.nc → K, ∑ c, f (o c) = n * ∑ c, f c) (p : K) :
    ∃ (R R' : List K) (w : K), R.length = J.I.G.nc ∧ R'.length = J'.I.G.nc ∧ (∀ x ∈ R, 0 < x) ∧ (∀ x ∈ R', 0 < x) ∧ MeanSat J p w ∧
      (∃ v, compute J.O J.curves J.cells p = some (R.map (1 / ·), v) ∧ quot v (totalPorev J.cells) = some w) ∧
      (∃ v, compute J'.O J'.curves J'.cells p = some (R'.map (1 / ·), v) ∧ quot v (totalPorev J'.cells) = some w) ∧
      ∀ c, R'.getD c.val 0 = R.getD (o c).val 0 := by
  have lt : ∀ c : Fin J.I.G.nc, c.val < J.cells.length := fun c => by rw [hv.cells]; exact c.2
  have lt' : ∀ c : Fin J'.I.G.nc, c.val < J'.cells.length := fun c => by rw [hv'.cells]; exact c.2
  have hA : ∀ c : Fin J'.I.G.nc, J'.cells.getD c.val noCell = { J.cells.getD (o c).val noCell with vol := q * (J.cells.getD (o c).val noCell).vol } := by
    intro c
    have e := r.cell c _ (List.getElem?_eq_getElem (lt (o c)))
    rw [List.getD_eq_getElem?_getD, e, Option.getD_some, List.getD_eq_getElem?_getD, List.getElem?_eq_getElem (lt (o c)), Option.getD_some]
  have hS : ∀ c : Fin J'.I.G.nc, saturation J'.O J'.curves p (J'.cells.getD c.val noCell) = saturation J.O J.curves p (J.cells.getD (o c).val noCell) := by
    intro c
    rw [hA, r.opts, r.curves]
    rfl
  obtain ⟨R, w, h1, h2, h3, h4, h5⟩ := cells_at hv p
  obtain ⟨R', w', k1, k2, k3, k4, k5⟩ := cells_at hv' p
  have hww : w' = w := by
    have hpos := poreVolume_pos J'.O J'.curves J'.cells hv'.checked hv'.rock
    have hsum : ∀ f f' : Cell K → K, (∀ c : Fin J'.I.G.nc, (if 0 < (J'.cells.getD c.val noCell).satnum then f' (J'.cells.getD c.val noCell) else 0) =
        q * if 0 < (J.cells.getD (o c).val noCell).satnum then f (J.cells.getD (o c).val noCell) else 0) →
        ((rocks J'.cells).map f').sum = n * q * ((rocks J.cells).map f).sum := by
      intro f f' e
      rw [rocks_sum, rocks_sum, ViscChain.cells_sum _ noCell hv'.cells, ViscChain.cells_sum _ noCell hv.cells]
      refine (Finset.sum_congr rfl fun c _ => e c).trans ?_
      rw [← Finset.mul_sum, hn fun c => if 0 < (J.cells.getD c.val noCell).satnum then f (J.cells.getD c.val noCell) else 0]
      ring
    have hs : ∀ c : Fin J'.I.G.nc, (J'.cells.getD c.val noCell).satnum = (J.cells.getD (o c).val noCell).satnum := fun c => by rw [hA]
    have hp : ∀ c : Fin J'.I.G.nc, (J'.cells.getD c.val noCell).vol * (J'.cells.getD c.val noCell).poro =
        q * ((J.cells.getD (o c).val noCell).vol * (J.cells.getD (o c).val noCell).poro) := fun c => by
      rw [hA]
      exact mul_assoc _ _ _
    unfold MeanSat at h4 k4
    unfold poreVolume at h4 k4 hpos
    have e1 := hsum (fun c => c.vol * c.poro) (fun c => c.vol * c.poro) fun c => by rw [hs, hp, mul_ite, mul_zero]
    have e2 := hsum (fun c => saturation J.O J.curves p c * (c.vol * c.poro)) (fun c => saturation J'.O J'.curves p c * (c.vol * c.poro)) fun c => by
      rw [hs, hp, hS, mul_ite, mul_zero]
      congr 1
      ring
    rw [e1] at hpos
    rw [e1, e2, ← h4] at k4
    exact mul_right_cancel₀ hpos.ne' (k4.trans (by ring))
  subst hww
  refine ⟨R, R', w', h2, k2, fun x hx => (h3 x hx).1, fun x hx => (k3 x hx).1, h4, h5, k5, fun c => ?_⟩
  have i1 : (o c).val < R.length := by rw [h2]; exact (o c).2
  have i2 : c.val < R'.length := by rw [k2]; exact c.2
  have a := h1.get (lt (o c)) i1
  have b := k1.get (lt' c) i2
  have ea : J.cells.get ⟨(o c).val, lt (o c)⟩ = J.cells.getD (o c).val noCell := by
    rw [List.getD_eq_getElem?_getD, List.getElem?_eq_getElem (lt (o c))]
    rfl
  have eb : J'.cells.get ⟨c.val, lt' c⟩ = J'.cells.getD c.val noCell := by
    rw [List.getD_eq_getElem?_getD, List.getElem?_eq_getElem (lt' c)]
    rfl
  rw [ea] at a
  rw [eb, hS, hA, r.opts] at b
  rw [List.getD_eq_getElem?_getD, List.getD_eq_getElem?_getD, List.getElem?_eq_getElem i1, List.getElem?_eq_getElem i2]
  exact resist_unique (c := J.cells.getD (o c).val noCell) ⟨b.void, b.mud, b.dry, b.wet⟩ a

/-- The conductivities. -/
theorem conds_getD (R : List K) (n : Nat) (h : n < R.length) :
    ((R.map (1 / ·)).map fun k (_ : Fin 3) => k).getD n (fun _ => 0) = fun _ => 1 / R.getD n 0 := by
  rw [List.getD_eq_getElem?_getD, List.getElem?_map, List.getElem?_map, List.getElem?_eq_getElem h, List.getD_eq_getElem?_getD, List.getElem?_eq_getElem h]
  rfl

theorem conds_pos (R : List K) (h : ∀ x ∈ R, 0 < x) : ∀ k ∈ (R.map (1 / ·)).map fun k (_ : Fin 3) => k, ∀ d, 0 < k d := by
  intro k hk d
  obtain ⟨y, hy, rfl⟩ := List.mem_map.mp hk
  obtain ⟨x, hx, rfl⟩ := List.mem_map.mp hy
  exact one_div_pos.mpr (h x hx)

section
variable {M : Fin 3 → Nat} {σ : Place M × Fin J.I.G.nc ≃ Fin J'.I.G.nc}
  {τ : (x : Place M × Fin J.I.G.nc) → Fin (J.I.G.cell x.2).nf ≃ Fin (J'.I.G.cell (σ x)).nf}

/-- **C168**. A sample that consists of copies of a periodic sample has, at every capillary pressure, the upscaled saturation and resistivity of the single
sample. -/
theorem C168_copies (g : StackedGrid J.I.G J'.I.G lo hi t M σ τ) (r : CopiedCells J J' (fun c => (σ.symm c).2) 1) (h : Ready J lo hi side)
    (h' : Ready J' lo' hi' side') (hv : Valid J) (hv' : Valid J') (hp : J.I.bct = .periodic) (hp' : J'.I.bct = .periodic) (p : K) :
    ∃ w, ∃ k : Fin 9 → K, MeanSat J p w ∧ (∀ b, point J p b = some (w, List.ofFn k)) ∧ ∀ b, point J' p b = some (w, List.ofFn k) := by
  obtain ⟨R, R', w, l1, l2, r1, r2, m, ⟨v, c1, c2⟩, ⟨v', c1', c2'⟩, e⟩ := copied_cells r hv hv' (Fintype.card (Place M) : K) (fun f => by
    rw [← Equiv.sum_comp σ, Fintype.sum_prod_type]
    refine (Finset.sum_congr rfl fun k _ => Finset.sum_congr rfl fun c _ => by rw [σ.symm_apply_apply]).trans ?_
    exact (Finset.sum_const (∑ c : Fin J.I.G.nc, f c)).trans (by rw [Finset.card_univ, nsmul_eq_mul])) p
  obtain ⟨T, t1, t2⟩ := ViscChain.flow_copies (J := visc J) (J' := visc J') g (visc_ready h) (visc_ready h') hp hp' ((R.map (1 / ·)).map fun k _ => k)
    ((R'.map (1 / ·)).map fun k _ => k) (by rw [List.length_map, List.length_map]; exact l1) (by rw [List.length_map, List.length_map]; exact l2)
    (conds_pos R r1) (conds_pos R' r2) fun c => by
      have i1 : (σ.symm c).2.val < R.length := by rw [l1]; exact (σ.symm c).2.2
      have i2 : c.val < R'.length := by rw [l2]; exact c.2
      exact (conds_getD R' c.val i2).trans (Eq.trans (by rw [e c]) (conds_getD R (σ.symm c).2.val i1).symm)
  obtain ⟨T1, k, a1, -, -, a4, a5, -⟩ := run_periodic h hp R l1 r1
  obtain ⟨T2, k', b1, -, -, b4, b5, -⟩ := run_periodic h' hp' R' l2 r2
  let b0 : Boundary.BCs K := ⟨⟨[], []⟩, [], []⟩
  obtain rfl : T1 = T := Option.some.inj ((a1 b0).symm.trans (t1 b0))
  obtain rfl : T2 = T1 := Option.some.inj ((b1 b0).symm.trans (t2 b0))
  have ek : k' = k := by
    have hh := inverse_relabel (Equiv.refl _) (Matrix.of T2) (Matrix.of T2) (ofVoigt k) (ofVoigt k') (fun _ _ => rfl)
      (by ext i j; rw [Matrix.mul_apply, Matrix.one_apply]; exact a4 i j) (by ext i j; rw [Matrix.mul_apply, Matrix.one_apply]; exact b4 i j)
    funext i
    fin_cases i
    · exact hh 0 0
    · exact hh 1 1
    · exact hh 2 2
    · exact hh 1 2
    · exact hh 0 2
    · exact hh 0 1
    · exact hh 2 1
    · exact hh 2 0
    · exact hh 1 0
  subst ek
  exact ⟨w, k', m, fun b => point_of hv c1 c2 (a1 b) a5, fun b => point_of hv' c1' c2' (b1 b) b5⟩

end

section
variable {a q : K} {π : Equiv.Perm (Fin 3)} {σ : Fin J.I.G.nc ≃ Fin J'.I.G.nc}
  {τ : (c : Fin J.I.G.nc) → Fin (J.I.G.cell c).nf ≃ Fin (J'.I.G.cell (σ c)).nf}

/-- The tensors of conductivity of two descriptions of a sample. -/
theorem cond_relabel (g : SameGrid J.I.G J'.I.G a t π σ τ) (hc : J'.I.bct = J.I.bct) (h : Ready J lo hi side) (h' : Ready J' lo' hi' side')
    (R R' : List K) (l1 : R.length = J.I.G.nc) (l2 : R'.length = J'.I.G.nc) (r1 : ∀ x ∈ R, 0 < x) (r2 : ∀ x ∈ R', 0 < x)
    (e : ∀ c, R'.getD c.val 0 = R.getD (σ.symm c).val 0) :
    ∃ T T', (∀ b, conductivity J (R.map (1 / ·)) b = some T) ∧ (∀ b, conductivity J' (R'.map (1 / ·)) b = some T') ∧ ∀ i j, T' (π i) (π j) = T i j := by
  refine ViscChain.flow_relabel (J := visc J) (J' := visc J') g hc (visc_ready h) (visc_ready h') ((R.map (1 / ·)).map fun k _ => k)
    ((R'.map (1 / ·)).map fun k _ => k) (by rw [List.length_map, List.length_map]; exact l1) (by rw [List.length_map, List.length_map]; exact l2)
    (conds_pos R r1) (conds_pos R' r2) (fun c d f => ?_) fun c => ?_
  · have i1 : c.val < R.length := by rw [l1]; exact c.2
    exact (congrFun (conds_getD R c.val i1) d).trans (congrFun (conds_getD R c.val i1) f).symm
  · have i1 : (σ.symm c).val < R.length := by rw [l1]; exact (σ.symm c).2
    have i2 : c.val < R'.length := by rw [l2]; exact c.2
    exact (conds_getD R' c.val i2).trans (Eq.trans (by rw [e c]) (conds_getD R (σ.symm c).val i1).symm)

/-- **C168**. Two descriptions of the same sample, with other numbers of cells and faces, unit of length, origin and names of the axes: with fixed boundary
conditions, saturation and the resistivity in a direction are the same under its old and its new name. -/
theorem C168_fixed (g : SameGrid J.I.G J'.I.G a t π σ τ) (hb : J.I.bct = .fixed) (hb' : J'.I.bct = .fixed) (r : CopiedCells J J' σ.symm q)
    (h : Ready J lo hi side) (h' : Ready J' lo' hi' side') (hv : Valid J) (hv' : Valid J') (p : K) :
    ∃ w, ∃ k k' : Fin 3 → K, MeanSat J p w ∧ (∀ b, point J p b = some (w, List.ofFn k)) ∧ (∀ b, point J' p b = some (w, List.ofFn k')) ∧
      ∀ d, k' (π d) = k d := by
  obtain ⟨R, R', w, l1, l2, r1, r2, m, ⟨v, c1, c2⟩, ⟨v', c1', c2'⟩, e⟩ := copied_cells r hv hv' 1 (fun f => by rw [one_mul, Equiv.sum_comp]) p
  obtain ⟨T, T', t1, t2, t3⟩ := cond_relabel g (hb'.trans hb.symm) h h' R R' l1 l2 r1 r2 e
  obtain ⟨T1, k, a1, a2, a3, -⟩ := run_fixed h hb R l1 r1
  obtain ⟨T2, k', b1, b2, b3, -⟩ := run_fixed h' hb' R' l2 r2
  let b0 : Boundary.BCs K := ⟨⟨[], []⟩, [], []⟩
  obtain rfl : T1 = T := Option.some.inj ((a1 b0).symm.trans (t1 b0))
  obtain rfl : T2 = T' := Option.some.inj ((b1 b0).symm.trans (t2 b0))
  refine ⟨w, k, k', m, fun b => (point_of hv c1 c2 (a1 b) a3).trans rfl, fun b => (point_of hv' c1' c2' (b1 b) b3).trans rfl, fun d => ?_⟩
  have x := (a2 d).2
  have y := (b2 (π d)).2
  rw [t3 d d] at y
  exact mul_left_cancel₀ (a2 d).1.ne' (y.trans x.symm)

/-- **C168**. With periodic boundary conditions, the tensor of resistivity is the same, up to the names of the axes. -/
theorem C168_periodic (g : SameGrid J.I.G J'.I.G a t π σ τ) (hb : J.I.bct = .periodic) (hb' : J'.I.bct = .periodic) (r : CopiedCells J J' σ.symm q)
    (h : Ready J lo hi side) (h' : Ready J' lo' hi' side') (hv : Valid J) (hv' : Valid J') (p : K) :
    ∃ w, ∃ k k' : Fin 9 → K, MeanSat J p w ∧ (∀ b, point J p b = some (w, List.ofFn k)) ∧ (∀ b, point J' p b = some (w, List.ofFn k')) ∧
      ∀ i j, ofVoigt k' (π i) (π j) = ofVoigt k i j := by
  obtain ⟨R, R', w, l1, l2, r1, r2, m, ⟨v, c1, c2⟩, ⟨v', c1', c2'⟩, e⟩ := copied_cells r hv hv' 1 (fun f => by rw [one_mul, Equiv.sum_comp]) p
  obtain ⟨T, T', t1, t2, t3⟩ := cond_relabel g (hb'.trans hb.symm) h h' R R' l1 l2 r1 r2 e
  obtain ⟨T1, k, a1, -, -, a4, a5, -⟩ := run_periodic h hb R l1 r1
  obtain ⟨T2, k', b1, -, -, b4, b5, -⟩ := run_periodic h' hb' R' l2 r2
  let b0 : Boundary.BCs K := ⟨⟨[], []⟩, [], []⟩
  obtain rfl : T1 = T := Option.some.inj ((a1 b0).symm.trans (t1 b0))
  obtain rfl : T2 = T' := Option.some.inj ((b1 b0).symm.trans (t2 b0))
  exact ⟨w, k, k', m, fun b => point_of hv c1 c2 (a1 b) a5, fun b => point_of hv' c1' c2' (b1 b) b5,
    inverse_relabel π (Matrix.of T1) (Matrix.of T2) (ofVoigt k) (ofVoigt k') t3 (by ext i j; rw [Matrix.mul_apply, Matrix.one_apply]; exact a4 i j)
      (by ext i j; rw [Matrix.mul_apply, Matrix.one_apply]; exact b4 i j)⟩

end

end

/-! ### The hypotheses are met -/

/-- Two copies of the sample of `exJob`. -/
noncomputable def twoJob : Job ℚ :=
  { exJob .periodic (1 / 10) with
    cells := [⟨1, 1 / 4, 1, 343⟩, ⟨1, 1 / 10, 1, 343⟩, ⟨1, 1 / 4, 1, 343⟩, ⟨1, 1 / 10, 1, 343⟩]
    I := twoInput }

theorem two_ready : Ready twoJob twoLo twoHi twoSide :=
  have h := RelPermChain.two_ready
  { tiling := h.tiling, box := h.box, suited := h.suited, basis := h.basis, sort := h.sort, solver := h.solver, gravity := h.gravity
    invert := fun A M h1 _ => exInvert_ok A M h1 }

theorem two_valid : Valid twoJob where
  options := (ex_valid .periodic (poro := 1 / 10) (by norm_num)).options
  cells := rfl
  checked c hc := by
    have hc : c ∈ (exJob .periodic (1 / 10)).cells := by
      change c ∈ [_, _, _, _] at hc
      change c ∈ [_, _]
      simp only [List.mem_cons, List.not_mem_nil, or_false] at hc ⊢
      tauto
    exact (ex_valid .periodic (poro := 1 / 10) (by norm_num)).checked c hc
  rock h := by simp [twoJob, rocks] at h

theorem two_cells : CopiedCells (exJob .periodic (1 / 10)) twoJob (fun c => (twoCell.symm c).2) 1 where
  cell := by
    intro c x h
    have key : ∀ c : Fin 4, (twoCell.symm c).2 = (⟨c.val % 2, by omega⟩ : Fin 2) := by decide +kernel
    have e : (twoCell.symm c).2 = (⟨c.val % 2, by omega⟩ : Fin 2) := key c
    rw [e] at h
    have hc : c.val < 4 := c.2
    change [(⟨1, 1 / 4, 1, 343⟩ : Cell ℚ), ⟨1, 1 / 10, 1, 343⟩][c.val % 2]? = some x at h
    change [(⟨1, 1 / 4, 1, 343⟩ : Cell ℚ), ⟨1, 1 / 10, 1, 343⟩, ⟨1, 1 / 4, 1, 343⟩, ⟨1, 1 / 10, 1, 343⟩][c.val]? = _
    obtain h0 | h0 | h0 | h0 : c.val = 0 ∨ c.val = 1 ∨ c.val = 2 ∨ c.val = 3 := by omega
    all_goals
      rw [h0] at h ⊢
      obtain rfl := Option.some.inj h
      rw [one_mul]
      rfl
  opts := rfl
  curves := rfl

example (p : ℚ) : ∃ w, ∃ k : Fin 9 → ℚ, (∀ b, point (exJob .periodic (1 / 10)) p b = some (w, List.ofFn k)) ∧ ∀ b, point twoJob p b = some (w, List.ofFn k) := by
  obtain ⟨w, k, -, h1, h2⟩ := C168_copies (t := 0) (τ := fun _ => Equiv.refl (Fin 6)) two_stacked.toStackedGrid two_cells
    (ex_ready .periodic (1 / 10)) two_ready (ex_valid _ (by norm_num)) two_valid rfl rfl p
  exact ⟨w, k, h1, h2⟩

/-- The sample of `exJob` with other numbers, unit of length, origin and names of the axes. -/
noncomputable def otherJob (bct : BCType) : Job ℚ :=
  { exJob bct (1 / 10) with
    cells := [⟨1, 1 / 10, 1, 2744⟩, ⟨1, 1 / 4, 1, 2744⟩]
    I := ex2Input bct }

theorem other_ready (bct : BCType) : Ready (otherJob bct) ex2Lo ex2Hi ex2Side :=
  have h := RelPermChain.other_ready bct
  { tiling := h.tiling, box := h.box, suited := h.suited, basis := h.basis, sort := h.sort, solver := h.solver, gravity := h.gravity
    invert := fun A M h1 _ => exInvert_ok A M h1 }

theorem other_valid (bct : BCType) : Valid (otherJob bct) where
  options := (ex_valid bct (poro := 1 / 10) (by norm_num)).options
  cells := rfl
  checked c hc := by
    have h0 := (ex_valid bct (poro := 1 / 10) (by norm_num)).checked
    change c ∈ [_, _] at hc
    simp only [List.mem_cons, List.not_mem_nil, or_false] at hc
    rcases hc with rfl | rfl
    · have h1 := h0 ⟨1, 1 / 10, 1, 343⟩ (List.mem_cons_of_mem _ (List.mem_singleton.mpr rfl))
      exact ⟨by norm_num, h1.poro, h1.perm, h1.lo, h1.hi, h1.nonneg⟩
    · have h1 := h0 ⟨1, 1 / 4, 1, 343⟩ List.mem_cons_self
      exact ⟨by norm_num, h1.poro, h1.perm, h1.lo, h1.hi, h1.nonneg⟩
  rock h := by simp [otherJob, rocks] at h

theorem other_cells (bct : BCType) : CopiedCells (exJob bct (1 / 10)) (otherJob bct) swapCells.symm 8 where
  cell := by
    intro c x h
    have key : ∀ c : Fin 2, swapCells.symm c = (⟨1 - c.val, by omega⟩ : Fin 2) := by decide +kernel
    have e : swapCells.symm c = (⟨1 - c.val, by omega⟩ : Fin 2) := key c
    rw [e] at h
    have hc : c.val < 2 := c.2
    change [(⟨1, 1 / 4, 1, 343⟩ : Cell ℚ), ⟨1, 1 / 10, 1, 343⟩][1 - c.val]? = some x at h
    change [(⟨1, 1 / 10, 1, 2744⟩ : Cell ℚ), ⟨1, 1 / 4, 1, 2744⟩][c.val]? = _
    obtain h0 | h0 : c.val = 0 ∨ c.val = 1 := by omega
    all_goals
      rw [h0] at h ⊢
      obtain rfl := Option.some.inj h
      have : (8 : ℚ) * 343 = 2744 := by norm_num
      dsimp only
      rw [this]
      rfl
  opts := rfl
  curves := rfl

example (p : ℚ) : ∃ w, ∃ k k' : Fin 3 → ℚ, (∀ b, point (exJob .fixed (1 / 10)) p b = some (w, List.ofFn k)) ∧
    (∀ b, point (otherJob .fixed) p b = some (w, List.ofFn k')) ∧ ∀ d, k' (swapAxes d) = k d := by
  obtain ⟨w, k, k', -, h⟩ := C168_fixed (ex2_same .fixed).toSameGrid rfl rfl (other_cells .fixed) (ex_ready .fixed (1 / 10)) (other_ready .fixed)
    (ex_valid _ (by norm_num)) (other_valid .fixed) p
  exact ⟨w, k, k', h⟩

example (p : ℚ) : ∃ w, ∃ k k' : Fin 9 → ℚ, (∀ b, point (exJob .periodic (1 / 10)) p b = some (w, List.ofFn k)) ∧
    (∀ b, point (otherJob .periodic) p b = some (w, List.ofFn k')) ∧ ∀ i j, ofVoigt k' (swapAxes i) (swapAxes j) = ofVoigt k i j := by
  obtain ⟨w, k, k', -, h⟩ := C168_periodic (ex2_same .periodic).toSameGrid rfl rfl (other_cells .periodic) (ex_ready .periodic (1 / 10))
    (other_ready .periodic) (ex_valid _ (by norm_num)) (other_valid .periodic) p
  exact ⟨w, k, k', h⟩

end Verif.ResistChain
