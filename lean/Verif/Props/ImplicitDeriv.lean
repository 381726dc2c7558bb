import Verif.Props.ImplicitAssembly
import Mathlib.Analysis.Calculus.Deriv.Add
import Mathlib.Analysis.Calculus.Deriv.Mul
import Mathlib.Analysis.Calculus.Deriv.Inv

/-! C61: the assembled Jacobian is the derivative of the assembled residual. -/

namespace Verif.Implicit

noncomputable section

/-- The fluid: water and oil mobility and capillary pressure of each cell as functions of its water saturation. -/
structure Spec.Fluid where
  mw : Nat → ℝ → ℝ
  mo : Nat → ℝ → ℝ
  pc : Nat → ℝ → ℝ

/-- The parameter store holds the fluid properties and their derivatives at the saturations `s`, and the changes from `s0`. -/
structure Spec.At (st : Store ℝ) (fl : Spec.Fluid) (s s0 : Nat → ℝ) : Prop where
  mob : ∀ c, st.mob c = (fl.mw c (s c), fl.mo c (s c))
  pc : ∀ c, st.pc c = fl.pc c (s c)
  dmw : ∀ c, HasDerivAt (fl.mw c) (st.dmob c).1 (s c)
  dmo : ∀ c, HasDerivAt (fl.mo c) (st.dmob c).2 (s c)
  dpc : ∀ c, HasDerivAt (fl.pc c) (st.dpc c) (s c)
  ds : ∀ c, st.ds c = s c - s0 c

/-- Water leaving cell `c` through face `f` at saturations `s`, with the water mobility of cell `cw` and the oil mobility of cell `co`. -/
def Spec.faceOut (P : Problem ℝ) (fl : Spec.Fluid) (s : Nat → ℝ) (c f a b cw co : Nat) : ℝ :=
  (if a = c then 1 else -1) * Spec.waterVolume P.dt (P.faceflux f) (P.g0 f + P.st.trans f * (fl.pc b (s b) - fl.pc a (s a))) (fl.mw cw (s cw)) (fl.mo co (s co))

/-- Water taken by a source out of cell `c`. -/
def Spec.srcOut (P : Problem ℝ) (fl : Spec.Fluid) (s : Nat → ℝ) (q : Nat × ℝ × ℝ) : ℝ :=
  if 0 < q.2.1 then P.dt * (-q.2.1) * q.2.2 else P.dt * (-q.2.1) * (fl.mw q.1 (s q.1) / (fl.mw q.1 (s q.1) + fl.mo q.1 (s q.1)))

/-- The residual of cell `c` at saturations `s`, with the upwind cells `up` of the faces given. -/
def Spec.frozenRes (P : Problem ℝ) (fl : Spec.Fluid) (up : Nat → Nat × Nat) (s0 s : Nat → ℝ) (c : Nat) : ℝ :=
  ((Spec.conns P.grid c).map fun f => Spec.faceOut P fl s c f (P.grid.faceCells f).1.toNat (P.grid.faceCells f).2.toNat (up f).1 (up f).2).sum +
  P.st.porevol c * (s c - s0 c) + ((P.src.filter fun q => q.1 = c).map (Spec.srcOut P fl s)).sum

/-- The upwind cells chosen by the code. -/
def upCells (P : Problem ℝ) (f : Nat) : Nat × Nat :=
  let a := (P.grid.faceCells f).1.toNat
  let b := (P.grid.faceCells f).2.toNat
  let p := upwind P.st (P.faceflux f) (P.g0 f + P.st.trans f * (P.st.pc b - P.st.pc a)) a b
  (if p.1 then b else a, if p.2 then b else a)

theorem hasDerivAt_waterVolume (dt q G0 T : ℝ) (sg : ℝ) (W O C : ℝ → ℝ) (W' O' C' t : ℝ) (hW : HasDerivAt W W' t) (hO : HasDerivAt O O' t) (hC : HasDerivAt C C' t)
    (h : W t + O t ≠ 0) :
    HasDerivAt (fun t => sg * Spec.waterVolume dt q (G0 + T * C t) (W t) (O t))
      (sg * (dt * ((W' * (W t + O t) - W t * (W' + O')) / (W t + O t) ^ 2) * (q + O t * (G0 + T * C t)) +
        dt * (W t / (W t + O t)) * (O' * (G0 + T * C t) + O t * (T * C')))) t := by
  unfold Spec.waterVolume
  have h1 := hW.fun_div (hW.fun_add hO) h
  have h2 := (hO.fun_mul ((hC.const_mul T).const_add G0)).const_add q
  exact ((h1.const_mul dt).fun_mul h2).const_mul sg

theorem upd_deriv (g : ℝ → ℝ) (g' : ℝ) (s : Nat → ℝ) (d c : Nat) (h : HasDerivAt g g' (s c)) :
    HasDerivAt (fun t => g (Function.update s d t c)) (if c = d then g' else 0) (s d) := by
  by_cases hcd : c = d
  · subst hcd; simpa using h
  · simp only [Function.update_of_ne hcd, if_neg hcd]
    exact hasDerivAt_const _ _

/-- Derivative of the flow over one face with respect to the saturation of cell `d`. -/
theorem face_deriv (P : Problem ℝ) (fl : Spec.Fluid) (s s0 : Nat → ℝ) (hat : Spec.At P.st fl s s0) (c f a b : Nat) (hab : a ≠ b) (hc : c = a ∨ c = b)
    (ha : (P.grid.faceCells f).1.toNat = a) (hb : (P.grid.faceCells f).2.toNat = b) (x : Contrib ℝ)
    (hx : fluxConnection P.st P.dt (P.faceflux f) (P.g0 f) c f a b = some x) (d : Nat) :
    x.F = Spec.faceOut P fl s c f a b (upCells P f).1 (upCells P f).2 ∧
    HasDerivAt (fun t => Spec.faceOut P fl (Function.update s d t) c f a b (upCells P f).1 (upCells P f).2)
      ((if d = c then x.J1 else 0) + (if d = (if a = c then b else a) then x.J2 else 0)) (s d) := by
  set G := P.g0 f + P.st.trans f * (P.st.pc b - P.st.pc a) with hG
  have hup : upCells P f = (if (upwind P.st (P.faceflux f) G a b).1 then b else a, if (upwind P.st (P.faceflux f) G a b).2 then b else a) := by
    unfold upCells; rw [ha, hb]
  set p := upwind P.st (P.faceflux f) G a b with hp
  unfold fluxConnection at hx
  simp only [capFlux, ← hG, ← hp, side] at hx
  have hm : (P.st.mob (if p.1 = true then b else a)).1 + (P.st.mob (if p.2 = true then b else a)).2 ≠ 0 := by
    intro h; rw [if_pos h] at hx; simp at hx
  rw [if_neg hm, Option.some.injEq] at hx
  rw [hup]
  simp only [hat.mob] at hm hx
  have hpc : G = P.g0 f + P.st.trans f * (fl.pc b (s b) - fl.pc a (s a)) := by rw [hG, hat.pc, hat.pc]
  have hself : ∀ c, Function.update s d (s d) c = s c := by intro c; rw [Function.update_eq_self]
  constructor
  · rw [← hx]
    simp only [Spec.faceOut, Spec.waterVolume, ← hpc]
    by_cases h : a = c
    · simp [h]
    · simp only [if_neg h]; ring
  · have D := hasDerivAt_waterVolume P.dt (P.faceflux f) (P.g0 f) (P.st.trans f) (if a = c then 1 else -1)
      (fun t => fl.mw (if p.1 = true then b else a) (Function.update s d t (if p.1 = true then b else a)))
      (fun t => fl.mo (if p.2 = true then b else a) (Function.update s d t (if p.2 = true then b else a)))
      (fun t => fl.pc b (Function.update s d t b) - fl.pc a (Function.update s d t a)) _ _ _ (s d)
      (upd_deriv _ _ s d _ (hat.dmw _)) (upd_deriv _ _ s d _ (hat.dmo _)) ((upd_deriv _ _ s d _ (hat.dpc b)).fun_sub (upd_deriv _ _ s d _ (hat.dpc a)))
      (by simpa only [hself] using hm)
    simp only [hself, ← hpc] at D
    unfold Spec.faceOut
    refine D.congr_deriv ?_
    rw [← hx]
    generalize hmw : fl.mw (if p.1 = true then b else a) (s (if p.1 = true then b else a)) = mw at *
    generalize hmo : fl.mo (if p.2 = true then b else a) (s (if p.2 = true then b else a)) = mo at *
    rcases hc with rfl | rfl
    · by_cases hd1 : d = c
      · subst hd1
        cases p.1 <;> cases p.2 <;> simp [hab, hab.symm] <;> field_simp <;> ring
      · by_cases hd2 : d = b
        · subst hd2
          cases p.1 <;> cases p.2 <;> simp [hab, hab.symm] <;> field_simp <;> ring
        · cases p.1 <;> cases p.2 <;> simp [hd1, hd2, Ne.symm hd1, Ne.symm hd2]
    · by_cases hd1 : d = c
      · subst hd1
        cases p.1 <;> cases p.2 <;> simp [hab, hab.symm] <;> field_simp <;> ring
      · by_cases hd2 : d = a
        · subst hd2
          cases p.1 <;> cases p.2 <;> simp [hab, hab.symm] <;> field_simp <;> ring
        · cases p.1 <;> cases p.2 <;> simp [hd1, hd2, Ne.symm hd1, Ne.symm hd2, hab]

/-- Derivative of a source term with respect to the saturation of cell `d`. -/
theorem src_deriv (P : Problem ℝ) (fl : Spec.Fluid) (s s0 : Nat → ℝ) (hat : Spec.At P.st fl s s0) (q : Nat × ℝ × ℝ) (y : ℝ × ℝ)
    (hy : sourceTerms P.st P.dt q.2.1 q.2.2 q.1 = some y) (d : Nat) :
    y.2 = Spec.srcOut P fl s q ∧
    HasDerivAt (fun t => Spec.srcOut P fl (Function.update s d t) q) (if d = q.1 then y.1 else 0) (s d) := by
  unfold sourceTerms at hy
  unfold Spec.srcOut
  by_cases h : 0 < q.2.1
  · rw [if_pos (by linarith), Option.some.injEq] at hy
    simp only [if_pos h]
    rw [← hy]
    refine ⟨by ring, ?_⟩
    simp only [ite_self]
    exact hasDerivAt_const _ _
  · rw [if_neg (by linarith)] at hy
    simp only [hat.mob] at hy
    have hm : fl.mw q.1 (s q.1) + fl.mo q.1 (s q.1) ≠ 0 := by
      intro hz; rw [if_pos hz] at hy; simp at hy
    rw [if_neg hm, Option.some.injEq] at hy
    simp only [if_neg h]
    refine ⟨by rw [← hy], ?_⟩
    have hself : ∀ c, Function.update s d (s d) c = s c := by intro c; rw [Function.update_eq_self]
    have D := ((upd_deriv _ _ s d _ (hat.dmw q.1)).fun_div ((upd_deriv _ _ s d _ (hat.dmw q.1)).fun_add (upd_deriv _ _ s d _ (hat.dmo q.1)))
      (by simpa only [hself] using hm)).const_mul (P.dt * -q.2.1)
    simp only [hself] at D
    refine D.congr_deriv ?_
    rw [← hy]
    by_cases hd : d = q.1
    · subst hd; simp only [if_true]; field_simp; ring
    · simp [hd, Ne.symm hd]

theorem list_deriv {A : Type} (l : List A) (F : A → ℝ → ℝ) (F' : A → ℝ) (t : ℝ) (h : ∀ a ∈ l, HasDerivAt (F a) (F' a) t) :
    HasDerivAt (fun t => (l.map fun a => F a t).sum) (l.map F').sum t := by
  induction l with
  | nil => simpa using hasDerivAt_const t (0 : ℝ)
  | cons a l ih =>
    simp only [List.map_cons, List.sum_cons]
    exact (h a (List.mem_cons_self ..)).fun_add (ih fun b hb => h b (List.mem_cons_of_mem _ hb))

/-- **C61** The residual assembled is the discretised balance of every cell at the given saturations, and the matrix assembled is its derivative with respect to the saturation of every cell,
with the upwind directions kept. -/
theorem C61_jacobian (P : Problem ℝ) (hg : Spec.WellFormed P.grid) (hd : ∀ f, 0 ≤ (P.grid.faceCells f).1 → (P.grid.faceCells f).1 ≠ (P.grid.faceCells f).2)
    (fl : Spec.Fluid) (s s0 : Nat → ℝ) (hat : Spec.At P.st fl s s0) (x : Nat → Nat → Contrib ℝ) (hx : Spec.Contribs P x)
    (y : Nat × ℝ × ℝ → ℝ × ℝ) (hy : Spec.Sources P y) :
    ∃ S, assemble P = some S ∧ ∀ c, c < P.grid.nc → S.res c = Spec.frozenRes P fl (upCells P) s0 s c ∧
      ∀ b, HasDerivAt (fun t => Spec.frozenRes P fl (upCells P) s0 (Function.update s b t) c) (S.mat c b) (s b) := by
  obtain ⟨S, e, hr, hm⟩ := C22_assemble P hg x hx y hy
  refine ⟨S, e, fun c hc => ?_⟩
  -- data of a connection
  have conn : ∀ f ∈ Spec.conns P.grid c, ∃ a b : Nat, (P.grid.faceCells f) = ((a : Int), (b : Int)) ∧ a ≠ b ∧ (c = a ∨ c = b) ∧
      P.grid.other c f = ((if a = c then b else a : Nat) : Int) := by
    intro f hf
    unfold Spec.conns at hf
    rw [List.mem_filter] at hf
    obtain ⟨hf1, hf2⟩ := hf
    unfold Grid.internal at hf2
    rw [Bool.and_eq_true, decide_eq_true_eq, decide_eq_true_eq] at hf2
    obtain ⟨a, ha⟩ := Int.eq_ofNat_of_zero_le hf2.1
    obtain ⟨b, hb⟩ := Int.eq_ofNat_of_zero_le hf2.2
    have hne := hd f hf2.1
    have hmine := hg.mine c f hc hf1
    rw [ha, hb] at hne hmine
    refine ⟨a, b, Prod.ext ha hb, fun h => hne (by rw [h]), ?_, ?_⟩
    · rcases hmine with h | h
      · left; omega
      · right; omega
    · unfold Grid.other
      rw [ha, hb]
      by_cases h : a = c
      · simp [h]
      · rw [if_neg (by omega), if_neg h]
  have face : ∀ d, ∀ f ∈ Spec.conns P.grid c,
      (x c f).F = Spec.faceOut P fl s c f (P.grid.faceCells f).1.toNat (P.grid.faceCells f).2.toNat (upCells P f).1 (upCells P f).2 ∧
      HasDerivAt (fun t => Spec.faceOut P fl (Function.update s d t) c f (P.grid.faceCells f).1.toNat (P.grid.faceCells f).2.toNat (upCells P f).1 (upCells P f).2)
        ((if d = c then (x c f).J1 else 0) + (if (d : Int) = P.grid.other c f then (x c f).J2 else 0)) (s d) := by
    intro d f hf
    obtain ⟨a, b, hfc, hab, hca, ho⟩ := conn f hf
    have ha : (P.grid.faceCells f).1.toNat = a := by rw [hfc]; simp
    have hb : (P.grid.faceCells f).2.toNat = b := by rw [hfc]; simp
    have hxx := hx c hc f hf
    rw [ha, hb] at hxx ⊢
    have := face_deriv P fl s s0 hat c f a b hab hca ha hb (x c f) hxx d
    rw [ho]
    simpa only [Nat.cast_inj] using this
  constructor
  · rw [hr c hc]
    unfold Spec.frozenRes
    rw [hat.ds]
    congr 1
    · congr 1
      congr 1
      exact List.map_congr_left fun f hf => (face 0 f hf).1
    · congr 1
      apply List.map_congr_left
      intro q hq
      exact (src_deriv P fl s s0 hat q (y q) (hy q (List.mem_filter.1 hq).1).2 0).1
  · intro b
    rw [hm c b hc]
    unfold Spec.frozenRes
    have h1 := list_deriv (Spec.conns P.grid c) _ _ (s b) (fun f hf => (face b f hf).2)
    have h2 : HasDerivAt (fun t => P.st.porevol c * (Function.update s b t c - s0 c)) (if b = c then P.st.porevol c else 0) (s b) := by
      have := ((upd_deriv (fun u => u) 1 s b c (hasDerivAt_id' _)).sub_const (s0 c)).const_mul (P.st.porevol c)
      refine this.congr_deriv ?_
      by_cases h : b = c
      · simp [h]
      · simp [h, Ne.symm h]
    have h3 : HasDerivAt (fun t => ((P.src.filter fun q => q.1 = c).map fun q => Spec.srcOut P fl (Function.update s b t) q).sum)
        (if b = c then ((P.src.filter fun q => q.1 = c).map fun q => (y q).1).sum else 0) (s b) := by
      have := list_deriv (P.src.filter fun q => q.1 = c) (fun q t => Spec.srcOut P fl (Function.update s b t) q) (fun q => if b = q.1 then (y q).1 else 0) (s b)
        (fun q hq => (src_deriv P fl s s0 hat q (y q) (hy q (List.mem_filter.1 hq).1).2 b).2)
      refine this.congr_deriv ?_
      have hmap : ((P.src.filter fun q => q.1 = c).map fun q => if b = q.1 then (y q).1 else 0) =
          (P.src.filter fun q => q.1 = c).map fun q => if b = c then (y q).1 else 0 := by
        apply List.map_congr_left
        intro q hq
        have : q.1 = c := by simpa using (List.mem_filter.1 hq).2
        rw [this]
      rw [hmap]
      by_cases h : b = c
      · simp [h]
      · simp [h]
    exact (h1.fun_add h2).fun_add h3

/-- A fluid with linear mobilities and linear capillary pressure. -/
def exFluid : Spec.Fluid := ⟨fun _ s => s, fun _ s => 1 - s, fun _ s => 2 - s⟩

/-- A store that holds it at saturation one third in every cell. -/
example : Spec.At ⟨0, fun _ => (1 / 3, 2 / 3), fun _ => (1, -1), fun _ => 1, fun _ => 0, fun _ => 1 / 3, fun _ => 5 / 3, fun _ => -1, fun _ => 1⟩ exFluid
    (fun _ => 1 / 3) (fun _ => 0) := by
  refine ⟨fun c => ?_, fun c => ?_, fun c => ?_, fun c => ?_, fun c => ?_, fun c => ?_⟩
  · simp only [exFluid]; norm_num
  · simp only [exFluid]; norm_num
  · exact hasDerivAt_id' _
  · simpa [exFluid] using (hasDerivAt_id' (1 / 3 : ℝ)).const_sub 1
  · simpa [exFluid] using (hasDerivAt_id' (1 / 3 : ℝ)).const_sub 2
  · norm_num

end

end Verif.Implicit
