import Verif.Props.ImplicitPeriodic
import Verif.Spec.ImplicitRange

/-!
C151: implicit transport makes no new extremes of saturation, whatever the length of the step.
-/

namespace Verif.ImplicitStep

open Verif.Implicit
open Verif.ImplicitStep.Spec
open Verif.Implicit.Spec (Interior waterVolume)

variable {K : Type} [Field K] [LinearOrder K] [IsStrictOrderedRing K]

/-- Out of a cell with more water than its neighbour flows at least the fraction of water of that cell. -/
theorem out_ge {dt q G wa wb oa ob mw mo : K} (hdt : 0 ≤ dt) (hwa : 0 ≤ wa) (hwb : 0 ≤ wb) (hoa : 0 ≤ oa) (hob : 0 ≤ ob) (ha : 0 < wa + oa) (hb : 0 < wb + ob) (hm : 0 < mw + mo)
    (h1 : (mw = wa ∧ 0 ≤ q + mo * G) ∨ (mw = wb ∧ q + mo * G ≤ 0)) (h2 : (mo = oa ∧ 0 ≤ q - mw * G) ∨ (mo = ob ∧ q - mw * G ≤ 0))
    (hG : 0 ≤ G) (hw : wb ≤ wa) (ho : oa ≤ ob) : dt * (wa / (wa + oa) * q) ≤ waterVolume dt q G mw mo := by
  have key : wa / (wa + oa) * q ≤ mw / (mw + mo) * (q + mo * G) := by
    rw [div_mul_eq_mul_div, div_mul_eq_mul_div, div_le_div_iff₀ ha hm]
    rcases h1 with ⟨rfl, e1⟩ | ⟨rfl, e1⟩ <;> rcases h2 with ⟨rfl, e2⟩ | ⟨rfl, e2⟩
    · have := mul_nonneg (mul_nonneg (mul_nonneg hwa hoa) hG) ha.le
      nlinarith
    · rw [mul_assoc, mul_assoc]
      refine mul_le_mul_of_nonneg_left ?_ hwa
      have h3 : (q - mw * G) * (mo - oa) ≤ 0 := mul_nonpos_of_nonpos_of_nonneg e2 (sub_nonneg.2 ho)
      have h4 := mul_nonneg (mul_nonneg hwa hG) hoa
      have h5 := mul_nonneg (mul_nonneg hob hG) hoa
      nlinarith
    · have h3 := mul_nonneg hwb hG
      have h4 := mul_nonneg hoa hG
      have h5 : q = 0 := le_antisymm (by linarith) (by linarith)
      have h6 : mo * G = 0 := le_antisymm (by linarith) h4
      rw [h5, h6]; simp
    · have h3 := mul_nonneg hob hG
      have h4 : q ≤ 0 := by linarith
      have h5 : mw * oa ≤ wa * mo := mul_le_mul hw ho hoa hwa
      have h6 : q * (wa * mo) ≤ q * (mw * oa) := mul_le_mul_of_nonpos_left h5 h4
      have h7 := mul_nonneg (mul_nonneg hwb h3) ha.le
      nlinarith
  unfold waterVolume
  have := mul_le_mul_of_nonneg_left key hdt
  calc _ ≤ _ := this
    _ = _ := by ring

theorem out_le {dt q G wa wb oa ob mw mo : K} (hdt : 0 ≤ dt) (hwa : 0 ≤ wa) (hwb : 0 ≤ wb) (hoa : 0 ≤ oa) (hob : 0 ≤ ob) (ha : 0 < wa + oa) (hb : 0 < wb + ob) (hm : 0 < mw + mo)
    (h1 : (mw = wa ∧ 0 ≤ q + mo * G) ∨ (mw = wb ∧ q + mo * G ≤ 0)) (h2 : (mo = oa ∧ 0 ≤ q - mw * G) ∨ (mo = ob ∧ q - mw * G ≤ 0))
    (hG : G ≤ 0) (hw : wa ≤ wb) (ho : ob ≤ oa) : waterVolume dt q G mw mo ≤ dt * (wa / (wa + oa) * q) := by
  have h := out_ge (q := q) (G := -G) (wa := oa) (wb := ob) (oa := wa) (ob := wb) (mw := mo) (mo := mw) hdt hoa hob hwa hwb (by linarith) (by linarith) (by linarith)
    (by rcases h2 with ⟨e, h⟩ | ⟨e, h⟩
        · exact Or.inl ⟨e, by linarith⟩
        · exact Or.inr ⟨e, by linarith⟩)
    (by rcases h1 with ⟨e, h⟩ | ⟨e, h⟩
        · exact Or.inl ⟨e, by linarith⟩
        · exact Or.inr ⟨e, by linarith⟩) (by linarith) ho hw
  have e1 : waterVolume dt q G mw mo + waterVolume dt q (-G) mo mw = dt * q := by
    unfold waterVolume
    have : mo + mw ≠ 0 := by linarith
    rw [add_comm mw mo]
    field_simp
    ring
  have e2 : dt * (wa / (wa + oa) * q) + dt * (oa / (oa + wa) * q) = dt * q := by
    rw [add_comm oa wa]
    have : wa + oa ≠ 0 := ha.ne'
    field_simp
  linarith

section

variable {M : Medium K}

/-- The flow over a face as seen from the cell `k` with the neighbour `l`, whichever of the two is the first cell of the face. -/
theorem seen {dt : K} {v : List K} {w : Nat → K} (hw : Flows M dt v w) {f a b : Nat} (hi : Interior M.grid f a b) {k : Nat} (hk : k = a ∨ k = b) :
    ∃ l, l < M.grid.nc ∧ l ≠ k ∧ ∃ mw mo,
      let q := if (M.grid.faceCells f).1 = (k : Int) then M.faceflux f else -M.faceflux f
      let G := M.trans f * (M.pc l (v.getD l 0) - M.pc k (v.getD k 0))
      0 < mw + mo ∧ (if (M.grid.faceCells f).1 = (k : Int) then w f else -w f) = waterVolume dt q G mw mo ∧
      ((mw = (M.mob k (v.getD k 0)).1 ∧ 0 ≤ q + mo * G) ∨ (mw = (M.mob l (v.getD l 0)).1 ∧ q + mo * G ≤ 0)) ∧
      ((mo = (M.mob k (v.getD k 0)).2 ∧ 0 ≤ q - mw * G) ∨ (mo = (M.mob l (v.getD l 0)).2 ∧ q - mw * G ≤ 0)) := by
  obtain ⟨cw, co, hcw, hco, hpos, hwf, g1, g2, g3, g4⟩ := hw f a b hi
  obtain ⟨he, ha, hb, hab⟩ := hi
  have he1 : (M.grid.faceCells f).1 = (a : Int) := by rw [he]
  rcases hk with rfl | rfl
  · refine ⟨b, hb, fun h => hab h.symm, _, _, hpos, ?_, ?_, ?_⟩
    · simp only [he1, if_true]; exact hwf
    · simp only [he1, if_true]
      rcases hcw with h | h
      · exact Or.inl ⟨by rw [h], g1 h⟩
      · exact Or.inr ⟨by rw [h], g2 h⟩
    · simp only [he1, if_true]
      rcases hco with h | h
      · exact Or.inl ⟨by rw [h], g3 h⟩
      · exact Or.inr ⟨by rw [h], g4 h⟩
  · have hn : ¬(a : Int) = (k : Int) := by exact_mod_cast hab
    refine ⟨a, ha, hab, _, _, hpos, ?_, ?_, ?_⟩
    · simp only [he1, if_neg hn]
      rw [hwf]; unfold waterVolume; ring
    · simp only [he1, if_neg hn]
      rcases hcw with h | h
      · exact Or.inr ⟨by rw [h], by linarith [g1 h]⟩
      · exact Or.inl ⟨by rw [h], by linarith [g2 h]⟩
    · simp only [he1, if_neg hn]
      rcases hco with h | h
      · exact Or.inr ⟨by rw [h], by linarith [g3 h]⟩
      · exact Or.inl ⟨by rw [h], by linarith [g4 h]⟩

theorem face_ge (hM : Sound M) (hF : OneFluid M) {dt : K} (hdt : 0 ≤ dt) {v : List K} (hv : Within M v) {w : Nat → K} (hw : Flows M dt v w) {f a b : Nat}
    (hi : Interior M.grid f a b) {k : Nat} (hk : k = a ∨ k = b) (top : ∀ j, j < M.grid.nc → v.getD j 0 ≤ v.getD k 0) :
    dt * fraction M k (v.getD k 0) * (if (M.grid.faceCells f).1 = (k : Int) then M.faceflux f else -M.faceflux f) ≤
      if (M.grid.faceCells f).1 = (k : Int) then w f else -w f := by
  have hkn : k < M.grid.nc := by rcases hk with rfl | rfl; exacts [hi.2.1, hi.2.2.1]
  obtain ⟨l, hl, -, mw, mo, hpos, hwf, g1, g2⟩ := seen hw hi hk
  obtain ⟨k1, k2⟩ := hv.limits k hkn
  obtain ⟨l1, l2⟩ := hv.limits l hl
  obtain ⟨p1, p2, p3⟩ := hM.mob k _ k1 k2
  obtain ⟨q1, q2, q3⟩ := hM.mob l _ l1 l2
  obtain ⟨lim, -⟩ := hF.limits k l hkn hl
  obtain ⟨m1, m2, m3⟩ := hF.more k _ _ hkn (by rw [lim]; exact l1) (top l hl) k2
  rw [hF.mob k l hkn hl] at m1 m2 
  rw [hF.pc k l hkn hl] at m3
  rw [hwf, mul_assoc]
  refine out_ge hdt p1 q1 p2 q2 p3 q3 hpos g1 g2 (mul_nonneg (hF.trans f) ?_) ?_ ?_
  · rw [hF.pc k l hkn hl]; linarith
  · rw [hF.mob k l hkn hl]; exact m1
  · rw [hF.mob k l hkn hl]; exact m2

theorem face_le (hM : Sound M) (hF : OneFluid M) {dt : K} (hdt : 0 ≤ dt) {v : List K} (hv : Within M v) {w : Nat → K} (hw : Flows M dt v w) {f a b : Nat}
    (hi : Interior M.grid f a b) {k : Nat} (hk : k = a ∨ k = b) (bot : ∀ j, j < M.grid.nc → v.getD k 0 ≤ v.getD j 0) :
    (if (M.grid.faceCells f).1 = (k : Int) then w f else -w f) ≤
      dt * fraction M k (v.getD k 0) * (if (M.grid.faceCells f).1 = (k : Int) then M.faceflux f else -M.faceflux f) := by
  have hkn : k < M.grid.nc := by rcases hk with rfl | rfl; exacts [hi.2.1, hi.2.2.1]
  obtain ⟨l, hl, -, mw, mo, hpos, hwf, g1, g2⟩ := seen hw hi hk
  obtain ⟨k1, k2⟩ := hv.limits k hkn
  obtain ⟨l1, l2⟩ := hv.limits l hl
  obtain ⟨p1, p2, p3⟩ := hM.mob k _ k1 k2
  obtain ⟨q1, q2, q3⟩ := hM.mob l _ l1 l2
  obtain ⟨-, lim⟩ := hF.limits k l hkn hl
  obtain ⟨m1, m2, m3⟩ := hF.more k _ _ hkn k1 (bot l hl) (by rw [lim]; exact l2)
  rw [hF.mob k l hkn hl] at m1 m2 
  rw [hF.pc k l hkn hl] at m3
  rw [hwf, mul_assoc]
  refine out_le hdt p1 q1 p2 q2 p3 q3 hpos g1 g2 (mul_nonpos_of_nonneg_of_nonpos (hF.trans f) ?_) ?_ ?_
  · rw [hF.pc k l hkn hl]; linarith
  · rw [hF.mob k l hkn hl]; exact m1
  · rw [hF.mob k l hkn hl]; exact m2

/-- In a cell with the most water, with injection of no more, the balance misses at least the change of the cell. -/
theorem imbalance_ge (hM : Sound M) (hF : OneFluid M) (hI : Incompressible M) {dt : K} (hdt : 0 ≤ dt) {v : List K} (hv : Within M v) {w : Nat → K} (hw : Flows M dt v w) {k : Nat}
    (hk : k < M.grid.nc) (top : ∀ j, j < M.grid.nc → v.getD j 0 ≤ v.getD k 0) (inj : ∀ q ∈ M.src, q.1 = k → 0 < q.2.1 → q.2.2 ≤ fraction M k (v.getD k 0)) (d : K) :
    M.porevol k * d ≤ imbalance M dt d v w k := by
  have h1 : dt * fraction M k (v.getD k 0) * outflow M M.faceflux k ≤ outflow M w k := by
    unfold outflow
    rw [← List.sum_map_mul_left]
    refine List.sum_le_sum fun f hf => ?_
    obtain ⟨hf, hd⟩ := List.mem_filter.1 hf
    obtain ⟨a, b, hi, hk'⟩ := interior_of hM hk hf (by simpa [Grid.internal] using hd)
    exact face_ge hM hF hdt hv hw hi hk' top
  have h2 : dt * fraction M k (v.getD k 0) * -((M.src.filter fun q => q.1 = k).map fun q => q.2.1).sum ≤ ((M.src.filter fun q => q.1 = k).map (leaves M dt v)).sum := by
    rw [mul_neg, ← neg_mul, ← List.sum_map_mul_left]
    refine List.sum_le_sum fun q hq => ?_
    obtain ⟨hq, hqk⟩ := List.mem_filter.1 hq
    have hqk : q.1 = k := by simpa using hqk
    unfold leaves
    split
    · rename_i hpos
      have := mul_le_mul_of_nonneg_left (inj q hq hqk hpos) (mul_nonneg hdt hpos.le)
      linarith
    · rw [hqk]; exact le_of_eq (by ring)
  rw [hI k hk] at h1
  unfold imbalance
  linarith

theorem imbalance_le (hM : Sound M) (hF : OneFluid M) (hI : Incompressible M) {dt : K} (hdt : 0 ≤ dt) {v : List K} (hv : Within M v) {w : Nat → K} (hw : Flows M dt v w) {k : Nat}
    (hk : k < M.grid.nc) (bot : ∀ j, j < M.grid.nc → v.getD k 0 ≤ v.getD j 0) (inj : ∀ q ∈ M.src, q.1 = k → 0 < q.2.1 → fraction M k (v.getD k 0) ≤ q.2.2) (d : K) :
    imbalance M dt d v w k ≤ M.porevol k * d := by
  have h1 : outflow M w k ≤ dt * fraction M k (v.getD k 0) * outflow M M.faceflux k := by
    unfold outflow
    rw [← List.sum_map_mul_left]
    refine List.sum_le_sum fun f hf => ?_
    obtain ⟨hf, hd⟩ := List.mem_filter.1 hf
    obtain ⟨a, b, hi, hk'⟩ := interior_of hM hk hf (by simpa [Grid.internal] using hd)
    exact face_le hM hF hdt hv hw hi hk' bot
  have h2 : ((M.src.filter fun q => q.1 = k).map (leaves M dt v)).sum ≤ dt * fraction M k (v.getD k 0) * -((M.src.filter fun q => q.1 = k).map fun q => q.2.1).sum := by
    rw [mul_neg, ← neg_mul, ← List.sum_map_mul_left]
    refine List.sum_le_sum fun q hq => ?_
    obtain ⟨hq, hqk⟩ := List.mem_filter.1 hq
    have hqk : q.1 = k := by simpa using hqk
    unfold leaves
    split
    · rename_i hpos
      have := mul_le_mul_of_nonneg_left (inj q hq hqk hpos) (mul_nonneg hdt hpos.le)
      linarith
    · rw [hqk]; exact le_of_eq (by ring)
  rw [hI k hk] at h1
  unfold imbalance
  linarith

/-- Saturations that balance the water of every cell up to `ε` and what is cut off at the limits are not higher than the initial ones and what is injected, up to these errors. -/
theorem upper (hM : Sound M) (hF : OneFluid M) (hI : Incompressible M) {dt : K} (hdt : 0 ≤ dt) {s v : List K} (hv : Within M v) {w : Nat → K} (hw : Flows M dt v w) {p ε U : K}
    (hp : 0 < p) (hpv : ∀ k, k < M.grid.nc → p ≤ M.porevol k) (hε : 0 ≤ ε) (hs : ∀ k, k < M.grid.nc → s.getD k 0 ≤ U) (hU : InjectsBelow M U)
    (hb : ∀ k, k < M.grid.nc → |imbalance M dt (v.getD k 0 - s.getD k 0) v w k| ≤ ε + M.porevol k * M.tol) :
    ∀ k, k < M.grid.nc → v.getD k 0 ≤ U + (ε / p + M.tol) := by
  intro k0 hk0
  obtain ⟨k, hk, top⟩ := Finset.exists_max_image (Finset.range M.grid.nc) (fun j => v.getD j 0) ⟨k0, Finset.mem_range.2 hk0⟩
  rw [Finset.mem_range] at hk
  have top : ∀ j, j < M.grid.nc → v.getD j 0 ≤ v.getD k 0 := fun j hj => top j (Finset.mem_range.2 hj)
  refine (top k0 hk0).trans ?_
  have hδ : 0 ≤ ε / p + M.tol := add_nonneg (div_nonneg hε hp.le) hM.tol
  by_cases hle : v.getD k 0 ≤ U
  · linarith
  have hle := (not_le.1 hle).le
  obtain ⟨k1, k2⟩ := hv.limits k hk
  have h := (imbalance_ge hM hF hI hdt hv hw hk top (fun q hq hqk hpos => by
    have := hU q hq hpos (v.getD k 0); rw [hqk] at this; exact this k1 k2 hle) (v.getD k 0 - s.getD k 0)).trans ((le_abs_self _).trans (hb k hk))
  have hpk := hp.trans_le (hpv k hk)
  have h1 : v.getD k 0 - s.getD k 0 ≤ ε / M.porevol k + M.tol := by
    rw [← mul_le_mul_iff_right₀ hpk]
    refine h.trans (le_of_eq ?_)
    field_simp
  have h2 : ε / M.porevol k ≤ ε / p := div_le_div_of_nonneg_left hε hp (hpv k hk)
  have := hs k hk
  linarith

theorem lower (hM : Sound M) (hF : OneFluid M) (hI : Incompressible M) {dt : K} (hdt : 0 ≤ dt) {s v : List K} (hv : Within M v) {w : Nat → K} (hw : Flows M dt v w) {p ε L : K}
    (hp : 0 < p) (hpv : ∀ k, k < M.grid.nc → p ≤ M.porevol k) (hε : 0 ≤ ε) (hs : ∀ k, k < M.grid.nc → L ≤ s.getD k 0) (hL : InjectsAbove M L)
    (hb : ∀ k, k < M.grid.nc → |imbalance M dt (v.getD k 0 - s.getD k 0) v w k| ≤ ε + M.porevol k * M.tol) :
    ∀ k, k < M.grid.nc → L - (ε / p + M.tol) ≤ v.getD k 0 := by
  intro k0 hk0
  obtain ⟨k, hk, bot⟩ := Finset.exists_min_image (Finset.range M.grid.nc) (fun j => v.getD j 0) ⟨k0, Finset.mem_range.2 hk0⟩
  rw [Finset.mem_range] at hk
  have bot : ∀ j, j < M.grid.nc → v.getD k 0 ≤ v.getD j 0 := fun j hj => bot j (Finset.mem_range.2 hj)
  refine le_trans ?_ (bot k0 hk0)
  have hδ : 0 ≤ ε / p + M.tol := add_nonneg (div_nonneg hε hp.le) hM.tol
  by_cases hle : L ≤ v.getD k 0
  · linarith
  have hle := (not_le.1 hle).le
  obtain ⟨k1, k2⟩ := hv.limits k hk
  have h := (neg_le_neg (hb k hk)).trans ((neg_abs_le _).trans (imbalance_le hM hF hI hdt hv hw hk bot (fun q hq hqk hpos => by
    have := hL q hq hpos (v.getD k 0); rw [hqk] at this; exact this k1 k2 hle) (v.getD k 0 - s.getD k 0)))
  have hpk := hp.trans_le (hpv k hk)
  have h1 : -(ε / M.porevol k + M.tol) ≤ v.getD k 0 - s.getD k 0 := by
    rw [← mul_le_mul_iff_right₀ hpk]
    refine le_trans (le_of_eq ?_) h
    field_simp
  have h2 : ε / M.porevol k ≤ ε / p := div_le_div_of_nonneg_left hε hp (hpv k hk)
  have := hs k hk
  linarith

end

variable {M : Medium K} {lin : (Nat → Nat → K) → List K → List K → List K} {big dt : K} {c : Newton.Ctrl K} {s : List K}

/-- **C151** With one fluid in the reservoir and incompressible total fluxes, a step that reports success makes no new extremes of saturation, whatever its length, the permeabilities, the
capillary pressure and the grid: if the initial saturations are between `L` and `U` and so is what is injected, then so are the new ones, up to the tolerance per pore volume and what is cut off
at the limits. -/
theorem C151_step (hM : Sound M) (hF : OneFluid M) (hI : Incompressible M) (hs : Within M s) (hdt : 0 ≤ dt) (hlin : ∀ A b g, (lin A b g).length = g.length) (hm : 1 ≤ c.maxIt)
    (hr : c.rtol ≤ 1) (h0 : 0 ≤ big) (hbig : ∀ w, Flows M dt s w → ∀ k, k < M.grid.nc → |imbalance M dt 0 s w k| ≤ big) (mem : NewtonVec.Mem K) {p : K} (hp : 0 < p)
    (hpv : ∀ k, k < M.grid.nc → p ≤ M.porevol k) :
    ∃ v flag, step M lin big c mem dt s = some (v, flag) ∧ Within M v ∧ ∀ ε, 0 ≤ ε → (flag = 1 ∧ ε = c.atol) ∨
        (flag = 2 ∧ ∀ w, Flows M dt s w → ∀ k, k < M.grid.nc → c.rtol * |imbalance M dt 0 s w k| ≤ ε) →
      (∀ U, (∀ k, k < M.grid.nc → s.getD k 0 ≤ U) → InjectsBelow M U → ∀ k, k < M.grid.nc → v.getD k 0 ≤ U + (ε / p + M.tol)) ∧
      (∀ L, (∀ k, k < M.grid.nc → L ≤ s.getD k 0) → InjectsAbove M L → ∀ k, k < M.grid.nc → L - (ε / p + M.tol) ≤ v.getD k 0) := by
  obtain ⟨v, flag, hstep, hv, hbal⟩ := C150_balance (lin := lin) (dt := dt) hM hs hlin hm hr h0 hbig mem
  refine ⟨v, flag, hstep, hv, fun ε hε hfl => ?_⟩
  obtain ⟨⟨w, hw, hb⟩, -⟩ := hbal ε hfl
  exact ⟨fun U hU hi => upper hM hF hI hdt hv hw hp hpv hε hU hi hb, fun L hL hi => lower hM hF hI hdt hv hw hp hpv hε hL hi hb⟩

/-- **C151** Nor does a successful transport solve, up to the errors of its substeps, if convergence is judged by the absolute tolerance only. -/
theorem C151_transport (hM : Sound M) (hF : OneFluid M) (hI : Incompressible M) (hs : Within M s) (hlin : ∀ A b g, (lin A b g).length = g.length) (hm : 1 ≤ c.maxIt)
    (hr : c.rtol ≤ 0) (hd : c.dxtol ≤ 0) (ha : 0 ≤ c.atol) (h0 : 0 ≤ big) {time : K} (htime : 0 ≤ time)
    (hbig : ∀ (j : Nat) v w, Within M v → Flows M (time / 2 ^ j) v w → ∀ k, k < M.grid.nc → |imbalance M (time / 2 ^ j) 0 v w k| ≤ big) (mem : NewtonVec.Mem K) (maxRepeats : Nat)
    {p : K} (hp : 0 < p) (hpv : ∀ k, k < M.grid.nc → p ≤ M.porevol k) {L U : K} (hL : InjectsAbove M L) (hU : InjectsBelow M U)
    (hLU : ∀ k, k < M.grid.nc → L ≤ s.getD k 0 ∧ s.getD k 0 ≤ U) (hok : (transport M lin big c mem maxRepeats time s).ok = true) :
    ∀ k, k < M.grid.nc →
      L - (transport M lin big c mem maxRepeats time s).steps * (c.atol / p + M.tol) ≤ (transport M lin big c mem maxRepeats time s).sat.getD k 0 ∧
      (transport M lin big c mem maxRepeats time s).sat.getD k 0 ≤ U + (transport M lin big c mem maxRepeats time s).steps * (c.atol / p + M.tol) := by
  obtain ⟨-, -, h3, -, h5, -⟩ := ImplicitDriver.C55_retries (stepOk M lin big c mem) maxRepeats time s
  have h := h5 hok
  change ImplicitDriver.Spec.AllConverge (stepOk M lin big c mem) (time / ((transport M lin big c mem maxRepeats time s).steps : Nat))
    (transport M lin big c mem maxRepeats time s).steps s (transport M lin big c mem maxRepeats time s).sat at h
  change (transport M lin big c mem maxRepeats time s).steps = _ at h3
  obtain ⟨j, hj⟩ : ∃ j : Nat, (transport M lin big c mem maxRepeats time s).steps = 2 ^ j := ⟨_, h3⟩
  rw [hj, show time / ((2 ^ j : Nat) : K) = time / 2 ^ j by push_cast; rfl] at h
  rw [hj]
  generalize (transport M lin big c mem maxRepeats time s).sat = u at h
  generalize (2 ^ j : Nat) = n at h ⊢
  clear hok h3 h5 hj
  have hδ : 0 ≤ c.atol / p + M.tol := add_nonneg (div_nonneg ha hp.le) hM.tol
  induction h generalizing L U with
  | nil => simpa using hLU
  | @cons n s s1 s2 e _ ih =>
    obtain ⟨v, flag, hstep, hv, hbal⟩ := C151_step (lin := lin) (dt := time / 2 ^ j) hM hF hI hs (div_nonneg htime (pow_nonneg zero_le_two j)) hlin hm (hr.trans zero_le_one) h0
      (fun w hw => hbig j s w hs hw) mem hp hpv
    obtain ⟨v', flag', hstep', -, hfl⟩ := step_some (lin := lin) (big := big) (dt := time / 2 ^ j) hM hs.length hlin hm mem
    have he : (v', flag') = (v, flag) := Option.some.inj (hstep'.symm.trans hstep)
    obtain ⟨rfl, rfl⟩ := Prod.mk.inj he
    unfold stepOk at e
    rw [hstep] at e
    obtain ⟨rfl, h2⟩ := Prod.mk.inj e
    have hf : 0 ≤ flag' := by simpa using h2
    obtain ⟨hu, hl⟩ := hbal c.atol ha (Or.inl ⟨hfl hf hr hd, rfl⟩)
    intro k hk
    obtain ⟨i1, i2⟩ := ih hv (L := L - (c.atol / p + M.tol)) (U := U + (c.atol / p + M.tol))
      (fun q hq hpos x x1 x2 x3 => hL q hq hpos x x1 x2 (by linarith)) (fun q hq hpos x x1 x2 x3 => hU q hq hpos x x1 x2 (by linarith))
      (fun k hk => ⟨hl L (fun k hk => (hLU k hk).1) hL k hk, hu U (fun k hk => (hLU k hk).2) hU k hk⟩) k hk
    push_cast
    constructor <;> linarith

/-- **C151** With one fluid in the reservoir the requirement on capillary forces over faces without total flux holds by itself. -/
theorem C151_still (hlim : ∀ c s, M.smin c ≤ s → s ≤ M.smax c → 0 < (M.mob c s).1 + (M.mob c s).2) (hnn : ∀ c s, M.smin c ≤ s → s ≤ M.smax c → 0 ≤ (M.mob c s).1)
    (hF : OneFluid M) {f a b : Nat} (hi : Interior M.grid f a b) (sa sb : K) (ha1 : M.smin a ≤ sa) (ha2 : sa ≤ M.smax a) (hb1 : M.smin b ≤ sb) (hb2 : sb ≤ M.smax b)
    (h1 : (M.mob a sa).2 = 0) (h2 : (M.mob b sb).1 = 0) : 0 ≤ M.trans f * (M.pc b sb - M.pc a sa) := by
  refine mul_nonneg (hF.trans f) ?_
  obtain ⟨-, ha, hb, -⟩ := hi
  obtain ⟨l1, l2⟩ := hF.limits a b ha hb
  rw [hF.pc b a hb ha]
  rw [hF.mob b a hb ha] at h2
  rcases le_total sb sa with h | h
  · have := (hF.more a sb sa ha (by rw [l1]; exact hb1) h ha2).2.2
    linarith
  · have h3 := (hF.more a sa sb ha ha1 h (by rw [l2]; exact hb2)).1
    have h4 := hlim a sa ha1 ha2
    have h5 := hnn a sa ha1 ha2
    linarith

/-- The hypotheses of `C151_step` hold of a step that injects water of the fraction 1/4 into a reservoir without water: the step never gets above 1/4. -/
example : Sound exMedium ∧ OneFluid exMedium ∧ Incompressible exMedium ∧ InjectsBelow exMedium (1 / 4) ∧ InjectsAbove exMedium 0 ∧
    step exMedium exLower (10 ^ 99) exCtrl exMem 1 [0, 0, 0] = some ([1 / 8, 1 / 16, 1 / 32], 1) := by
  refine ⟨exMedium_sound, ⟨fun _ _ _ _ => rfl, fun _ _ _ _ => rfl, fun _ _ _ _ => ⟨rfl, rfl⟩, fun c a b _ _ h _ => ⟨h, ?_, le_refl _⟩, fun f => (by decide : (0 : ℚ) ≤ 1)⟩, fun c hc => ?_,
    fun q hq h x _ _ hx => ?_, fun q hq h x h0 _ hx => ?_, by decide +kernel⟩
  · change 1 - b ≤ 1 - a; linarith
  · have : c = 0 ∨ c = 1 ∨ c = 2 := by have : c < 3 := hc; omega
    rcases this with rfl | rfl | rfl <;> decide +kernel
  · simp only [exMedium, List.mem_cons, List.not_mem_nil, or_false] at hq
    rcases hq with rfl | rfl
    · change 1 / 4 ≤ x / (x + (1 - x))
      rw [add_sub_cancel, div_one]; exact hx
    · exact absurd h (by decide)
  · have h0 : 0 ≤ x := h0
    simp only [exMedium, List.mem_cons, List.not_mem_nil, or_false] at hq
    rcases hq with rfl | rfl
    · change x / (x + (1 - x)) ≤ 1 / 4
      rw [add_sub_cancel, div_one]; linarith
    · exact absurd h (by decide)

/-- And those of `C151_transport` hold of a flow around a ring. -/
example : Sound exRing ∧ OneFluid exRing ∧ Incompressible exRing ∧ Within exRing [3 / 4, 1 / 4, 1 / 4] ∧ InjectsBelow exRing (3 / 4) ∧ InjectsAbove exRing (1 / 4) ∧
    (∀ (j : Nat) v w, Within exRing v → Flows exRing (1 / 2 ^ j) v w → ∀ k, k < 3 → |imbalance exRing (1 / 2 ^ j) 0 v w k| ≤ 10 ^ 99) ∧
    (transport exRing exCramer (10 ^ 99) exCtrl exMem 10 1 [3 / 4, 1 / 4, 1 / 4]).ok = true ∧
    (transport exRing exCramer (10 ^ 99) exCtrl exMem 10 1 [3 / 4, 1 / 4, 1 / 4]).sat = [15 / 28, 11 / 28, 9 / 28] := by
  refine ⟨exRing_sound, ⟨fun _ _ _ _ => rfl, fun _ _ _ _ => rfl, fun _ _ _ _ => ⟨rfl, rfl⟩, fun c a b _ _ h _ => ⟨h, ?_, le_refl _⟩, fun f => (by decide : (0 : ℚ) ≤ 1)⟩, fun c hc => ?_,
    ⟨rfl, fun c hc => ?_⟩, fun q hq => ?_, fun q hq => ?_, exRing_big, by decide +kernel, by decide +kernel⟩
  · change 1 - b ≤ 1 - a; linarith
  · have : c = 0 ∨ c = 1 ∨ c = 2 := by have : c < 3 := hc; omega
    rcases this with rfl | rfl | rfl <;> decide +kernel
  · have : c = 0 ∨ c = 1 ∨ c = 2 := by have : c < 3 := hc; omega
    rcases this with rfl | rfl | rfl <;> decide +kernel
  · simp [exRing] at hq
  · simp [exRing] at hq

/-- **C151** The requirement of one fluid is needed: with different capillary pressures in the two cells a step that reports success takes the same saturation in both cells apart, far beyond the
tolerances. -/
theorem C151_two_rocks : Sound (exPeriodic 4 4) ∧ Incompressible (exPeriodic 4 4) ∧ Within (exPeriodic 4 4) [1 / 2, 1 / 2] ∧
    (transport (exPeriodic 4 4) exCramer2 (10 ^ 99) exCtrl exMem 10 1 [1 / 2, 1 / 2]).ok = true ∧
    (transport (exPeriodic 4 4) exCramer2 (10 ^ 99) exCtrl exMem 10 1 [1 / 2, 1 / 2]).steps = 1 ∧
    1 / 2 + 1000 * (exCtrl.atol / 10 + (exPeriodic 4 4).tol) < (transport (exPeriodic 4 4) exCramer2 (10 ^ 99) exCtrl exMem 10 1 [1 / 2, 1 / 2]).sat.getD 1 0 := by
  refine ⟨exPeriodic_sound 4 4, fun c hc => ?_, ⟨rfl, fun c hc => ?_⟩, by decide +kernel, by decide +kernel, by decide +kernel⟩
  · have : c = 0 ∨ c = 1 := by have : c < 2 := hc; omega
    rcases this with rfl | rfl <;> decide +kernel
  · have : c = 0 ∨ c = 1 := by have : c < 2 := hc; omega
    rcases this with rfl | rfl <;> decide +kernel

end Verif.ImplicitStep
