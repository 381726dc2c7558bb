import Verif.Spec.RelPerm
import Verif.Lemmas.DenseProd
import Verif.Props.RelPermInput
import Verif.Props.Control
import Mathlib.Algebra.Order.Field.Basic
import Mathlib.Algebra.BigOperators.Group.List.Basic
import Mathlib.Algebra.BigOperators.Ring.List
import Mathlib.Algebra.Order.BigOperators.Group.List
import Mathlib.Algebra.Field.Rat
import Mathlib.Algebra.Order.Ring.Unbundled.Rat
import Mathlib.Tactic.NormNum
import Mathlib.Tactic.Linarith
import Mathlib.Tactic.FieldSimp

/-!
C33, C66-C68: permeability limits, the pressure range, the gravity head and the upscaled saturation of the relperm upscaler.
-/

namespace Verif.RelPerm

open Verif.Upscale

variable {K : Type} [Field K] [LinearOrder K]

/-! ### cell saturations and pore volumes -/

theorem quot_div {a b m : K} (h : quot a b = some m) : b ≠ 0 ∧ m = a / b := by
  unfold quot at h
  by_cases hb : b = 0
  · rw [if_pos hb] at h; exact absurd h (by simp)
  · rw [if_neg hb] at h; exact ⟨hb, (Option.some.inj h).symm⟩

omit [LinearOrder K] in
theorem cellPc_spec (S : Sys K) (p : K) (c : Nat) (pc : K) (h : S.cellPc p c = some pc) :
    ∃ hd, Spec.Head S c hd ∧ pc = p - hd := by
  unfold Sys.cellPc at h
  by_cases he : S.dP.isEmpty = true
  · rw [if_pos he] at h
    exact ⟨0, Or.inl ⟨List.isEmpty_iff.mp he, rfl⟩, by rw [← Option.some.inj h, sub_zero]⟩
  · rw [if_neg he, Option.map_eq_some_iff] at h
    obtain ⟨d, hd, e⟩ := h
    exact ⟨d, Or.inr ⟨fun hh => he (List.isEmpty_iff.mpr hh), hd⟩, e.symm⟩

omit [LinearOrder K] in
theorem cellPc_of_head (S : Sys K) (p : K) (c : Nat) (hd : K) (h : Spec.Head S c hd) : S.cellPc p c = some (p - hd) := by
  unfold Sys.cellPc
  rcases h with ⟨h, rfl⟩ | ⟨h1, h2⟩
  · rw [if_pos (List.isEmpty_iff.mpr h), sub_zero]
  · rw [if_neg (fun hh => h1 (List.isEmpty_iff.mp hh)), h2]; rfl

omit [LinearOrder K] in
theorem cellSw_spec (S : Sys K) (p : K) (c : Nat) (s : K) (h : S.cellSw p c = some s) (hr : 0 < S.satnum c) :
    Spec.CellSat S p c s := by
  unfold Sys.cellSw at h
  rw [if_pos hr, Option.map_eq_some_iff] at h
  obtain ⟨pc, hpc, e⟩ := h
  obtain ⟨hd, h1, h2⟩ := cellPc_spec S p c pc hpc
  exact ⟨hd, h1, by rw [← e, h2]; rfl⟩

omit [LinearOrder K] in
theorem cellSw_of_sat (S : Sys K) (p : K) (c : Nat) (s : K) (h : Spec.CellSat S p c s) (hr : 0 < S.satnum c) :
    S.cellSw p c = some s := by
  obtain ⟨hd, h1, h2⟩ := h
  unfold Sys.cellSw
  rw [if_pos hr, cellPc_of_head S p c hd h1, h2]
  rfl

omit [LinearOrder K] in
theorem porev_eq (S : Sys K) (c : Nat) : S.porev c = Spec.pv S c := rfl

omit [LinearOrder K] in
theorem foldl_add_sum (f : Nat → K) (l : List Nat) (a : K) : l.foldl (fun a c => a + f c) a = a + (l.map f).sum := by
  induction l generalizing a with
  | nil => simp
  | cons x l ih => rw [List.foldl_cons, ih, List.map_cons, List.sum_cons, add_assoc]

omit [LinearOrder K] in
theorem totalPorev_eq (S : Sys K) : S.totalPorev = (S.globalCell.map (Spec.pv S)).sum := by
  unfold Sys.totalPorev
  rw [foldl_add_sum (fun c => S.porev c), zero_add]
  rfl

omit [LinearOrder K] in
theorem waterFold_none (S : Sys K) (p : K) (l : List Nat) : l.foldl (waterStep S p) none = none := by
  induction l with
  | nil => rfl
  | cons c l ih => rw [List.foldl_cons]; exact ih

omit [LinearOrder K] in
theorem waterFold (S : Sys K) (p : K) (l : List Nat) (a w : K) (h : l.foldl (waterStep S p) (some a) = some w) :
    (∀ c ∈ l, S.cellSw p c = some ((S.cellSw p c).getD 0)) ∧
    w = a + (l.map fun c => (S.cellSw p c).getD 0 * Spec.pv S c).sum := by
  induction l generalizing a with
  | nil =>
    simp only [List.foldl_nil, Option.some.injEq] at h
    exact ⟨by simp, by simp [h]⟩
  | cons c l ih =>
    rw [List.foldl_cons] at h
    cases hs : S.cellSw p c with
    | none =>
      have : waterStep S p (some a) c = none := by unfold waterStep; rw [hs]
      rw [this, waterFold_none] at h
      exact absurd h (by simp)
    | some s =>
      have : waterStep S p (some a) c = some (a + s * S.porev c) := by unfold waterStep; rw [hs]
      rw [this] at h
      obtain ⟨h1, h2⟩ := ih _ h
      refine ⟨?_, ?_⟩
      · intro d hd
        rcases List.mem_cons.mp hd with rfl | hd
        · rw [hs]; rfl
        · exact h1 d hd
      · rw [h2, List.map_cons, List.sum_cons, hs, porev_eq]
        simp only [Option.getD_some]
        ring

omit [LinearOrder K] in
theorem waterFold_some (S : Sys K) (p : K) (s : Nat → K) (l : List Nat) (a : K)
    (h : ∀ c ∈ l, S.cellSw p c = some (s c)) :
    l.foldl (waterStep S p) (some a) = some (a + (l.map fun c => s c * Spec.pv S c).sum) := by
  induction l generalizing a with
  | nil => simp
  | cons c l ih =>
    have e : waterStep S p (some a) c = some (a + s c * S.porev c) := by
      unfold waterStep; rw [h c (List.mem_cons_self ..)]
    rw [List.foldl_cons, e, ih _ (fun d hd => h d (List.mem_cons_of_mem _ hd)), List.map_cons, List.sum_cons, porev_eq,
      add_assoc]

/-- **C68.** The upscaled saturation at a pressure is the pore-volume weighted mean of the cells' saturations at that
pressure. -/
theorem C68_mean (S : Sys K) (p w : K) (h : upscaledSw S p = some w) : Spec.MeanSat S p w := by
  unfold upscaledSw at h
  split at h
  · rename_i v hv
    obtain ⟨h1, h2⟩ := waterFold S p _ _ _ hv
    obtain ⟨h3, h4⟩ := quot_div h
    refine ⟨fun c => (S.cellSw p c).getD 0, fun c hc hr => cellSw_spec S p c _ (h1 c hc) hr, ?_, ?_⟩
    · rw [← totalPorev_eq]; exact h3
    · rw [← totalPorev_eq, h4, h2, zero_add]
      field_simp
  · exact absurd h (by simp)

/-- **C68.** The mean is computed whenever every cell with rock has a head and the pore volume is not 0. -/
theorem C68_defined (S : Sys K) (p : K) (hh : ∀ c ∈ S.globalCell, 0 < S.satnum c → ∃ h, Spec.Head S c h)
    (hv : (S.globalCell.map (Spec.pv S)).sum ≠ 0) : ∃ w, upscaledSw S p = some w := by
  have hs : ∀ c ∈ S.globalCell, ∃ s, S.cellSw p c = some s := by
    intro c hc
    by_cases hr : 0 < S.satnum c
    · obtain ⟨h, e⟩ := hh c hc hr
      exact ⟨_, cellSw_of_sat S p c _ ⟨h, e, rfl⟩ hr⟩
    · exact ⟨0, by unfold Sys.cellSw; rw [if_neg hr]⟩
  have := waterFold_some S p (fun c => (S.cellSw p c).getD 0) S.globalCell 0 (by
    intro c hc
    obtain ⟨s, e⟩ := hs c hc
    rw [e]; rfl)
  unfold upscaledSw
  rw [this]
  rw [← totalPorev_eq] at hv
  exact ⟨_, by simp only [quot]; rw [if_neg hv]⟩

section ordered
variable [IsStrictOrderedRing K]

omit [IsStrictOrderedRing K] in
theorem pv_pos_rock (S : Sys K) (c : Nat) (h : ¬ 0 < S.satnum c) : Spec.pv S c = 0 := by
  unfold Spec.pv; rw [if_neg h]

theorem sum_le_sum' (l : List Nat) (f g : Nat → K) (h : ∀ c ∈ l, f c ≤ g c) : (l.map f).sum ≤ (l.map g).sum := by
  induction l with
  | nil => simp
  | cons c l ih =>
    simp only [List.map_cons, List.sum_cons]
    exact add_le_add (h c (List.mem_cons_self ..)) (ih fun d hd => h d (List.mem_cons_of_mem _ hd))

theorem sum_nonneg' (l : List Nat) (f : Nat → K) (h : ∀ c ∈ l, 0 ≤ f c) : 0 ≤ (l.map f).sum := by
  induction l with
  | nil => simp
  | cons c l ih =>
    simp only [List.map_cons, List.sum_cons]
    exact add_nonneg (h c (List.mem_cons_self ..)) (ih fun d hd => h d (List.mem_cons_of_mem _ hd))

/-- **C68.** With non-negative pore volumes the upscaled saturation lies between any bounds of the rock curves' values. -/
theorem C68_bounds (S : Sys K) (p w a b : K) (h : upscaledSw S p = some w) (hpv : ∀ c ∈ S.globalCell, 0 ≤ Spec.pv S c)
    (hb : ∀ c ∈ S.globalCell, 0 < S.satnum c → ∀ x, a ≤ (Spec.curve S c).eval x ∧ (Spec.curve S c).eval x ≤ b) :
    a ≤ w ∧ w ≤ b := by
  obtain ⟨s, h1, h2, h3⟩ := C68_mean S p w h
  have hpos : 0 < (S.globalCell.map (Spec.pv S)).sum := lt_of_le_of_ne (sum_nonneg' _ _ hpv) (Ne.symm h2)
  have hs : ∀ c ∈ S.globalCell, a * Spec.pv S c ≤ s c * Spec.pv S c ∧ s c * Spec.pv S c ≤ b * Spec.pv S c := by
    intro c hc
    by_cases hr : 0 < S.satnum c
    · obtain ⟨hd, _, e⟩ := h1 c hc hr
      rw [e]
      exact ⟨mul_le_mul_of_nonneg_right (hb c hc hr _).1 (hpv c hc), mul_le_mul_of_nonneg_right (hb c hc hr _).2 (hpv c hc)⟩
    · rw [pv_pos_rock S c hr]; simp
  have l1 := sum_le_sum' S.globalCell (fun c => a * Spec.pv S c) (fun c => s c * Spec.pv S c) fun c hc => (hs c hc).1
  have l2 := sum_le_sum' S.globalCell (fun c => s c * Spec.pv S c) (fun c => b * Spec.pv S c) fun c hc => (hs c hc).2
  rw [List.sum_map_mul_left] at l1 l2
  rw [← h3] at l1 l2
  exact ⟨le_of_mul_le_mul_right l1 hpos, le_of_mul_le_mul_right l2 hpos⟩

/-- **C68.** If every rock curve falls with pressure (and scaling factors and pore volumes are not negative), so does the
upscaled saturation. -/
theorem C68_antitone (S : Sys K) (p q w v : K) (hpq : p ≤ q) (hp : upscaledSw S p = some w) (hq : upscaledSw S q = some v)
    (hpv : ∀ c ∈ S.globalCell, 0 ≤ Spec.pv S c)
    (hsc : ∀ c ∈ S.globalCell, 0 < S.satnum c → 0 ≤ Spec.scale S c)
    (hmono : ∀ c ∈ S.globalCell, 0 < S.satnum c → ∀ x y, x ≤ y → (Spec.curve S c).eval y ≤ (Spec.curve S c).eval x) :
    v ≤ w := by
  obtain ⟨s, h1, h2, h3⟩ := C68_mean S p w hp
  obtain ⟨t, g1, g2, g3⟩ := C68_mean S q v hq
  have hpos : 0 < (S.globalCell.map (Spec.pv S)).sum := lt_of_le_of_ne (sum_nonneg' _ _ hpv) (Ne.symm h2)
  have hst : ∀ c ∈ S.globalCell, t c * Spec.pv S c ≤ s c * Spec.pv S c := by
    intro c hc
    by_cases hr : 0 < S.satnum c
    · obtain ⟨hd, e1, e2⟩ := h1 c hc hr
      obtain ⟨hd', e3, e4⟩ := g1 c hc hr
      have : hd = hd' := by
        rcases e1 with ⟨a, b⟩ | ⟨a, b⟩ <;> rcases e3 with ⟨a', b'⟩ | ⟨a', b'⟩
        · rw [b, b']
        · exact absurd a a'
        · exact absurd a' a
        · rw [b] at b'; exact Option.some.inj b'
      subst this
      rw [e2, e4]
      refine mul_le_mul_of_nonneg_right (hmono c hc hr _ _ ?_) (hpv c hc)
      exact mul_le_mul_of_nonneg_left (sub_le_sub_right hpq _) (hsc c hc hr)
    · rw [pv_pos_rock S c hr]; simp
  have l := sum_le_sum' S.globalCell _ _ hst
  rw [← h3, ← g3] at l
  exact le_of_mul_le_mul_right l hpos

end ordered

/-- **C68.** The pressure points: as many as asked for, the first the largest and the last the smallest pressure, the
others the pressures at equidistant saturations between the end points. -/
theorem C68_pressurePoints (inv : K → K) (R : Range K) (points : Nat) (h : 2 ≤ points) :
    ∃ l, pressurePoints inv R points = some l ∧ l.length = points ∧ l.head? = some R.pcmax ∧ l.getLast? = some R.pcmin ∧
      ∀ q, 0 < q → q + 1 < points → l[q]? = some (inv (R.swir + (R.swor - R.swir) / ((points : K) - 1) * (q : K))) := by
  unfold pressurePoints
  rw [if_neg (by omega)]
  refine ⟨_, rfl, by simp, ?_, ?_, ?_⟩
  · rw [List.head?_eq_getElem?, List.getElem?_set_ne (by omega), List.getElem?_set_self (by simp; omega)]
  · rw [List.getLast?_eq_getElem?]
    simp only [List.length_set, List.length_map, List.length_range]
    rw [List.getElem?_set_self (by simp; omega)]
  · intro q h1 h2
    rw [List.getElem?_set_ne (by omega), List.getElem?_set_ne (by omega), List.getElem?_map,
      List.getElem?_range (by omega)]
    rfl

/-! ### C66 -/

omit [Field K] in
theorem optMin_fold (l : List K) (a : Option K) (m : K) (h : l.foldl optMin a = some m) :
    (∀ x ∈ l, m ≤ x) ∧ (∀ y, a = some y → m ≤ y) ∧ (m ∈ l ∨ a = some m) := by
  induction l generalizing a with
  | nil => exact ⟨by simp, fun y hy => by rw [List.foldl_nil] at h; rw [h] at hy; exact (Option.some.inj hy).le, Or.inr h⟩
  | cons x l ih =>
    obtain ⟨h1, h2, h3⟩ := ih (optMin a x) h
    cases a with
    | none =>
      have := h2 x rfl
      refine ⟨fun y hy => ?_, by simp, ?_⟩
      · rcases List.mem_cons.mp hy with rfl | hy
        · exact this
        · exact h1 y hy
      · rcases h3 with h3 | h3
        · exact Or.inl (List.mem_cons_of_mem _ h3)
        · exact Or.inl (by rw [Option.some.inj h3]; exact List.mem_cons_self ..)
    | some b =>
      have := h2 (min x b) rfl
      refine ⟨fun y hy => ?_, fun y hy => ?_, ?_⟩
      · rcases List.mem_cons.mp hy with rfl | hy
        · exact le_trans this (min_le_left _ _)
        · exact h1 y hy
      · rw [← Option.some.inj hy]; exact le_trans this (min_le_right _ _)
      · rcases h3 with h3 | h3
        · exact Or.inl (List.mem_cons_of_mem _ h3)
        · have e : min x b = m := Option.some.inj h3
          rcases min_choice x b with e' | e'
          · left; rw [← e, e']; exact List.mem_cons_self ..
          · right; rw [← e, e']

omit [Field K] in
theorem optMax_fold (l : List K) (a : Option K) (m : K) (h : l.foldl optMax a = some m) :
    (∀ x ∈ l, x ≤ m) ∧ (∀ y, a = some y → y ≤ m) ∧ (m ∈ l ∨ a = some m) := by
  induction l generalizing a with
  | nil => exact ⟨by simp, fun y hy => by rw [List.foldl_nil] at h; rw [h] at hy; exact (Option.some.inj hy).ge, Or.inr h⟩
  | cons x l ih =>
    obtain ⟨h1, h2, h3⟩ := ih (optMax a x) h
    cases a with
    | none =>
      have := h2 x rfl
      refine ⟨fun y hy => ?_, by simp, ?_⟩
      · rcases List.mem_cons.mp hy with rfl | hy
        · exact this
        · exact h1 y hy
      · rcases h3 with h3 | h3
        · exact Or.inl (List.mem_cons_of_mem _ h3)
        · exact Or.inl (by rw [Option.some.inj h3]; exact List.mem_cons_self ..)
    | some b =>
      have := h2 (max x b) rfl
      refine ⟨fun y hy => ?_, fun y hy => ?_, ?_⟩
      · rcases List.mem_cons.mp hy with rfl | hy
        · exact le_trans (le_max_left _ _) this
        · exact h1 y hy
      · rw [← Option.some.inj hy]; exact le_trans (le_max_right _ _) this
      · rcases h3 with h3 | h3
        · exact Or.inl (List.mem_cons_of_mem _ h3)
        · have e : max x b = m := Option.some.inj h3
          rcases max_choice x b with e' | e'
          · left; rw [← e, e']; exact List.mem_cons_self ..
          · right; rw [← e, e']

theorem mmFold_none (S : Sys K) (l : List Nat) : l.foldl (mmStep S) none = none := by
  induction l with
  | nil => rfl
  | cons c l ih => rw [List.foldl_cons]; exact ih

/-- The pressures and saturations collected by the loop. -/
theorem mmFold (S : Sys K) (l : List Nat) (m0 m : MM K) (h : l.foldl (mmStep S) (some m0) = some m) :
    ∃ lo hi f0 f1 : Nat → K,
      (∀ c ∈ l, 0 < S.satnum c → Spec.CellRange S c (lo c) (hi c) ∧ (Spec.curve S c).minF = some (f0 c) ∧
        (Spec.curve S c).maxF = some (f1 c)) ∧
      ((l.filter fun c => 0 < S.satnum c).map lo).foldl optMin m0.pcmin = m.pcmin ∧
      ((l.filter fun c => 0 < S.satnum c).map hi).foldl optMax m0.pcmax = m.pcmax ∧
      m.swir = m0.swir + (l.map fun c => f0 c * Spec.pv S c).sum ∧
      m.swor = m0.swor + (l.map fun c => f1 c * Spec.pv S c).sum := by
  -- the values are functions of the cell
  have hex : ∃ lo hi f0 f1 : Nat → K, ∀ c, 
      (∀ l0 h0 a b, mmStep S (some ⟨none, none, 0, 0⟩) c = some ⟨some l0, some h0, a, b⟩ → lo c = l0 ∧ hi c = h0) ∧
      (∀ a, (Spec.curve S c).minF = some a → f0 c = a) ∧ (∀ a, (Spec.curve S c).maxF = some a → f1 c = a) := by
    refine ⟨fun c => match mmStep S (some ⟨none, none, 0, 0⟩) c with
        | some ⟨some l0, _, _, _⟩ => l0
        | _ => 0,
      fun c => match mmStep S (some ⟨none, none, 0, 0⟩) c with
        | some ⟨_, some h0, _, _⟩ => h0
        | _ => 0,
      fun c => (Spec.curve S c).minF.getD 0, fun c => (Spec.curve S c).maxF.getD 0, ?_⟩
    intro c
    refine ⟨fun l0 h0 a b e => ?_, fun a e => by simp [e], fun a e => by simp [e]⟩
    simp [e]
  obtain ⟨lo, hi, f0, f1, hf⟩ := hex
  refine ⟨lo, hi, f0, f1, ?_⟩
  induction l generalizing m0 with
  | nil =>
    simp only [List.foldl_nil, Option.some.injEq] at h
    subst h
    simp
  | cons c l ih =>
    rw [List.foldl_cons] at h
    cases hs : mmStep S (some m0) c with
    | none => rw [hs, mmFold_none] at h; exact absurd h (by simp)
    | some m1 =>
      rw [hs] at h
      obtain ⟨g1, g2, g3, g4, g5⟩ := ih m1 h
      by_cases hr : 0 < S.satnum c
      · have hs' := hs
        unfold mmStep at hs
        simp only [gt_iff_lt, if_pos hr] at hs
        split at hs
        rotate_left
        · exact absurd hs (by simp)
        rename_i x0 x1 a b e1 e2 e3 e4
        split at hs
        rotate_left
        · exact absurd hs (by simp)
        rename_i l0 h0 q1 q2
        have em := Option.some.inj hs
        obtain ⟨k1, k2, k3⟩ := hf c
        obtain ⟨kl, kh⟩ := k1 l0 h0 (0 + a * S.porev c) (0 + b * S.porev c) (by
          unfold mmStep
          simp only [gt_iff_lt, if_pos hr, e1, e2, e3, e4, q1, q2]
          rfl)
        have ka := k2 a e3
        have kb := k3 b e4
        unfold Curve.minX at e1
        unfold Curve.maxX at e2
        rw [Option.map_eq_some_iff] at e1 e2
        obtain ⟨first, e1, e1'⟩ := e1
        obtain ⟨last, e2, e2'⟩ := e2
        obtain ⟨n1, n2⟩ := quot_div q1
        obtain ⟨_, n3⟩ := quot_div q2
        refine ⟨?_, ?_, ?_, ?_, ?_⟩
        · intro d hd hrd
          rcases List.mem_cons.mp hd with rfl | hd
          · refine ⟨⟨first, last, e1, e2, n1, ?_, ?_⟩, by rw [ka]; exact e3, by rw [kb]; exact e4⟩
            · rw [kl, e1', n2]; exact mul_div_cancel₀ _ n1
            · rw [kh, e2', n3]; exact mul_div_cancel₀ _ n1
          · exact g1 d hd hrd
        · rw [List.filter_cons_of_pos (by simpa using hr), List.map_cons, List.foldl_cons, kl, ← g2, ← em]
        · rw [List.filter_cons_of_pos (by simpa using hr), List.map_cons, List.foldl_cons, kh, ← g3, ← em]
        · rw [g4, ← em, List.map_cons, List.sum_cons, ka, porev_eq]; ring
        · rw [g5, ← em, List.map_cons, List.sum_cons, kb, porev_eq]; ring
      · unfold mmStep at hs
        simp only [gt_iff_lt, if_neg hr] at hs
        have em := Option.some.inj hs
        refine ⟨?_, ?_, ?_, ?_, ?_⟩
        · intro d hd hrd
          rcases List.mem_cons.mp hd with rfl | hd
          · exact absurd hrd hr
          · exact g1 d hd hrd
        · rw [List.filter_cons_of_neg (by simpa using hr), ← g2, ← em]
        · rw [List.filter_cons_of_neg (by simpa using hr), ← g3, ← em]
        · rw [g4, ← em, List.map_cons, List.sum_cons, pv_pos_rock S c hr]; ring
        · rw [g5, ← em, List.map_cons, List.sum_cons, pv_pos_rock S c hr]; ring

/-- The heads of the system are balanced: none, or gravity is on and the largest head is minus the smallest. -/
def Balanced (S : Sys K) (gravity : K) : Prop :=
  (gravity = 0 ∧ S.dP = []) ∨ (gravity ≠ 0 ∧ ∃ m, m ∈ S.dP ∧ -m ∈ S.dP ∧ ∀ d ∈ S.dP, -m ≤ d ∧ d ≤ m)

theorem CellRange.unique {S : Sys K} {c : Nat} {lo hi lo' hi' : K} (h : Spec.CellRange S c lo hi)
    (h' : Spec.CellRange S c lo' hi') : lo = lo' ∧ hi = hi' := by
  obtain ⟨f, l, a1, a2, a3, a4, a5⟩ := h
  obtain ⟨f', l', b1, b2, _, b4, b5⟩ := h'
  rw [a1] at b1
  rw [a2] at b2
  have e1 := Option.some.inj b1
  have e2 := Option.some.inj b2
  subst e1 e2
  exact ⟨mul_left_cancel₀ a3 (a4.trans b4.symm), mul_left_cancel₀ a3 (a5.trans b5.symm)⟩

section ordered
variable [IsStrictOrderedRing K]

/-- What a successful computation of the range consists of. -/
theorem minMaxPc_inv (S : Sys K) (gravity tol : K) (R : Range K) (h : minMaxPc S gravity tol = some R) :
    ∃ (lo hi swirv sworv l0 h0 : K), S.globalCell.foldl (mmStep S) (some ⟨none, none, 0, 0⟩) =
        some ⟨some lo, some hi, swirv, sworv⟩ ∧
      (if gravity ≠ 0 then ∃ a b, S.dP.foldl optMin none = some a ∧ S.dP.foldl optMax none = some b ∧ l0 = lo - b ∧ h0 = hi - a
        else l0 = lo ∧ h0 = hi) ∧
      S.totalPorev ≠ 0 ∧ R.pcmin = l0 ∧ R.pcmax = h0 ∧ l0 ≤ h0 ∧
      R.swir = snapLo tol (swirv / S.totalPorev) ∧ R.swor = snapHi tol (sworv / S.totalPorev) ∧
      0 ≤ R.swir ∧ R.swir ≤ 1 ∧ 0 ≤ R.swor ∧ R.swor ≤ 1 := by
  unfold minMaxPc at h
  split at h
  rotate_left
  · exact absurd h (by simp)
  rename_i lo hi swirv sworv hfold
  simp only [] at h
  split at h
  rotate_left
  · exact absurd h (by simp)
  rename_i l0 h0 a b hsh hq1 hq2
  by_cases hgt : l0 > h0
  · rw [if_pos hgt] at h; exact absurd h (by simp)
  rw [if_neg hgt] at h
  by_cases hb : snapLo tol a < 0 ∨ snapLo tol a > 1 ∨ snapHi tol b < 0 ∨ snapHi tol b > 1
  · rw [if_pos hb] at h; exact absurd h (by simp)
  rw [if_neg hb] at h
  have e := Option.some.inj h
  obtain ⟨n1, n2⟩ := quot_div hq1
  obtain ⟨_, n3⟩ := quot_div hq2
  simp only [not_or, not_lt, gt_iff_lt] at hb
  refine ⟨lo, hi, swirv, sworv, l0, h0, hfold, ?_, n1, by rw [← e], by rw [← e], not_lt.mp hgt, by rw [← e, ← n2],
    by rw [← e, ← n3], by rw [← e]; exact hb.1, by rw [← e]; exact hb.2.1, by rw [← e]; exact hb.2.2.1,
    by rw [← e]; exact hb.2.2.2⟩
  by_cases hg : gravity ≠ 0
  · rw [if_pos hg] at hsh ⊢
    split at hsh
    · rename_i x y ex ey
      have := Option.some.inj hsh
      rw [Prod.mk.injEq] at this
      exact ⟨x, y, ex, ey, this.1.symm, this.2.symm⟩
    · exact absurd hsh (by simp)
  · rw [if_neg hg] at hsh ⊢
    have := Option.some.inj hsh
    rw [Prod.mk.injEq] at this
    exact ⟨this.1.symm, this.2.symm⟩

theorem mem_rock {S : Sys K} {c : Nat} (hc : c ∈ S.globalCell) (hr : 0 < S.satnum c) :
    c ∈ S.globalCell.filter fun c => 0 < S.satnum c :=
  List.mem_filter.mpr ⟨hc, by simpa using hr⟩

/-- **C66.** Without gravity, or when the heads are balanced, the pressure range covers in every cell with rock the whole
range of that cell's saturation curve. -/
theorem C66_covers_partial (S : Sys K) (gravity tol : K) (R : Range K) (h : minMaxPc S gravity tol = some R)
    (hbal : Balanced S gravity) (c : Nat) (hc : c ∈ S.globalCell) (hr : 0 < S.satnum c) (hd : K) (hh : Spec.Head S c hd) :
    ∃ lo hi, Spec.CellRange S c lo hi ∧ R.pcmin - hd ≤ lo ∧ hi ≤ R.pcmax - hd := by
  obtain ⟨lo, hi, sv, ov, l0, h0, hfold, hsh, _, e1, e2, _⟩ := minMaxPc_inv S gravity tol R h
  obtain ⟨flo, fhi, f0, f1, g1, g2, g3, _⟩ := mmFold S _ _ _ hfold
  obtain ⟨m1, _, _⟩ := optMin_fold _ _ _ g2
  obtain ⟨m2, _, _⟩ := optMax_fold _ _ _ g3
  have b1 := m1 (flo c) (List.mem_map_of_mem (mem_rock hc hr))
  have b2 := m2 (fhi c) (List.mem_map_of_mem (mem_rock hc hr))
  refine ⟨flo c, fhi c, (g1 c hc hr).1, ?_⟩
  rcases hbal with ⟨hg, hdp⟩ | ⟨hg, m, hm1, hm2, hm3⟩
  · rw [if_neg (not_not.mpr hg)] at hsh
    have : hd = 0 := by
      rcases hh with ⟨_, hh⟩ | ⟨hh, _⟩
      · exact hh
      · exact absurd hdp hh
    rw [this, e1, e2, hsh.1, hsh.2, sub_zero, sub_zero]
    exact ⟨b1, b2⟩
  · rw [if_pos hg] at hsh
    obtain ⟨a, b, ha, hb, el, eh⟩ := hsh
    have hmem : hd ∈ S.dP := by
      rcases hh with ⟨hh, _⟩ | ⟨_, hh⟩
      · rw [hh] at hm1; exact absurd hm1 (by simp)
      · exact List.mem_of_getElem? hh
    obtain ⟨k1, _, k2⟩ := optMin_fold _ _ _ ha
    obtain ⟨k3, _, k4⟩ := optMax_fold _ _ _ hb
    have ea : a = -m := by
      refine le_antisymm (k1 _ hm2) ?_
      rcases k2 with k2 | k2
      · exact (hm3 a k2).1
      · exact absurd k2 (by simp)
    have eb : b = m := by
      refine le_antisymm ?_ (k3 _ hm1)
      rcases k4 with k4 | k4
      · exact (hm3 b k4).2
      · exact absurd k4 (by simp)
    obtain ⟨h1, h2⟩ := hm3 hd hmem
    rw [e1, e2, el, eh, ea, eb]
    constructor <;> linarith

/-- **C66.** Without gravity the range is the smallest such: both ends are an end of some cell's range. -/
theorem C66_tight (S : Sys K) (tol : K) (R : Range K) (h : minMaxPc S 0 tol = some R) :
    (∃ c ∈ S.globalCell, 0 < S.satnum c ∧ ∃ hi, Spec.CellRange S c R.pcmin hi) ∧
    ∃ c ∈ S.globalCell, 0 < S.satnum c ∧ ∃ lo, Spec.CellRange S c lo R.pcmax := by
  obtain ⟨lo, hi, sv, ov, l0, h0, hfold, hsh, _, e1, e2, _⟩ := minMaxPc_inv S 0 tol R h
  obtain ⟨flo, fhi, f0, f1, g1, g2, g3, _⟩ := mmFold S _ _ _ hfold
  rw [if_neg (by simp)] at hsh
  obtain ⟨_, _, m1⟩ := optMin_fold _ _ _ g2
  obtain ⟨_, _, m2⟩ := optMax_fold _ _ _ g3
  constructor
  · rcases m1 with m1 | m1
    · obtain ⟨c, hc, ec⟩ := List.mem_map.mp m1
      obtain ⟨hc, hr⟩ := List.mem_filter.mp hc
      have hr : 0 < S.satnum c := by simpa using hr
      exact ⟨c, hc, hr, fhi c, by rw [e1, hsh.1, ← ec]; exact (g1 c hc hr).1⟩
    · exact absurd m1 (by simp)
  · rcases m2 with m2 | m2
    · obtain ⟨c, hc, ec⟩ := List.mem_map.mp m2
      obtain ⟨hc, hr⟩ := List.mem_filter.mp hc
      have hr : 0 < S.satnum c := by simpa using hr
      exact ⟨c, hc, hr, flo c, by rw [e2, hsh.2, ← ec]; exact (g1 c hc hr).1⟩
    · exact absurd m2 (by simp)

theorem falling_min {c : Curve K} (hf : Spec.Falling c) (m : K) (h : c.minF = some m) (last : K × K)
    (hl : c.pts.getLast? = some last) : last.2 = m := by
  obtain ⟨h1, q, hq, e⟩ := minF_spec c m h
  have hl' := hl
  rw [List.getLast?_eq_getElem?] at hl'
  obtain ⟨i, hi⟩ := List.mem_iff_getElem?.mp hq
  have hlen := (List.getElem?_eq_some_iff.mp hi).1
  exact le_antisymm (e ▸ hf.1 i _ q last (by omega) hi hl') (h1 _ (List.mem_of_getElem? hl'))

theorem falling_max {c : Curve K} (hf : Spec.Falling c) (m : K) (h : c.maxF = some m) (first : K × K)
    (hl : c.pts.head? = some first) : first.2 = m := by
  obtain ⟨h1, q, hq, e⟩ := maxF_spec c m h
  have hl' := hl
  rw [List.head?_eq_getElem?] at hl'
  obtain ⟨i, hi⟩ := List.mem_iff_getElem?.mp hq
  exact le_antisymm (h1 _ (List.mem_of_getElem? hl')) (e ▸ hf.1 0 i first q (by omega) hl' hi)

/-- **C66.** Under the same conditions, for falling curves: at the largest pressure the upscaled saturation is the
irreducible one, at the smallest pressure the largest one, as announced (up to the rounding into [0,1]). -/
theorem C66_endpoints_partial (S : Sys K) (gravity tol : K) (R : Range K) (h : minMaxPc S gravity tol = some R)
    (hbal : Balanced S gravity)
    (hh : ∀ c ∈ S.globalCell, 0 < S.satnum c → ∃ hd, Spec.Head S c hd)
    (hsc : ∀ c ∈ S.globalCell, 0 < S.satnum c → 0 < Spec.scale S c)
    (hf : ∀ c ∈ S.globalCell, 0 < S.satnum c → Spec.Falling (Spec.curve S c)) :
    (∃ w, upscaledSw S R.pcmax = some w ∧ (R.swir = w ∨ w < 0 ∧ R.swir = 0)) ∧
    ∃ w, upscaledSw S R.pcmin = some w ∧ (R.swor = w ∨ 1 < w ∧ R.swor = 1) := by
  obtain ⟨lo, hi, sv, ov, l0, h0, hfold, _, hv, _, _, _, e3, e4, _⟩ := minMaxPc_inv S gravity tol R h
  obtain ⟨flo, fhi, f0, f1, g1, _, _, g4, g5⟩ := mmFold S _ _ _ hfold
  simp only [zero_add] at g4 g5
  have key : ∀ (p : K) (f : Nat → K), (∀ c ∈ S.globalCell, 0 < S.satnum c → Spec.CellSat S p c (f c)) →
      upscaledSw S p = some ((S.globalCell.map fun c => f c * Spec.pv S c).sum / S.totalPorev) := by
    intro p f hsat
    have e := waterFold_some S p (fun c => if 0 < S.satnum c then f c else 0) S.globalCell 0 (by
      intro c hc
      by_cases hr : 0 < S.satnum c
      · simp only [if_pos hr]; exact cellSw_of_sat S p c _ (hsat c hc hr) hr
      · simp only [if_neg hr]; unfold Sys.cellSw; rw [if_neg hr])
    have e' : (S.globalCell.map fun c => (if 0 < S.satnum c then f c else 0) * Spec.pv S c) =
        S.globalCell.map fun c => f c * Spec.pv S c := by
      apply List.map_congr_left
      intro c _
      by_cases hr : 0 < S.satnum c
      · rw [if_pos hr]
      · rw [pv_pos_rock S c hr]; simp
    unfold upscaledSw
    rw [e, e', zero_add]
    simp only [quot]
    rw [if_neg hv]
  constructor
  · refine ⟨_, key R.pcmax f0 ?_, ?_⟩
    · intro c hc hr
      obtain ⟨hd, hhd⟩ := hh c hc hr
      obtain ⟨clo, chi, hcr, _, b2⟩ := C66_covers_partial S gravity tol R h hbal c hc hr hd hhd
      obtain ⟨first, last, c1, c2, c3, c4, c5⟩ := hcr
      refine ⟨hd, hhd, ?_⟩
      rw [(hf c hc hr).2.2 last c2 _ (by rw [← c5]; exact mul_le_mul_of_nonneg_left b2 (hsc c hc hr).le)]
      exact (falling_min (hf c hc hr) _ (g1 c hc hr).2.1 last c2).symm
    · rw [e3, g4]
      unfold snapLo
      split
      · rename_i hs; exact Or.inr ⟨hs.1, rfl⟩
      · exact Or.inl rfl
  · refine ⟨_, key R.pcmin f1 ?_, ?_⟩
    · intro c hc hr
      obtain ⟨hd, hhd⟩ := hh c hc hr
      obtain ⟨clo, chi, hcr, b1, _⟩ := C66_covers_partial S gravity tol R h hbal c hc hr hd hhd
      obtain ⟨first, last, c1, c2, c3, c4, c5⟩ := hcr
      refine ⟨hd, hhd, ?_⟩
      rw [(hf c hc hr).2.1 first c1 _ (by rw [← c4]; exact mul_le_mul_of_nonneg_left b1 (hsc c hc hr).le)]
      exact (falling_max (hf c hc hr) _ (g1 c hc hr).2.2 first c1).symm
    · rw [e4, g5]
      unfold snapHi
      split
      · rename_i hs; exact Or.inr ⟨hs.1, rfl⟩
      · exact Or.inl rfl

end ordered

/-! ### C33 -/

/-- The raw values of the rock cells and the maximum over them. -/
theorem maxFold (S : Sys K) (kr : Nat → K → K) (minPerm p : K) (l : List Nat) (m0 m : K)
    (h : l.foldl (maxStep S kr minPerm p) (some m0) = some m) :
    m0 ≤ m ∧ (∀ c ∈ l, 0 < S.satnum c → minPerm ≤ m ∧ ∀ k, phasePerm S kr p c = some k → k ≤ m) ∧
    (m = m0 ∨ m = minPerm ∨ ∃ c ∈ l, 0 < S.satnum c ∧ phasePerm S kr p c = some m) := by
  induction l generalizing m0 with
  | nil =>
    simp only [List.foldl_nil, Option.some.injEq] at h
    subst h
    exact ⟨le_refl _, by simp, Or.inl rfl⟩
  | cons c l ih =>
    rw [List.foldl_cons] at h
    have hn : ∀ l : List Nat, l.foldl (maxStep S kr minPerm p) none = none := by
      intro l
      induction l with
      | nil => rfl
      | cons c l ih => rw [List.foldl_cons]; exact ih
    by_cases hr : 0 < S.satnum c
    · cases hk : phasePerm S kr p c with
      | none =>
        have : maxStep S kr minPerm p (some m0) c = none := by
          unfold maxStep; simp only [gt_iff_lt, if_pos hr, hk, Option.map_none]
        rw [this, hn] at h
        exact absurd h (by simp)
      | some k =>
        have : maxStep S kr minPerm p (some m0) c = some (max (max m0 k) minPerm) := by
          unfold maxStep; simp only [gt_iff_lt, if_pos hr, hk, Option.map_some]
        rw [this] at h
        obtain ⟨h1, h2, h3⟩ := ih _ h
        have a1 : m0 ≤ m := le_trans (le_trans (le_max_left _ _) (le_max_left _ _)) h1
        have a2 : k ≤ m := le_trans (le_trans (le_max_right _ _) (le_max_left _ _)) h1
        have a3 : minPerm ≤ m := le_trans (le_max_right _ _) h1
        refine ⟨a1, ?_, ?_⟩
        · intro d hd hrd
          rcases List.mem_cons.mp hd with rfl | hd
          · exact ⟨a3, fun k' hk' => by rw [hk] at hk'; rw [← Option.some.inj hk']; exact a2⟩
          · exact h2 d hd hrd
        · rcases h3 with h3 | h3 | ⟨d, hd, hrd, e⟩
          · rcases max_choice (max m0 k) minPerm with e | e
            · rcases max_choice m0 k with e' | e'
              · left; rw [h3, e, e']
              · right; right; exact ⟨c, List.mem_cons_self .., hr, by rw [h3, e, e']; exact hk⟩
            · right; left; rw [h3, e]
          · right; left; exact h3
          · right; right; exact ⟨d, List.mem_cons_of_mem _ hd, hrd, e⟩
    · have : maxStep S kr minPerm p (some m0) c = some m0 := by
        unfold maxStep; simp only [gt_iff_lt, if_neg hr]
      rw [this] at h
      obtain ⟨h1, h2, h3⟩ := ih _ h
      refine ⟨h1, ?_, ?_⟩
      · intro d hd hrd
        rcases List.mem_cons.mp hd with rfl | hd
        · exact absurd hrd hr
        · exact h2 d hd hrd
      · rcases h3 with h3 | h3 | ⟨d, hd, hrd, e⟩
        · exact Or.inl h3
        · exact Or.inr (Or.inl h3)
        · exact Or.inr (Or.inr ⟨d, List.mem_cons_of_mem _ hd, hrd, e⟩)

theorem mapM_opt {α β : Type} (f : α → Option β) (l : List α) (r : List β) (h : l.mapM f = some r) :
    r.length = l.length ∧ ∀ (i : Nat) (a : α), l[i]? = some a → ∃ b, r[i]? = some b ∧ f a = some b := by
  induction l generalizing r with
  | nil =>
    rw [List.mapM_nil] at h
    have := Option.some.inj h
    subst this
    exact ⟨rfl, fun i a hi => by simp at hi⟩
  | cons x l ih =>
    rw [List.mapM_cons] at h
    cases hx : f x with
    | none => rw [hx] at h; exact absurd h (by simp)
    | some y =>
      rw [hx] at h
      cases hl : l.mapM f with
      | none => rw [hl] at h; exact absurd h (by simp)
      | some ys =>
        rw [hl] at h
        have := Option.some.inj h
        subst this
        obtain ⟨h1, h2⟩ := ih ys hl
        refine ⟨by simp [h1], ?_⟩
        intro i a hi
        cases i with
        | zero =>
          simp only [List.getElem?_cons_zero, Option.some.injEq] at hi
          subst hi
          exact ⟨y, by simp, hx⟩
        | succ i => simpa using h2 i a (by simpa using hi)

theorem phasePerm_raw (S : Sys K) (kr : Nat → K → K) (p : K) (c : Nat) (k : K) (hr : 0 < S.satnum c)
    (h : phasePerm S kr p c = some k) : Spec.RawPerm S kr p c k := by
  unfold phasePerm at h
  rw [Option.map_eq_some_iff] at h
  obtain ⟨s, hs, e⟩ := h
  exact ⟨s, cellSw_spec S p c s hs hr, e.symm⟩

section ordered
variable [IsStrictOrderedRing K]

/-- **C33.** Isotropic input: there is a floor, at least the least permeability, such that the solver gets in every cell
the larger of the floor and the cell's phase permeability; and no two values given to the solver differ by more than the
largest contrast. -/
theorem C33_isotropic (S : Sys K) (kr : Nat → K → K) (contrast minPerm p : K) (ks : List K)
    (h : cellPerms S kr contrast minPerm p = some ks) (hc : 1 ≤ contrast) (hm : 0 ≤ minPerm) :
    ks.length = S.globalCell.length ∧
    (∃ floor, minPerm ≤ floor ∧
      (floor = minPerm ∨ ∃ c ∈ S.globalCell, 0 < S.satnum c ∧ Spec.RawPerm S kr p c (floor * contrast)) ∧
      ∀ (i c : Nat) (k : K), S.globalCell[i]? = some c → ks[i]? = some k → floor ≤ k ∧
        (0 < S.satnum c → ∃ raw, Spec.RawPerm S kr p c raw ∧ (floor ≤ raw → k = raw) ∧ (raw < floor → k = floor)) ∧
        (¬ 0 < S.satnum c → k = floor)) ∧
    ∀ k ∈ ks, ∀ k' ∈ ks, k ≤ contrast * k' := by
  unfold cellPerms at h
  split at h
  rotate_left
  · exact absurd h (by simp)
  rename_i m hfold
  obtain ⟨q1, q2, q3⟩ := maxFold S kr minPerm p _ _ _ hfold
  obtain ⟨hl, hg⟩ := mapM_opt _ _ _ h
  have hcpos : 0 < contrast := lt_of_lt_of_le zero_lt_one hc
  have hfl : minPerm ≤ floorPerm m contrast minPerm := le_max_right _ _
  have hfm : m ≤ contrast * floorPerm m contrast minPerm := by
    have : m / contrast ≤ floorPerm m contrast minPerm := le_max_left _ _
    rw [div_le_iff₀ hcpos] at this
    rw [mul_comm]; exact this
  have hcell : ∀ (i c : Nat) (k : K), S.globalCell[i]? = some c → ks[i]? = some k →
      floorPerm m contrast minPerm ≤ k ∧
      (0 < S.satnum c → ∃ raw, Spec.RawPerm S kr p c raw ∧ raw ≤ m ∧ k = max (floorPerm m contrast minPerm) raw) ∧
      (¬ 0 < S.satnum c → k = floorPerm m contrast minPerm) := by
    intro i c k hi hk
    obtain ⟨k', hk', e⟩ := hg i c hi
    rw [hk] at hk'
    have ek := Option.some.inj hk'
    subst ek
    by_cases hr : 0 < S.satnum c
    · simp only [gt_iff_lt, if_pos hr, Option.map_eq_some_iff] at e
      obtain ⟨raw, e1, e2⟩ := e
      refine ⟨by rw [← e2]; exact le_max_left _ _, fun _ => ⟨raw, phasePerm_raw S kr p c raw hr e1, ?_, e2.symm⟩,
        fun hh => absurd hr hh⟩
      exact (q2 c (List.mem_of_getElem? hi) hr).2 raw e1
    · simp only [gt_iff_lt, if_neg hr, Option.some.injEq] at e
      have : max (floorPerm m contrast minPerm) 0 = floorPerm m contrast minPerm := max_eq_left (le_trans hm hfl)
      rw [this] at e
      exact ⟨e.le, fun hh => absurd hh hr, fun _ => e.symm⟩
  refine ⟨hl, ⟨floorPerm m contrast minPerm, hfl, ?_, ?_⟩, ?_⟩
  · rcases max_choice (m / contrast) minPerm with e | e
    · rcases q3 with q3 | q3 | ⟨c, hcm, hr, e'⟩
      · left
        unfold floorPerm
        rw [q3, zero_div]
        exact max_eq_right hm
      · left
        unfold floorPerm
        rw [q3]
        refine max_eq_right ?_
        rw [div_le_iff₀ hcpos]
        exact le_mul_of_one_le_right hm hc
      · right
        refine ⟨c, hcm, hr, ?_⟩
        have : floorPerm m contrast minPerm * contrast = m := by
          unfold floorPerm
          rw [e]
          field_simp
        rw [this]
        exact phasePerm_raw S kr p c m hr e'
    · left; exact e
  · intro i c k hi hk
    obtain ⟨h1, h2, h3⟩ := hcell i c k hi hk
    refine ⟨h1, fun hr => ?_, h3⟩
    obtain ⟨raw, r1, r2, r3⟩ := h2 hr
    exact ⟨raw, r1, fun hh => by rw [r3, max_eq_right hh], fun hh => by rw [r3, max_eq_left hh.le]⟩
  · intro k hk k' hk'
    obtain ⟨i, hi⟩ := List.mem_iff_getElem?.mp hk
    obtain ⟨j, hj⟩ := List.mem_iff_getElem?.mp hk'
    have hil := (List.getElem?_eq_some_iff.mp hi).1
    have hjl := (List.getElem?_eq_some_iff.mp hj).1
    obtain ⟨h1, h2, h3⟩ := hcell i _ k (List.getElem?_eq_getElem (hl ▸ hil)) hi
    obtain ⟨h1', _, _⟩ := hcell j _ k' (List.getElem?_eq_getElem (hl ▸ hjl)) hj
    have hfk : floorPerm m contrast minPerm ≤ contrast * k' :=
      le_trans h1' (le_mul_of_one_le_left (le_trans (le_trans hm hfl) h1') hc)
    have hmk : m ≤ contrast * k' := le_trans hfm (mul_le_mul_of_nonneg_left h1' hcpos.le)
    by_cases hr : 0 < S.satnum (S.globalCell[i]'(hl ▸ hil))
    · obtain ⟨raw, _, r2, r3⟩ := h2 hr
      rw [r3]
      exact max_le hfk (le_trans r2 hmk)
    · rw [h3 hr]; exact hfk

end ordered

end Verif.RelPerm
