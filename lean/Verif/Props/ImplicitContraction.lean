import Verif.Props.ImplicitRange
import Verif.Spec.ImplicitContraction

/-!
C152: implicit transport steps keep the order of states and do not take them further apart; the result of a step does not depend on how it is computed.
-/

namespace Verif.ImplicitStep

open Verif.Implicit
open Verif.ImplicitStep.Spec
open Verif.Implicit.Spec (Interior waterVolume)

variable {K : Type} [Field K] [LinearOrder K] [IsStrictOrderedRing K]

/-- The water flow in terms of the water potential. -/
theorem potential {dt q G wa wb oa ob mw mo : K} (ht : 0 < mw + mo) (h1 : (mw = wa ∧ 0 ≤ q + mo * G) ∨ (mw = wb ∧ q + mo * G ≤ 0))
    (h2 : (mo = oa ∧ 0 ≤ q - mw * G) ∨ (mo = ob ∧ q - mw * G ≤ 0)) :
    ∃ p, waterVolume dt q G mw mo = dt * (wa * max p 0 + wb * min p 0) ∧
      (wa * max p 0 + wb * min p 0) + (oa * max (p - G) 0 + ob * min (p - G) 0) = q := by
  have hne := ht.ne'
  refine ⟨(q + mo * G) / (mw + mo), ?_⟩
  have e2 : (q + mo * G) / (mw + mo) - G = (q - mw * G) / (mw + mo) := by field_simp; ring
  have w : wa * max ((q + mo * G) / (mw + mo)) 0 + wb * min ((q + mo * G) / (mw + mo)) 0 = mw * ((q + mo * G) / (mw + mo)) := by
    rcases h1 with ⟨rfl, h⟩ | ⟨rfl, h⟩
    · have := div_nonneg h ht.le
      rw [max_eq_left this, min_eq_right this, mul_zero, add_zero]
    · have := div_nonpos_of_nonpos_of_nonneg h ht.le
      rw [max_eq_right this, min_eq_left this, mul_zero, zero_add]
  have o : oa * max ((q - mw * G) / (mw + mo)) 0 + ob * min ((q - mw * G) / (mw + mo)) 0 = mo * ((q - mw * G) / (mw + mo)) := by
    rcases h2 with ⟨rfl, h⟩ | ⟨rfl, h⟩
    · have := div_nonneg h ht.le
      rw [max_eq_left this, min_eq_right this, mul_zero, add_zero]
    · have := div_nonpos_of_nonpos_of_nonneg h ht.le
      rw [max_eq_right this, min_eq_left this, mul_zero, zero_add]
  rw [e2, w, o]
  constructor
  · unfold waterVolume; field_simp
  · field_simp; ring

/-- **C152** More mobile water and less mobile oil on the first side, the opposite on the second side, and a stronger force towards the second side: not less water flows to the second side, whatever the
directions the phases flow in before and after. -/
theorem C152_flow {dt q G wa wb oa ob mw mo G' wa' wb' oa' ob' mw' mo' : K} (hdt : 0 ≤ dt) (hwa : 0 ≤ wa) (hwb' : 0 ≤ wb') (hob : 0 ≤ ob) (hoa' : 0 ≤ oa')
    (ht : 0 < mw + mo) (h1 : (mw = wa ∧ 0 ≤ q + mo * G) ∨ (mw = wb ∧ q + mo * G ≤ 0)) (h2 : (mo = oa ∧ 0 ≤ q - mw * G) ∨ (mo = ob ∧ q - mw * G ≤ 0))
    (ht' : 0 < mw' + mo') (h1' : (mw' = wa' ∧ 0 ≤ q + mo' * G') ∨ (mw' = wb' ∧ q + mo' * G' ≤ 0)) (h2' : (mo' = oa' ∧ 0 ≤ q - mw' * G') ∨ (mo' = ob' ∧ q - mw' * G' ≤ 0))
    (ea : wa ≤ wa') (eb : wb' ≤ wb) (fa : oa' ≤ oa) (fb : ob ≤ ob') (hG : G ≤ G') : waterVolume dt q G mw mo ≤ waterVolume dt q G' mw' mo' := by
  obtain ⟨p, e1, e2⟩ := potential (dt := dt) ht h1 h2
  obtain ⟨p', e1', e2'⟩ := potential (dt := dt) ht' h1' h2'
  rw [e1, e1']
  refine mul_le_mul_of_nonneg_left ?_ hdt
  have mono : ∀ {a b x y : K}, 0 ≤ a → 0 ≤ b → x ≤ y → a * max x 0 + b * min x 0 ≤ a * max y 0 + b * min y 0 := fun ha hb hxy =>
    add_le_add (mul_le_mul_of_nonneg_left (max_le_max hxy le_rfl) ha) (mul_le_mul_of_nonneg_left (min_le_min hxy le_rfl) hb)
  have coef : ∀ {a b a' b' : K} (x : K), a ≤ a' → b' ≤ b → a * max x 0 + b * min x 0 ≤ a' * max x 0 + b' * min x 0 := fun x ha hb =>
    add_le_add (mul_le_mul_of_nonneg_right ha (le_max_right _ _)) (mul_le_mul_of_nonpos_right hb (min_le_right _ _))
  rcases le_total p p' with h | h
  · exact (coef p ea eb).trans (mono (hwa.trans ea) hwb' h)
  · have a2 : oa' * max (p' - G') 0 + ob' * min (p' - G') 0 ≤ oa * max (p - G) 0 + ob * min (p - G) 0 :=
      (mono hoa' (hob.trans fb) (by linarith)).trans (coef _ fa fb)
    linarith

section

variable {M : Medium K}

theorem fraction_mono (hM : Sound M) (hO : Ordered M) {k : Nat} (hk : k < M.grid.nc) {a b : K} (ha : M.smin k ≤ a) (hab : a ≤ b) (hb : b ≤ M.smax k) :
    fraction M k a ≤ fraction M k b := by
  obtain ⟨m1, m2, -⟩ := hO.more k a b hk ha hab hb
  obtain ⟨p1, p2, p3⟩ := hM.mob k a ha (hab.trans hb)
  obtain ⟨q1, q2, q3⟩ := hM.mob k b (ha.trans hab) hb
  unfold fraction
  rw [div_le_div_iff₀ p3 q3]
  have := mul_le_mul m1 m2 q2 q1
  linarith

/-- Where the first cell has gained and the second has not, not less water flows. -/
theorem face_mono (hM : Sound M) (hO : Ordered M) {dt : K} (hdt : 0 ≤ dt) {v v' : List K} (hv : Within M v) (hv' : Within M v') {w w' : Nat → K} (hw : Flows M dt v w) (hw' : Flows M dt v' w')
    {f a b : Nat} (hi : Interior M.grid f a b) (h1 : v.getD a 0 ≤ v'.getD a 0) (h2 : v'.getD b 0 ≤ v.getD b 0) : w f ≤ w' f := by
  obtain ⟨cw, co, hcw, hco, hp, hwf, i1, i2, i3, i4⟩ := hw f a b hi
  obtain ⟨cw', co', hcw', hco', hp', hwf', j1, j2, j3, j4⟩ := hw' f a b hi
  obtain ⟨-, ha, hb, -⟩ := hi
  obtain ⟨a1, a2⟩ := hv.limits a ha
  obtain ⟨b1, b2⟩ := hv.limits b hb
  obtain ⟨a1', a2'⟩ := hv'.limits a ha
  obtain ⟨b1', b2'⟩ := hv'.limits b hb
  obtain ⟨m1, m2, m3⟩ := hO.more a _ _ ha a1 h1 a2'
  obtain ⟨n1, n2, n3⟩ := hO.more b _ _ hb b1' h2 b2
  rw [hwf, hwf']
  refine C152_flow (wa := (M.mob a (v.getD a 0)).1) (wb := (M.mob b (v.getD b 0)).1) (oa := (M.mob a (v.getD a 0)).2) (ob := (M.mob b (v.getD b 0)).2)
    (wa' := (M.mob a (v'.getD a 0)).1) (wb' := (M.mob b (v'.getD b 0)).1) (oa' := (M.mob a (v'.getD a 0)).2) (ob' := (M.mob b (v'.getD b 0)).2)
    hdt (hM.mob a _ a1 a2).1 (hM.mob b _ b1' b2').1 (hM.mob b _ b1 b2).2.1 (hM.mob a _ a1' a2').2.1 hp ?_ ?_ hp' ?_ ?_ m1 n1 m2 n2
    (mul_le_mul_of_nonneg_left (by linarith) (hO.trans f))
  · rcases hcw with rfl | rfl; exacts [Or.inl ⟨rfl, i1 rfl⟩, Or.inr ⟨rfl, i2 rfl⟩]
  · rcases hco with rfl | rfl; exacts [Or.inl ⟨rfl, i3 rfl⟩, Or.inr ⟨rfl, i4 rfl⟩]
  · rcases hcw' with rfl | rfl; exacts [Or.inl ⟨rfl, j1 rfl⟩, Or.inr ⟨rfl, j2 rfl⟩]
  · rcases hco' with rfl | rfl; exacts [Or.inl ⟨rfl, j3 rfl⟩, Or.inr ⟨rfl, j4 rfl⟩]

/-- A sum over cells of outflows with weights, in a grid whose two sides agree: not negative if over every face the flow goes from higher to lower weight. -/
theorem weighted (hM : Sound M) {twin : Nat → Nat} (hJ : Joined M twin) {u : Nat → K}
    (hu : ∀ f a b, Interior M.grid f a b → (Interior M.grid (twin f) a b ∧ u (twin f) = u f) ∨ (Interior M.grid (twin f) b a ∧ u (twin f) = -u f))
    (H : Nat → K) (hH : ∀ f a b, Interior M.grid f a b → 0 ≤ (H a - H b) * u f) : 0 ≤ ∑ c ∈ Finset.range M.grid.nc, H c * outflow M u c := by
  classical
  let conns : Nat → List Nat := fun c => (M.grid.cellFaces c).filter fun f => decide (0 ≤ (M.grid.faceCells f).1 ∧ 0 ≤ (M.grid.faceCells f).2)
  let A : Finset Nat := (Finset.range M.grid.nc).biUnion fun c => (conns c).toFinset
  let B : Finset Nat := A ∪ A.image twin
  have hint : ∀ f ∈ A, ∃ a b, Interior M.grid f a b := by
    intro f hf
    obtain ⟨c, hc, hf⟩ := Finset.mem_biUnion.1 hf
    obtain ⟨h1, h2⟩ := List.mem_filter.1 (List.mem_toFinset.1 hf)
    obtain ⟨a, b, hi, -⟩ := interior_of hM (Finset.mem_range.1 hc) h1 (by simpa [Grid.internal] using h2)
    exact ⟨a, b, hi⟩
  have hintB : ∀ f ∈ B, ∃ a b, Interior M.grid f a b := by
    intro f hf
    rcases Finset.mem_union.1 hf with hf | hf
    · exact hint f hf
    · obtain ⟨g, hg, rfl⟩ := Finset.mem_image.1 hf
      obtain ⟨a, b, hi⟩ := hint g hg
      rcases hJ.cells g a b hi with h | h
      · exact ⟨a, b, h.1⟩
      · exact ⟨b, a, h.1⟩
  have htwB : ∀ f ∈ B, twin f ∈ B ∧ twin (twin f) = f := by
    intro f hf
    obtain ⟨a, b, hi⟩ := hintB f hf
    refine ⟨?_, hJ.inv f a b hi⟩
    rcases Finset.mem_union.1 hf with hf | hf
    · exact Finset.mem_union_right _ (Finset.mem_image_of_mem _ hf)
    · obtain ⟨g, hg, rfl⟩ := Finset.mem_image.1 hf
      obtain ⟨a', b', hi'⟩ := hint g hg
      rw [hJ.inv g a' b' hi']
      exact Finset.mem_union_left _ hg
  let h : Nat → K := fun f => ∑ c ∈ Finset.range M.grid.nc, ((conns c).count f : K) * (H c * outOf M u c f)
  have hsum : ∑ c ∈ Finset.range M.grid.nc, H c * outflow M u c = ∑ f ∈ B, h f := by
    rw [Finset.sum_comm]
    refine Finset.sum_congr rfl fun c hc => ?_
    have hsub : (conns c).toFinset ⊆ B := fun f hf => Finset.mem_union_left _ (Finset.mem_biUnion.2 ⟨c, hc, hf⟩)
    rw [← Finset.sum_subset hsub fun f _ hf => by
      rw [List.count_eq_zero_of_not_mem (fun hm => hf (List.mem_toFinset.2 hm)), Nat.cast_zero, zero_mul]]
    change H c * ((conns c).map fun f => outOf M u c f).sum = _
    rw [Finset.sum_list_map_count, Finset.mul_sum]
    exact Finset.sum_congr rfl fun f _ => by rw [nsmul_eq_mul]; ring
  have hcount : ∀ f a b, Interior M.grid f a b → ∀ c, (conns c).count f = (M.grid.cellFaces c).count f := by
    intro f a b hi c
    refine List.count_filter ?_
    rw [hi.1]
    simp
  have hpair : ∀ f ∈ B, 0 ≤ h f + h (twin f) := by
    intro f hf
    obtain ⟨a, b, hi⟩ := hintB f hf
    obtain ⟨e, ha, hb, hab⟩ := id hi
    have htw := hu f a b hi
    have hit : ∃ a' b', Interior M.grid (twin f) a' b' := by
      rcases htw with h | h
      · exact ⟨_, _, h.1⟩
      · exact ⟨_, _, h.1⟩
    obtain ⟨a', b', hit⟩ := hit
    have oa : outOf M u a f = u f := by unfold outOf; rw [if_pos (by rw [e])]
    have ob : outOf M u b f = -u f := by unfold outOf; rw [if_neg (by rw [e]; simpa using hab)]
    have ta : outOf M u a (twin f) = u f ∧ outOf M u b (twin f) = -u f := by
      unfold outOf
      rcases htw with ⟨h1, h2⟩ | ⟨h1, h2⟩
      · rw [h1.1, h2, if_pos rfl, if_neg (by simpa using hab)]; exact ⟨rfl, rfl⟩
      · rw [h1.1, h2, if_neg (by simpa using hab.symm), if_pos rfl]; exact ⟨neg_neg _, rfl⟩
    have hd : h f + h (twin f) = ∑ c ∈ Finset.range M.grid.nc, (if c = a ∨ c = b then (if twin f = f then 2 else 1) * (H c * outOf M u c f) else 0) := by
      change (∑ c ∈ _, _) + (∑ c ∈ _, _) = _
      rw [← Finset.sum_add_distrib]
      refine Finset.sum_congr rfl fun c hc => ?_
      rw [hcount f a b hi, hcount _ a' b' hit]
      have hc := Finset.mem_range.1 hc
      by_cases ht : twin f = f
      · rw [ht, if_pos rfl, hJ.single f a b hi ht c hc]
        by_cases hcab : c = a ∨ c = b
        · rw [if_pos hcab, if_pos hcab]; push_cast; ring
        · rw [if_neg hcab, if_neg hcab]; simp
      · rw [if_neg ht]
        have hs := hJ.shared f a b hi ht c hc
        by_cases hcab : c = a ∨ c = b
        · rw [if_pos hcab] at hs ⊢
          have hoo : outOf M u c (twin f) = outOf M u c f := by
            rcases hcab with rfl | rfl
            · rw [oa, ta.1]
            · rw [ob, ta.2]
          rw [hoo, ← add_mul, ← Nat.cast_add, hs, Nat.cast_one]
        · rw [if_neg hcab] at hs ⊢
          have z1 : (M.grid.cellFaces c).count f = 0 := by omega
          have z2 : (M.grid.cellFaces c).count (twin f) = 0 := by omega
          rw [z1, z2]; simp
    rw [hd, ← Finset.sum_filter]
    have hset : (Finset.range M.grid.nc).filter (fun c => c = a ∨ c = b) = {a, b} := by
      ext c
      simp only [Finset.mem_filter, Finset.mem_range, Finset.mem_insert, Finset.mem_singleton]
      constructor
      · exact fun h => h.2
      · intro h; exact ⟨by rcases h with rfl | rfl <;> assumption, h⟩
    rw [hset, Finset.sum_pair hab, oa, ob]
    have e3 : ∀ x : K, x * (H a * u f) + x * (H b * -u f) = x * ((H a - H b) * u f) := fun x => by ring
    rw [e3]
    exact mul_nonneg (by split <;> norm_num) (hH f a b hi)
  have hperm : ∑ f ∈ B, h f = ∑ f ∈ B, h (twin f) :=
    Finset.sum_nbij' twin twin (fun f hf => (htwB f hf).1) (fun f hf => (htwB f hf).1) (fun f hf => (htwB f hf).2) (fun f hf => (htwB f hf).2)
      (fun f hf => by rw [(htwB f hf).2])
  have h2 : 0 ≤ ∑ f ∈ B, h f + ∑ f ∈ B, h (twin f) := by
    rw [← Finset.sum_add_distrib]
    exact Finset.sum_nonneg hpair
  rw [← hperm] at h2
  rw [hsum]
  linarith

theorem outflow_sub (w w' : Nat → K) (c : Nat) : outflow M (fun f => w f - w' f) c = outflow M w c - outflow M w' c := by
  unfold outflow
  generalize (M.grid.cellFaces c).filter _ = l
  induction l with
  | nil => simp
  | cons f l ih =>
    simp only [List.map_cons, List.sum_cons, ih]
    split <;> ring

/-- States that balance the water of every cell, for the same medium and length of step, from two states. -/
theorem excess_le (hM : Sound M) (hO : Ordered M) {twin : Nat → Nat} (hJ : Joined M twin) {dt : K} (hdt : 0 ≤ dt) {s s' v v' : List K} (hv : Within M v) (hv' : Within M v') {w w' : Nat → K}
    (hw : Flows M dt v w) (hw' : Flows M dt v' w') {ε ε' : K} (hε : 0 ≤ ε) (hε' : 0 ≤ ε')
    (hb : ∀ k, k < M.grid.nc → |imbalance M dt (v.getD k 0 - s.getD k 0) v w k| ≤ ε + M.porevol k * M.tol)
    (hb' : ∀ k, k < M.grid.nc → |imbalance M dt (v'.getD k 0 - s'.getD k 0) v' w' k| ≤ ε' + M.porevol k * M.tol) :
    excess M v v' ≤ excess M s s' + (M.grid.nc * (ε + ε') + 2 * (pores M * M.tol)) := by
  classical
  let H : Nat → K := fun c => if v'.getD c 0 < v.getD c 0 then 1 else 0
  have hflow : 0 ≤ ∑ c ∈ Finset.range M.grid.nc, H c * outflow M (fun f => w f - w' f) c := by
    refine weighted hM hJ ?_ H ?_
    · intro f a b hi
      have hne : ∀ {x y}, Interior M.grid x a b → Interior M.grid x b a → y := fun h1 h2 => by
        have e : (a : Int) = (b : Int) := congrArg Prod.fst (h1.1.symm.trans h2.1)
        exact absurd (by exact_mod_cast e) h1.2.2.2
      rcases twin_flow hM hJ hv hw hi with ⟨i1, e1⟩ | ⟨i1, e1⟩ <;> rcases twin_flow hM hJ hv' hw' hi with ⟨i2, e2⟩ | ⟨i2, e2⟩
      · exact Or.inl ⟨i1, by rw [e1, e2]⟩
      · exact hne i1 i2
      · exact hne i2 i1
      · exact Or.inr ⟨i1, by rw [e1, e2]; ring⟩
    · intro f a b hi
      simp only [H]
      by_cases ha : v'.getD a 0 < v.getD a 0 <;> by_cases hb : v'.getD b 0 < v.getD b 0
      · rw [if_pos ha, if_pos hb]; simp
      · rw [if_pos ha, if_neg hb, sub_zero, one_mul]
        have := face_mono hM hO hdt hv' hv hw' hw hi ha.le (not_lt.1 hb)
        linarith
      · rw [if_neg ha, if_pos hb]
        have := face_mono hM hO hdt hv hv' hw hw' hi (not_lt.1 ha) hb.le
        linarith
      · rw [if_neg ha, if_neg hb]; simp
  have hsrc : ∀ k, k < M.grid.nc → 0 ≤ H k * (((M.src.filter fun q => q.1 = k).map (leaves M dt v)).sum - ((M.src.filter fun q => q.1 = k).map (leaves M dt v')).sum) := by
    intro k hk
    simp only [H]
    split
    · rename_i hlt
      rw [one_mul, sub_nonneg]
      refine List.sum_le_sum fun q hq => ?_
      obtain ⟨-, hqk⟩ := List.mem_filter.1 hq
      have hqk : q.1 = k := by simpa using hqk
      unfold leaves
      split
      · exact le_refl _
      · rename_i hr
        rw [hqk]
        have hf := fraction_mono hM hO hk (hv'.limits k hk).1 hlt.le (hv.limits k hk).2
        have := mul_le_mul_of_nonneg_left hf (mul_nonneg hdt (neg_nonneg.2 (not_lt.1 hr)))
        linarith
    · simp
  have hcell : ∀ k, k < M.grid.nc → M.porevol k * max (v.getD k 0 - v'.getD k 0) 0 + H k * outflow M (fun f => w f - w' f) k ≤
      M.porevol k * max (s.getD k 0 - s'.getD k 0) 0 + (ε + ε' + 2 * (M.porevol k * M.tol)) := by
    intro k hk
    have h1 := hsrc k hk
    have hpv := hM.porevol k
    have hpt := mul_nonneg hpv hM.tol
    by_cases hlt : v'.getD k 0 < v.getD k 0
    · simp only [H, if_pos hlt, one_mul] at h1 ⊢
      have h2 := (le_abs_self _).trans (hb k hk)
      have h3 := (neg_le_neg (hb' k hk)).trans (neg_abs_le _)
      unfold imbalance at h2 h3
      rw [outflow_sub, max_eq_left (sub_nonneg.2 hlt.le)]
      have h4 := mul_le_mul_of_nonneg_left (le_max_left (s.getD k 0 - s'.getD k 0) 0) hpv
      linarith
    · simp only [H, if_neg hlt, zero_mul, add_zero]
      rw [max_eq_right (sub_nonpos.2 (not_lt.1 hlt)), mul_zero]
      have h4 := mul_nonneg hpv (le_max_right (s.getD k 0 - s'.getD k 0) 0)
      linarith
  have := Finset.sum_le_sum fun k hk => hcell k (Finset.mem_range.1 hk)
  rw [Finset.sum_add_distrib, Finset.sum_add_distrib, Finset.sum_add_distrib, Finset.sum_const, Finset.card_range, nsmul_eq_mul, ← Finset.mul_sum, ← Finset.sum_mul] at this
  unfold excess pores
  linarith

end

variable {M : Medium K} {lin lin' : (Nat → Nat → K) → List K → List K → List K} {big big' dt : K} {c c' : Newton.Ctrl K} {s s' : List K}

theorem precise_balance (hM : Sound M) (hs : Within M s) (hlin : ∀ A b g, (lin A b g).length = g.length) (hm : 1 ≤ c.maxIt) (hr : c.rtol ≤ 1) (h0 : 0 ≤ big) (hbig : Moderate M big dt s)
    {mem : NewtonVec.Mem K} {v : List K} {flag : Int} (hstep : step M lin big c mem dt s = some (v, flag)) {ε : K} (hp : Precise M c dt s flag ε) :
    Within M v ∧ ∃ w, Flows M dt v w ∧ ∀ k, k < M.grid.nc → |imbalance M dt (v.getD k 0 - s.getD k 0) v w k| ≤ ε + M.porevol k * M.tol := by
  obtain ⟨v1, f1, h1, hv, hb⟩ := C150_balance (lin := lin) (dt := dt) hM hs hlin hm hr h0 hbig mem
  obtain ⟨rfl, rfl⟩ := Prod.mk.inj (Option.some.inj (h1.symm.trans hstep))
  exact ⟨hv, (hb ε hp).1⟩

/-- **C152** Two successful steps of the same length in the same medium, from any two states, with any linear solvers, settings and earlier contents of the system: the water that the one result has
more than the other is at most what the one initial state has more than the other, up to the tolerances. Rocks may differ from cell to cell. -/
theorem C152_excess (hM : Sound M) (hO : Ordered M) {twin : Nat → Nat} (hJ : Joined M twin) (hdt : 0 ≤ dt) (hs : Within M s) (hs' : Within M s')
    (hlin : ∀ A b g, (lin A b g).length = g.length) (hm : 1 ≤ c.maxIt) (hr : c.rtol ≤ 1) (h0 : 0 ≤ big) (hbig : Moderate M big dt s)
    (hlin' : ∀ A b g, (lin' A b g).length = g.length) (hm' : 1 ≤ c'.maxIt) (hr' : c'.rtol ≤ 1) (h0' : 0 ≤ big') (hbig' : Moderate M big' dt s')
    {mem mem' : NewtonVec.Mem K} {v v' : List K} {flag flag' : Int} (hstep : step M lin big c mem dt s = some (v, flag)) (hstep' : step M lin' big' c' mem' dt s' = some (v', flag'))
    {ε ε' : K} (hε : 0 ≤ ε) (hε' : 0 ≤ ε') (hp : Precise M c dt s flag ε) (hp' : Precise M c' dt s' flag' ε') :
    excess M v v' ≤ excess M s s' + (M.grid.nc * (ε + ε') + 2 * (pores M * M.tol)) ∧
    distance M v v' ≤ distance M s s' + 2 * (M.grid.nc * (ε + ε') + 2 * (pores M * M.tol)) := by
  obtain ⟨hv, w, hw, hb⟩ := precise_balance hM hs hlin hm hr h0 hbig hstep hp
  obtain ⟨hv', w', hw', hb'⟩ := precise_balance hM hs' hlin' hm' hr' h0' hbig' hstep' hp'
  have h1 := excess_le hM hO hJ hdt hv hv' hw hw' hε hε' hb hb'
  have h2 := excess_le hM hO hJ hdt hv' hv hw' hw hε' hε hb' hb
  have hd : ∀ a b : List K, distance M a b = excess M a b + excess M b a := by
    intro a b
    unfold distance excess
    rw [← Finset.sum_add_distrib]
    refine Finset.sum_congr rfl fun k _ => ?_
    rw [← mul_add]
    congr 1
    rcases le_total (a.getD k 0) (b.getD k 0) with h | h
    · rw [abs_of_nonpos (sub_nonpos.2 h), max_eq_right (sub_nonpos.2 h), max_eq_left (sub_nonneg.2 h)]; ring
    · rw [abs_of_nonneg (sub_nonneg.2 h), max_eq_left (sub_nonneg.2 h), max_eq_right (sub_nonpos.2 h)]; ring
  refine ⟨h1, ?_⟩
  rw [hd, hd]
  linarith

/-- **C152** The result of a successful step does not depend on the linear solver, the settings of the Newton driver or the earlier contents of the system: two results from the same state differ in no
cell by more water than the tolerances of all cells together. -/
theorem C152_unique (hM : Sound M) (hO : Ordered M) {twin : Nat → Nat} (hJ : Joined M twin) (hdt : 0 ≤ dt) (hs : Within M s)
    (hlin : ∀ A b g, (lin A b g).length = g.length) (hm : 1 ≤ c.maxIt) (hr : c.rtol ≤ 1) (h0 : 0 ≤ big) (hbig : Moderate M big dt s)
    (hlin' : ∀ A b g, (lin' A b g).length = g.length) (hm' : 1 ≤ c'.maxIt) (hr' : c'.rtol ≤ 1) (h0' : 0 ≤ big') (hbig' : Moderate M big' dt s)
    {mem mem' : NewtonVec.Mem K} {v v' : List K} {flag flag' : Int} (hstep : step M lin big c mem dt s = some (v, flag)) (hstep' : step M lin' big' c' mem' dt s = some (v', flag'))
    {ε ε' : K} (hε : 0 ≤ ε) (hε' : 0 ≤ ε') (hp : Precise M c dt s flag ε) (hp' : Precise M c' dt s flag' ε') :
    ∀ k, k < M.grid.nc → M.porevol k * |v.getD k 0 - v'.getD k 0| ≤ 2 * (M.grid.nc * (ε + ε') + 2 * (pores M * M.tol)) := by
  intro k hk
  have h := (C152_excess hM hO hJ hdt hs hs hlin hm hr h0 hbig hlin' hm' hr' h0' hbig' hstep hstep' hε hε' hp hp').2
  have e : distance M s s = 0 := by unfold distance; simp
  rw [e, zero_add] at h
  refine le_trans ?_ h
  unfold distance
  exact Finset.single_le_sum (f := fun k => M.porevol k * |v.getD k 0 - v'.getD k 0|) (fun j _ => mul_nonneg (hM.porevol j) (abs_nonneg _)) (Finset.mem_range.2 hk)

/-- **C152** Steps keep the order of states: with no less water in any cell at the start there is no less in any cell at the end, up to the tolerances. -/
theorem C152_order (hM : Sound M) (hO : Ordered M) {twin : Nat → Nat} (hJ : Joined M twin) (hdt : 0 ≤ dt) (hs : Within M s) (hs' : Within M s')
    (hlin : ∀ A b g, (lin A b g).length = g.length) (hm : 1 ≤ c.maxIt) (hr : c.rtol ≤ 1) (h0 : 0 ≤ big) (hbig : Moderate M big dt s)
    (hlin' : ∀ A b g, (lin' A b g).length = g.length) (hm' : 1 ≤ c'.maxIt) (hr' : c'.rtol ≤ 1) (h0' : 0 ≤ big') (hbig' : Moderate M big' dt s')
    {mem mem' : NewtonVec.Mem K} {v v' : List K} {flag flag' : Int} (hstep : step M lin big c mem dt s = some (v, flag)) (hstep' : step M lin' big' c' mem' dt s' = some (v', flag'))
    {ε ε' : K} (hε : 0 ≤ ε) (hε' : 0 ≤ ε') (hp : Precise M c dt s flag ε) (hp' : Precise M c' dt s' flag' ε') (hle : ∀ k, k < M.grid.nc → s.getD k 0 ≤ s'.getD k 0) :
    ∀ k, k < M.grid.nc → M.porevol k * v.getD k 0 ≤ M.porevol k * v'.getD k 0 + (M.grid.nc * (ε + ε') + 2 * (pores M * M.tol)) := by
  intro k hk
  have h := (C152_excess hM hO hJ hdt hs hs' hlin hm hr h0 hbig hlin' hm' hr' h0' hbig' hstep hstep' hε hε' hp hp').1
  have e : excess M s s' = 0 := by
    unfold excess
    refine Finset.sum_eq_zero fun k hk => ?_
    rw [max_eq_right (sub_nonpos.2 (hle k (Finset.mem_range.1 hk))), mul_zero]
  rw [e, zero_add] at h
  have h1 : M.porevol k * max (v.getD k 0 - v'.getD k 0) 0 ≤ excess M v v' := by
    unfold excess
    exact Finset.single_le_sum (f := fun k => M.porevol k * max (v.getD k 0 - v'.getD k 0) 0) (fun j _ => mul_nonneg (hM.porevol j) (le_max_right _ _)) (Finset.mem_range.2 hk)
  have h2 := mul_le_mul_of_nonneg_left (le_max_left (v.getD k 0 - v'.getD k 0) 0) (hM.porevol k)
  linarith

/-- One converged substep, as the driver of the time steps sees it. -/
theorem substep (hM : Sound M) (hs : Within M s) (hlin : ∀ A b g, (lin A b g).length = g.length) (hm : 1 ≤ c.maxIt) (hr : c.rtol ≤ 0) (hd : c.dxtol ≤ 0) {mem : NewtonVec.Mem K} {v : List K}
    (e : stepOk M lin big c mem dt s = (v, true)) : step M lin big c mem dt s = some (v, 1) := by
  obtain ⟨v', flag', hstep, -, hfl⟩ := step_some (lin := lin) (big := big) (dt := dt) hM hs.length hlin hm mem
  unfold stepOk at e
  rw [hstep] at e
  obtain ⟨rfl, h2⟩ := Prod.mk.inj e
  have hf : 0 ≤ flag' := by simpa using h2
  rw [hstep, hfl hf hr hd]

/-- **C152** The same holds of whole transport solves over the same time that succeed with the same number of substeps, if convergence is judged by the absolute tolerance only. -/
theorem C152_transport (hM : Sound M) (hO : Ordered M) {twin : Nat → Nat} (hJ : Joined M twin) (hs : Within M s) (hs' : Within M s') {time : K} (htime : 0 ≤ time)
    (hlin : ∀ A b g, (lin A b g).length = g.length) (hm : 1 ≤ c.maxIt) (hr : c.rtol ≤ 0) (hd : c.dxtol ≤ 0) (ha : 0 ≤ c.atol) (h0 : 0 ≤ big)
    (hbig : ∀ (j : Nat) v, Within M v → Moderate M big (time / 2 ^ j) v)
    (hlin' : ∀ A b g, (lin' A b g).length = g.length) (hm' : 1 ≤ c'.maxIt) (hr' : c'.rtol ≤ 0) (hd' : c'.dxtol ≤ 0) (ha' : 0 ≤ c'.atol) (h0' : 0 ≤ big')
    (hbig' : ∀ (j : Nat) v, Within M v → Moderate M big' (time / 2 ^ j) v)
    (mem mem' : NewtonVec.Mem K) (maxRepeats maxRepeats' : Nat) (hok : (transport M lin big c mem maxRepeats time s).ok = true) (hok' : (transport M lin' big' c' mem' maxRepeats' time s').ok = true)
    (hsteps : (transport M lin' big' c' mem' maxRepeats' time s').steps = (transport M lin big c mem maxRepeats time s).steps) :
    distance M (transport M lin big c mem maxRepeats time s).sat (transport M lin' big' c' mem' maxRepeats' time s').sat ≤
      distance M s s' + (transport M lin big c mem maxRepeats time s).steps * (2 * (M.grid.nc * (c.atol + c'.atol) + 2 * (pores M * M.tol))) := by
  obtain ⟨-, -, h3, -, h5, -⟩ := ImplicitDriver.C55_retries (stepOk M lin big c mem) maxRepeats time s
  obtain ⟨-, -, -, -, h5', -⟩ := ImplicitDriver.C55_retries (stepOk M lin' big' c' mem') maxRepeats' time s'
  have h := h5 hok
  have h' := h5' hok'
  change ImplicitDriver.Spec.AllConverge (stepOk M lin big c mem) (time / ((transport M lin big c mem maxRepeats time s).steps : Nat))
    (transport M lin big c mem maxRepeats time s).steps s (transport M lin big c mem maxRepeats time s).sat at h
  change ImplicitDriver.Spec.AllConverge (stepOk M lin' big' c' mem') (time / ((transport M lin' big' c' mem' maxRepeats' time s').steps : Nat))
    (transport M lin' big' c' mem' maxRepeats' time s').steps s' (transport M lin' big' c' mem' maxRepeats' time s').sat at h'
  rw [hsteps] at h'
  change (transport M lin big c mem maxRepeats time s).steps = _ at h3
  obtain ⟨j, hj⟩ : ∃ j : Nat, (transport M lin big c mem maxRepeats time s).steps = 2 ^ j := ⟨_, h3⟩
  rw [hj, show time / ((2 ^ j : Nat) : K) = time / 2 ^ j by push_cast; rfl] at h h'
  rw [hj]
  generalize (transport M lin big c mem maxRepeats time s).sat = u at h
  generalize (transport M lin' big' c' mem' maxRepeats' time s').sat = u' at h'
  generalize (2 ^ j : Nat) = n at h h' ⊢
  clear hok hok' h3 h5 h5' hj hsteps
  induction h generalizing s' u' with
  | nil =>
    cases h'
    simp
  | @cons n s s1 s2 e _ ih =>
    cases h' with
    | @cons _ _ s1' _ e' g' =>
      have hdt : 0 ≤ time / 2 ^ j := div_nonneg htime (pow_nonneg zero_le_two j)
      have k := substep hM hs hlin hm hr hd e
      have k' := substep hM hs' hlin' hm' hr' hd' e'
      have p : Precise M c (time / 2 ^ j) s 1 c.atol := Or.inl ⟨rfl, rfl⟩
      have p' : Precise M c' (time / 2 ^ j) s' 1 c'.atol := Or.inl ⟨rfl, rfl⟩
      have hr1 := hr.trans zero_le_one
      have hr1' := hr'.trans zero_le_one
      have h1 := (C152_excess hM hO hJ hdt hs hs' hlin hm hr1 h0 (hbig j s hs) hlin' hm' hr1' h0' (hbig' j s' hs') k k' ha ha' p p').2
      have v := (precise_balance hM hs hlin hm hr1 h0 (hbig j s hs) k p).1
      have v' := (precise_balance hM hs' hlin' hm' hr1' h0' (hbig' j s' hs') k' p').1
      have h2 := ih v v' _ g'
      push_cast
      linarith

/-- The hypotheses of `C152_transport` hold of two flows around a ring, and the states come closer. -/
example : Sound exRing ∧ Ordered exRing ∧ Joined exRing id ∧ Within exRing [3 / 4, 1 / 4, 1 / 4] ∧ Within exRing [1, 0, 0] ∧ (∀ A b g, (exCramer A b g).length = g.length) ∧
    exCtrl.rtol ≤ 0 ∧ exCtrl.dxtol ≤ 0 ∧ 0 ≤ exCtrl.atol ∧ (∀ (j : Nat) v, Within exRing v → Moderate exRing (10 ^ 99) (1 / 2 ^ j) v) ∧
    (transport exRing exCramer (10 ^ 99) exCtrl exMem 10 1 [3 / 4, 1 / 4, 1 / 4]).ok = true ∧ (transport exRing exCramer (10 ^ 99) exCtrl exMem 10 1 [1, 0, 0]).ok = true ∧
    (transport exRing exCramer (10 ^ 99) exCtrl exMem 10 1 [1, 0, 0]).steps = (transport exRing exCramer (10 ^ 99) exCtrl exMem 10 1 [3 / 4, 1 / 4, 1 / 4]).steps ∧
    distance exRing [3 / 4, 1 / 4, 1 / 4] [1, 0, 0] = 3 / 4 ∧ distance exRing [15 / 28, 11 / 28, 9 / 28] [4 / 7, 2 / 7, 1 / 7] = 9 / 28 := by
  refine ⟨exRing_sound, ⟨fun c a b _ _ h _ => ⟨h, ?_, le_refl _⟩, fun f => (by decide : (0 : ℚ) ≤ 1)⟩, joined_of_conforming exRing_conf, ⟨rfl, fun c hc => ?_⟩, ⟨rfl, fun c hc => ?_⟩,
    fun A b g => by simp [exCramer], by decide, by decide, by decide +kernel, fun j v hv w hw k hk => exRing_big j v w hv hw k hk, by decide +kernel, by decide +kernel, by decide +kernel, ?_, ?_⟩
  · change 1 - b ≤ 1 - a; linarith
  · have : c = 0 ∨ c = 1 ∨ c = 2 := by have : c < 3 := hc; omega
    rcases this with rfl | rfl | rfl <;> decide +kernel
  · have : c = 0 ∨ c = 1 ∨ c = 2 := by have : c < 3 := hc; omega
    rcases this with rfl | rfl | rfl <;> decide +kernel
  · change ∑ c ∈ Finset.range 3, (1 : ℚ) * _ = _
    rw [Finset.sum_range_succ, Finset.sum_range_succ, Finset.sum_range_one]; decide +kernel
  · change ∑ c ∈ Finset.range 3, (1 : ℚ) * _ = _
    rw [Finset.sum_range_succ, Finset.sum_range_succ, Finset.sum_range_one]; decide +kernel

end Verif.ImplicitStep
