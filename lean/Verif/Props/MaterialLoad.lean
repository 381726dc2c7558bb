import Verif.Model.MaterialLoad
import Verif.Spec.Elastic
import Verif.Props.Materials
import Mathlib.Data.List.Nodup
import Mathlib.Data.List.Range
import Mathlib.Algebra.Order.Ring.Unbundled.Rat
import Mathlib.Algebra.Field.Rat
import Mathlib.Tactic.Ring
import Mathlib.Tactic.FieldSimp
import Mathlib.Tactic.Linarith
import Mathlib.Tactic.LinearCombination
import Mathlib.Tactic.Positivity
import Mathlib.Tactic.NormNum

/-!
Property C74: materials, volume fractions and density read from a deck or a rock list.
-/

namespace Verif.Elastic

open Spec
open Verif.Upscale (quot)

variable {K : Type} [Field K] [LinearOrder K] [IsStrictOrderedRing K]

/-! ### Conversion of moduli -/

/-- C74: a Lamé modulus `l ≥ 0` and a shear modulus `g > 0` are turned into the Young's modulus and Poisson's ratio of the
material that satisfies Hooke's law with `l` and `g`. -/
theorem C74_lm (l g : K) (hl : 0 ≤ l) (hg : 0 < g) :
    ∃ E nu C, convLM l g = some (E, nu) ∧ 0 < E ∧ 0 ≤ nu ∧ nu < 1 / 2 ∧ isoC6 E nu false = (true, C) ∧ Hooke l g C := by
  have hs : 0 < l + g := by linarith
  obtain ⟨s, hsd⟩ : ∃ s, s = l + g := ⟨_, rfl⟩
  rw [← hsd] at hs
  have hgs : g = s - l := by rw [hsd]; ring
  have hnu0 : 0 ≤ 1 / 2 * l / s := div_nonneg (by linarith) hs.le
  have hnu1 : 1 / 2 * l / s < 1 / 2 := by
    rw [div_lt_iff₀ hs]
    linarith
  have h1 : g * (3 * l + 2 * g) / s * (1 / 2 * l / s) =
      l * ((1 + 1 / 2 * l / s) * (1 - 2 * (1 / 2 * l / s))) := by
    rw [hgs]
    field_simp
    ring
  have h2 : g * (3 * l + 2 * g) / s = g * (2 * (1 + 1 / 2 * l / s)) := by
    rw [hgs]
    field_simp
    ring
  obtain ⟨C, hC, hH⟩ := hooke_of _ _ l g hnu0 hnu1 h1 h2
  refine ⟨_, _, C, ?_, ?_, hnu0, hnu1, hC, hH⟩
  · unfold convLM quot
    rw [← hsd, if_neg hs.ne', if_neg hs.ne']
  · exact div_pos (mul_pos hg (by linarith)) hs

/-- C74: a bulk modulus `k` and a shear modulus `g > 0` with `2 g ≤ 3 k` are turned into the material with these moduli
(Lamé modulus `k - 2 g / 3`). -/
theorem C74_km (k g : K) (hg : 0 < g) (hk : 2 * g ≤ 3 * k) :
    ∃ E nu C, convKM k g = some (E, nu) ∧ 0 < E ∧ 0 ≤ nu ∧ nu < 1 / 2 ∧ isoC6 E nu false = (true, C) ∧
      Hooke (k - 2 / 3 * g) g C := by
  have hs : 0 < 3 * k + g := by linarith
  obtain ⟨s, hsd⟩ : ∃ s, s = 3 * k + g := ⟨_, rfl⟩
  rw [← hsd] at hs
  have hgs : g = s - 3 * k := by rw [hsd]; ring
  have hnu0 : 0 ≤ 1 / 2 * (3 * k - 2 * g) / s := div_nonneg (by linarith) hs.le
  have hnu1 : 1 / 2 * (3 * k - 2 * g) / s < 1 / 2 := by
    rw [div_lt_iff₀ hs]
    linarith
  have h1 : 9 * k * g / s * (1 / 2 * (3 * k - 2 * g) / s) =
      (k - 2 / 3 * g) * ((1 + 1 / 2 * (3 * k - 2 * g) / s) * (1 - 2 * (1 / 2 * (3 * k - 2 * g) / s))) := by
    rw [hgs]
    field_simp
    ring
  have h2 : 9 * k * g / s = g * (2 * (1 + 1 / 2 * (3 * k - 2 * g) / s)) := by
    rw [hgs]
    field_simp
    ring
  obtain ⟨C, hC, hH⟩ := hooke_of _ _ (k - 2 / 3 * g) g hnu0 hnu1 h1 h2
  refine ⟨_, _, C, ?_, ?_, hnu0, hnu1, hC, hH⟩
  · unfold convKM quot
    rw [← hsd, if_neg hs.ne', if_neg hs.ne']
  · exact div_pos (by nlinarith) hs

example : convLM (2 : ℚ) 1 = some (8 / 3, 1 / 3) ∧ convKM (8 / 3 : ℚ) 1 = some (8 / 3, 1 / 3) := by
  constructor <;> norm_num [convLM, convKM, quot]

theorem minElem_spec (l : List K) (m : K) (h : minElem l = some m) : m ∈ l ∧ ∀ x ∈ l, m ≤ x := by
  cases l with
  | nil => exact absurd h (by simp [minElem])
  | cons a l =>
    have : ∀ (l : List K) (a : K), (l.foldl min a = a ∨ l.foldl min a ∈ l) ∧ l.foldl min a ≤ a ∧ ∀ x ∈ l, l.foldl min a ≤ x := by
      intro l
      induction l with
      | nil => intro a; simp
      | cons b l ih =>
        intro a
        obtain ⟨h1, h2, h3⟩ := ih (min a b)
        rw [List.foldl_cons]
        refine ⟨?_, h2.trans (min_le_left _ _), ?_⟩
        · rcases h1 with h1 | h1
          · rw [h1]
            rcases min_choice a b with h | h
            · exact Or.inl h
            · right
              rw [h]
              exact List.mem_cons_self ..
          · exact Or.inr (List.mem_cons_of_mem _ h1)
        · intro x hx
          rcases List.mem_cons.mp hx with rfl | hx
          · exact h2.trans (min_le_right _ _)
          · exact h3 x hx
    obtain ⟨h1, h2, h3⟩ := this l a
    have hm : m = l.foldl min a := (Option.some.inj h).symm
    rw [hm]
    refine ⟨?_, ?_⟩
    · rcases h1 with h1 | h1
      · rw [h1]; exact List.mem_cons_self ..
      · exact List.mem_cons_of_mem _ h1
    · intro x hx
      rcases List.mem_cons.mp hx with rfl | hx
      · exact h2
      · exact h3 x hx

theorem convert_spec (f : K → K → Option (K × K)) (a b : List K) (r : List K × List K) (h : convert f a b = .ok r) :
    r.1.length = a.length ∧ r.2.length = a.length ∧
      ∀ (i : Nat) (x : K), a[i]? = some x → ∃ y E n, b[i]? = some y ∧ f x y = some (E, n) ∧ r.1[i]? = some E ∧ r.2[i]? = some n := by
  induction a generalizing b r with
  | nil =>
    rw [convert] at h
    cases h
    simp
  | cons x a ih =>
    cases b with
    | nil => rw [convert] at h; cases h
    | cons y b =>
      rw [convert] at h
      cases hf : f x y with
      | none => rw [hf] at h; cases h
      | some p =>
        rw [hf] at h
        dsimp only at h
        cases hc : convert f a b with
        | exit => rw [hc] at h; cases h
        | ub => rw [hc] at h; cases h
        | nan => rw [hc] at h; cases h
        | ok q =>
          rw [hc] at h
          cases h
          obtain ⟨h1, h2, h3⟩ := ih b q hc
          refine ⟨by simp [h1], by simp [h2], ?_⟩
          intro i z hz
          cases i with
          | zero =>
            rw [List.getElem?_cons_zero, Option.some.injEq] at hz
            subst hz
            exact ⟨y, p.1, p.2, rfl, hf, rfl, rfl⟩
          | succ i =>
            rw [List.getElem?_cons_succ] at hz
            exact h3 i z hz

/-- C74: accepted Lamé and shear moduli are converted cell by cell, and no accepted ratio is negative. -/
theorem C74_deck_lm (l g E nu : List K) (h : moduli (.lm l g) = .ok (E, nu)) :
    E.length = l.length ∧ nu.length = l.length ∧ (∀ n ∈ nu, 0 ≤ n) ∧
      ∀ (i : Nat) (x : K), l[i]? = some x → ∃ y e n, g[i]? = some y ∧ convLM x y = some (e, n) ∧ E[i]? = some e ∧ nu[i]? = some n := by
  replace h : (convert convLM l g).bind auxetic = .ok (E, nu) := h
  cases hc : convert convLM l g with
  | exit => rw [hc] at h; cases h
  | ub => rw [hc] at h; cases h
  | nan => rw [hc] at h; cases h
  | ok r =>
    rw [hc] at h
    replace h : auxetic r = .ok (E, nu) := h
    unfold auxetic at h
    cases hm : minElem r.2 with
    | none => rw [hm] at h; cases h
    | some m =>
      rw [hm] at h
      dsimp only at h
      by_cases hneg : m < 0
      · rw [if_pos hneg] at h; cases h
      · rw [if_neg hneg] at h
        cases h
        obtain ⟨h1, h2, h3⟩ := convert_spec _ _ _ _ hc
        exact ⟨h1, h2, fun n hn => le_trans (not_lt.mp hneg) ((minElem_spec _ _ hm).2 n hn), h3⟩

/-- C74: accepted bulk and shear moduli are converted cell by cell, and no accepted ratio is negative. -/
theorem C74_deck_km (k g E nu : List K) (h : moduli (.km k g) = .ok (E, nu)) :
    E.length = k.length ∧ nu.length = k.length ∧ (∀ n ∈ nu, 0 ≤ n) ∧
      ∀ (i : Nat) (x : K), k[i]? = some x → ∃ y e n, g[i]? = some y ∧ convKM x y = some (e, n) ∧ E[i]? = some e ∧ nu[i]? = some n := by
  replace h : (convert convKM k g).bind auxetic = .ok (E, nu) := h
  cases hc : convert convKM k g with
  | exit => rw [hc] at h; cases h
  | ub => rw [hc] at h; cases h
  | nan => rw [hc] at h; cases h
  | ok r =>
    rw [hc] at h
    replace h : auxetic r = .ok (E, nu) := h
    unfold auxetic at h
    cases hm : minElem r.2 with
    | none => rw [hm] at h; cases h
    | some m =>
      rw [hm] at h
      dsimp only at h
      by_cases hneg : m < 0
      · rw [if_pos hneg] at h; cases h
      · rw [if_neg hneg] at h
        cases h
        obtain ⟨h1, h2, h3⟩ := convert_spec _ _ _ _ hc
        exact ⟨h1, h2, fun n hn => le_trans (not_lt.mp hneg) ((minElem_spec _ _ hm).2 n hn), h3⟩

/-- C74: given Young's moduli and Poisson's ratios are taken as they are exactly if no ratio is negative, else the program
ends. -/
theorem C74_deck_en (E nu : List K) (hne : nu ≠ []) :
    ((∀ n ∈ nu, 0 ≤ n) ↔ moduli (.en E nu) = .ok (E, nu)) ∧ ((∃ n ∈ nu, n < 0) ↔ moduli (.en E nu) = .exit) := by
  obtain ⟨a, l, rfl⟩ := List.exists_cons_of_ne_nil hne
  have hm : minElem (a :: l) = some (l.foldl min a) := rfl
  obtain ⟨h1, h2⟩ := minElem_spec _ _ hm
  have he : moduli (.en E (a :: l)) = if l.foldl min a < 0 then .exit else .ok (E, a :: l) := rfl
  rw [he]
  by_cases hneg : l.foldl min a < 0
  · rw [if_pos hneg]
    refine ⟨⟨fun h => absurd (h _ h1) (not_le.mpr hneg), fun h => by cases h⟩, ⟨fun _ => rfl, fun _ => ⟨_, h1, hneg⟩⟩⟩
  · rw [if_neg hneg]
    refine ⟨⟨fun _ => rfl, fun _ n hn => (not_lt.mp hneg).trans (h2 n hn)⟩, ⟨?_, fun h => by cases h⟩⟩
    rintro ⟨n, hn, hlt⟩
    exact absurd ((not_lt.mp hneg).trans (h2 n hn)) (not_le.mpr hlt)

/-- C74: the remaining sources of moduli. Without a file every cell gets a Young's modulus of 100 and a Poisson's ratio of 0.38 (a stable material, neither auxetic nor
incompressible); permeability and porosity are taken as they are, without any check; with none of them in the deck the program ends. -/
theorem C74_deck_other (n : Nat) (p q : List K) :
    (∃ E nu : List K, moduli (.uniform n) = .ok (E, nu) ∧ E.length = n ∧ nu.length = n ∧ (∀ e ∈ E, e = 100) ∧ ∀ v ∈ nu, 100 * v = 38 ∧ 0 < v ∧ v < 1 / 2) ∧
    moduli (.permporo p q) = .ok (p, q) ∧ moduli (.missing : Moduli K) = .exit := by
  refine ⟨⟨List.replicate n 100, List.replicate n (38 / 100), rfl, by simp, by simp, fun e he => (List.mem_replicate.1 he).2, fun v hv => ?_⟩, rfl, rfl⟩
  rw [(List.mem_replicate.1 hv).2]
  norm_num

example : moduli (.uniform 2) = .ok ([(100 : ℚ), 100], [38 / 100, 38 / 100]) := rfl

/-! ### Materials of the cells -/

/-- Volume of the cells with number `j`. -/
def bucket (l : List (K × Nat)) (j : Nat) : K := ((l.filter fun p => p.2 = j).map Prod.fst).sum

theorem sum_ite_range (n a : Nat) (x : K) : ((List.range n).map fun j => if a = j then x else 0).sum = if a < n then x else 0 := by
  induction n with
  | zero => simp
  | succ n ih =>
    rw [List.range_succ, List.map_append, List.sum_append, ih, List.map_singleton, List.sum_singleton]
    by_cases h1 : a < n
    · rw [if_pos h1, if_neg (by omega), if_pos (by omega), add_zero]
    · rw [if_neg h1, zero_add]
      by_cases h2 : a = n
      · rw [if_pos h2, if_pos (by omega)]
      · rw [if_neg h2, if_neg (by omega)]

theorem bucket_cons (p : K × Nat) (l : List (K × Nat)) (j : Nat) :
    bucket (p :: l) j = (if p.2 = j then p.1 else 0) + bucket l j := by
  unfold bucket
  rw [List.filter_cons]
  by_cases h : p.2 = j
  · rw [if_pos (by simpa using h), if_pos h, List.map_cons, List.sum_cons]
  · rw [if_neg (by simpa using h), if_neg h, zero_add]

theorem bucket_append (l m : List (K × Nat)) (j : Nat) : bucket (l ++ m) j = bucket l j + bucket m j := by
  unfold bucket
  rw [List.filter_append, List.map_append, List.sum_append]

theorem bucket_sum (l : List (K × Nat)) (n : Nat) (h : ∀ p ∈ l, p.2 < n) :
    ((List.range n).map (bucket l)).sum = (l.map Prod.fst).sum := by
  induction l with
  | nil =>
    have e : (List.range n).map (bucket ([] : List (K × Nat))) = (List.range n).map fun _ => 0 :=
      List.map_congr_left fun j _ => rfl
    rw [e]
    simp
  | cons p l ih =>
    have e : (List.range n).map (bucket (p :: l)) = (List.range n).map fun j => (if p.2 = j then p.1 else 0) + bucket l j :=
      List.map_congr_left fun j _ => bucket_cons p l j
    rw [e, List.sum_map_add, sum_ite_range, if_pos (h p (List.mem_cons_self ..)),
      ih fun q hq => h q (List.mem_cons_of_mem _ hq), List.map_cons, List.sum_cons]

theorem bucket_zero (l : List (K × Nat)) (j : Nat) (h : ∀ p ∈ l, p.2 ≠ j) : bucket l j = 0 := by
  unfold bucket
  rw [List.filter_eq_nil_iff.mpr]
  · rfl
  · intro p hp
    simpa using h p hp

/-- Invariant of the loop over cells. -/
structure CellInv (Emod nu : List K) (s : Cells K) (done : List (Nat × K)) : Prop where
  len : s.mats.length = done.length
  asg : ∀ (i k : Nat) (v : K), done[i]? = some (k, v) → ∃ id E n, s.mats[i]? = some id ∧ Emod[k]? = some E ∧
    nu[k]? = some n ∧ s.cache[id]? = some (E, n)
  nd : s.cache.Nodup
  vol : ∀ j, s.vol j = bucket ((done.map Prod.snd).zip s.mats) j
  lt : ∀ id ∈ s.mats, id < s.cache.length

theorem cellInv_step (Emod nu : List K) (s t : Cells K) (done : List (Nat × K)) (c : Nat × K)
    (hI : CellInv Emod nu s done) (h : cellStep Emod nu s c = some t) : CellInv Emod nu t (done ++ [c]) := by
  unfold cellStep at h
  cases hE : Emod[c.1]? with
  | none => rw [hE] at h; cases h
  | some E =>
    cases hn : nu[c.1]? with
    | none => rw [hE, hn] at h; cases h
    | some n =>
      rw [hE, hn] at h
      dsimp only at h
      have hzip : ∀ id, ((done ++ [c]).map Prod.snd).zip (s.mats ++ [id]) =
          (done.map Prod.snd).zip s.mats ++ [(c.2, id)] := by
        intro id
        rw [List.map_append, List.zip_append (by rw [List.length_map, hI.len])]
        rfl
      by_cases hid : (s.cache.findIdx fun p => decide (p.1 = E ∧ p.2 = n)) < s.cache.length
      · rw [if_pos hid] at h
        have ht := (Option.some.inj h).symm
        generalize hg : (s.cache.findIdx fun p => decide (p.1 = E ∧ p.2 = n)) = id at hid ht
        have hget : s.cache[id]? = some (E, n) := by
          have := List.findIdx_getElem (w := by rw [hg]; exact hid) (xs := s.cache) (p := fun p => decide (p.1 = E ∧ p.2 = n))
          simp only [hg, decide_eq_true_eq] at this
          rw [List.getElem?_eq_getElem hid]
          exact congrArg some (Prod.ext this.1 this.2)
        rw [ht]
        refine ⟨?_, ?_, hI.nd, ?_, ?_⟩
        · rw [List.length_append, List.length_append, hI.len]
          rfl
        · intro i k v hi
          dsimp only
          by_cases hlt : i < done.length
          · rw [List.getElem?_append_left hlt] at hi
            obtain ⟨id', E', n', h1, h2, h3, h4⟩ := hI.asg i k v hi
            exact ⟨id', E', n', by rw [List.getElem?_append_left (by rw [hI.len]; exact hlt)]; exact h1, h2, h3, h4⟩
          · have hle : i = done.length := by
              obtain ⟨hh, -⟩ := List.getElem?_eq_some_iff.mp hi
              rw [List.length_append, List.length_singleton] at hh
              omega
            subst hle
            rw [List.getElem?_append_right (le_refl _), Nat.sub_self, List.getElem?_cons_zero, Option.some.injEq] at hi
            refine ⟨id, E, n, ?_, ?_, ?_, hget⟩
            · rw [← hI.len, List.getElem?_append_right (le_refl _), Nat.sub_self]
              rfl
            · rw [hi] at hE; exact hE
            · rw [hi] at hn; exact hn
        · intro j
          dsimp only
          rw [hzip, bucket_append, bucket_cons, ← hI.vol]
          show _ = _ + ((if id = j then c.2 else 0) + 0)
          by_cases hj : j = id
          · rw [if_pos hj, if_pos hj.symm, add_zero]
          · rw [if_neg hj, if_neg (fun hh => hj hh.symm), add_zero, add_zero]
        · intro x hx
          dsimp only at hx ⊢
          rcases List.mem_append.mp hx with hx | hx
          · exact hI.lt x hx
          · rw [List.mem_singleton.mp hx]
            exact hid
      · rw [if_neg hid] at h
        have ht := (Option.some.inj h).symm
        rw [ht]
        have hnew : (E, n) ∉ s.cache := by
          intro hc
          apply hid
          rw [List.findIdx_lt_length]
          exact ⟨_, hc, by simp⟩
        refine ⟨?_, ?_, ?_, ?_, ?_⟩
        · rw [List.length_append, List.length_append, hI.len]
          rfl
        · intro i k v hi
          dsimp only
          by_cases hlt : i < done.length
          · rw [List.getElem?_append_left hlt] at hi
            obtain ⟨id', E', n', h1, h2, h3, h4⟩ := hI.asg i k v hi
            refine ⟨id', E', n', by rw [List.getElem?_append_left (by rw [hI.len]; exact hlt)]; exact h1, h2, h3, ?_⟩
            rw [List.getElem?_append_left (hI.lt id' (List.mem_of_getElem? h1))]
            exact h4
          · have hle : i = done.length := by
              obtain ⟨hh, -⟩ := List.getElem?_eq_some_iff.mp hi
              rw [List.length_append, List.length_singleton] at hh
              omega
            subst hle
            rw [List.getElem?_append_right (le_refl _), Nat.sub_self, List.getElem?_cons_zero, Option.some.injEq] at hi
            refine ⟨s.cache.length, E, n, ?_, ?_, ?_, ?_⟩
            · rw [← hI.len, List.getElem?_append_right (le_refl _), Nat.sub_self]
              rfl
            · rw [hi] at hE; exact hE
            · rw [hi] at hn; exact hn
            · rw [List.getElem?_append_right (le_refl _), Nat.sub_self]
              rfl
        · dsimp only
          rw [List.nodup_append]
          refine ⟨hI.nd, List.nodup_singleton _, ?_⟩
          intro a ha b hb
          rw [List.mem_singleton.mp hb]
          intro hc
          exact hnew (hc ▸ ha)
        · intro j
          dsimp only
          rw [hzip, bucket_append, bucket_cons]
          show _ = _ + ((if s.cache.length = j then c.2 else 0) + 0)
          by_cases hj : j = s.cache.length
          · rw [if_pos hj, if_pos hj.symm, add_zero, bucket_zero, zero_add]
            intro p hp hpj
            have := hI.lt p.2 (List.of_mem_zip (a := p.1) (b := p.2) hp).2
            omega
          · rw [if_neg hj, if_neg (fun hh => hj hh.symm), add_zero, add_zero, hI.vol]
        · intro x hx
          dsimp only at hx ⊢
          rw [List.length_append, List.length_singleton]
          rcases List.mem_append.mp hx with hx | hx
          · have := hI.lt x hx
            omega
          · rw [List.mem_singleton.mp hx]
            omega

theorem cellInv_loop (Emod nu : List K) (rest done : List (Nat × K)) (s t : Cells K) (hI : CellInv Emod nu s done)
    (h : rest.foldlM (cellStep Emod nu) s = some t) : CellInv Emod nu t (done ++ rest) := by
  induction rest generalizing s done with
  | nil =>
    rw [List.foldlM_nil] at h
    have := Option.some.inj h
    rw [← this, List.append_nil]
    exact hI
  | cons c rest ih =>
    rw [List.foldlM_cons] at h
    cases hs : cellStep Emod nu s c with
    | none => rw [hs] at h; cases h
    | some s' =>
      rw [hs] at h
      have := ih (done ++ [c]) s' (cellInv_step Emod nu s s' done c hI hs) h
      rwa [List.append_assoc] at this

theorem cellInv_final (Emod nu : List K) (cells : List (Nat × K)) (s : Cells K) (h : cellLoop Emod nu cells = some s) :
    CellInv Emod nu s cells := by
  have h0 : CellInv Emod nu (⟨[], [], fun _ => 0⟩ : Cells K) [] :=
    ⟨rfl, by intro i k v hi; simp at hi, List.nodup_nil, fun j => rfl, by intro id hid; cases hid⟩
  have := cellInv_loop Emod nu cells [] _ s h0 h
  rwa [List.nil_append] at this

theorem total_eq (Emod nu : List K) (cells : List (Nat × K)) (s : Cells K) (h : cellLoop Emod nu cells = some s) :
    totalVolume s = (cells.map Prod.snd).sum := by
  have hI := cellInv_final Emod nu cells s h
  unfold totalVolume
  have e : (List.range s.cache.length).map s.vol =
      (List.range s.cache.length).map (bucket ((cells.map Prod.snd).zip s.mats)) :=
    List.map_congr_left fun j _ => hI.vol j
  rw [e, bucket_sum]
  · rw [List.map_fst_zip]
    rw [List.length_map, hI.len]
  · intro p hp
    exact hI.lt p.2 (List.of_mem_zip (a := p.1) (b := p.2) hp).2

/-- The parts of a successful call. -/
theorem loadGrid_ok (Escale Emin0 : K) (mods : Moduli K) (satnum : List Int) (rho : List K) (cells : List (Nat × K))
    (r : Loaded K) (h : loadGrid Escale Emin0 mods satnum rho cells = .ok r) :
    ∃ E nu Es s, moduli mods = .ok (E, nu) ∧ scaleE Escale Emin0 E = .ok (Es, r.Emin) ∧ cellLoop Es nu cells = some s ∧
      r.mats = s.mats ∧ r.table = s.cache ∧
      (if satnum = [] then divAll ((List.range s.cache.length).map s.vol) (totalVolume s)
        else (Out.ofOpt (cells.foldlM (satStep satnum) [])).bind fun vf => divAll vf (totalVolume s)) = .ok r.fractions ∧
      (if rho = [] then .ok (-1)
        else (Out.ofOpt (cells.foldlM (rhoStep rho) (-1))).bind fun m =>
          if m > 0 then (if totalVolume s = 0 then .nan else .ok (m / totalVolume s)) else .ok m) = .ok r.rho := by
  have bind_ok : ∀ {α β : Type} (o : Out α) (f : α → Out β) (b : β), o.bind f = .ok b → ∃ a, o = .ok a ∧ f a = .ok b := by
    intro α β o f b hb
    cases o with
    | exit => cases hb
    | ub => cases hb
    | nan => cases hb
    | ok a => exact ⟨a, rfl, hb⟩
  unfold loadGrid at h
  obtain ⟨EN, h1, h⟩ := bind_ok _ _ _ h
  obtain ⟨Es, h2, h⟩ := bind_ok _ _ _ h
  obtain ⟨s, h3, h⟩ := bind_ok _ _ _ h
  obtain ⟨fr, h4, h⟩ := bind_ok _ _ _ h
  obtain ⟨rr, h5, h⟩ := bind_ok _ _ _ h
  cases h
  refine ⟨EN.1, EN.2, Es.1, s, h1, h2, ?_, rfl, rfl, h4, h5⟩
  cases hc : cellLoop Es.1 EN.2 cells with
  | none => rw [hc] at h3; cases h3
  | some s' =>
    rw [hc] at h3
    cases h3
    rfl

/-- C74: every active cell gets the material with the (scaled) Young's modulus and the Poisson's ratio of its deck cell, and no
two materials are equal. With scaling the smallest modulus of the deck becomes the requested one. -/
theorem C74_cells (Escale Emin0 : K) (mods : Moduli K) (satnum : List Int) (rho : List K) (cells : List (Nat × K))
    (r : Loaded K) (h : loadGrid Escale Emin0 mods satnum rho cells = .ok r) :
    ∃ E nu, moduli mods = .ok (E, nu) ∧ r.mats.length = cells.length ∧ r.table.Nodup ∧
      (0 < Escale → r.Emin ∈ E ∧ ∀ e ∈ E, r.Emin ≤ e) ∧
      ∀ (i k : Nat) (v : K), cells[i]? = some (k, v) → ∃ id e n, r.mats[i]? = some id ∧ E[k]? = some e ∧ nu[k]? = some n ∧
        r.table[id]? = some (if 0 < Escale then e * (Escale / r.Emin) else e, n) := by
  obtain ⟨E, nu, Es, s, h1, h2, h3, h4, h5, -, -⟩ := loadGrid_ok _ _ _ _ _ _ _ h
  have hI := cellInv_final Es nu cells s h3
  refine ⟨E, nu, h1, by rw [h4, hI.len], by rw [h5]; exact hI.nd, ?_, ?_⟩
  · intro hs
    unfold scaleE at h2
    rw [if_pos hs] at h2
    cases hm : minElem E with
    | none => rw [hm] at h2; cases h2
    | some m =>
      rw [hm] at h2
      dsimp only at h2
      by_cases h0 : m = 0
      · rw [if_pos h0] at h2; cases h2
      · rw [if_neg h0, Out.ok.injEq, Prod.mk.injEq] at h2
        rw [← h2.2]
        exact minElem_spec _ _ hm
  · intro i k v hi
    obtain ⟨id, e', n, g1, g2, g3, g4⟩ := hI.asg i k v hi
    unfold scaleE at h2
    by_cases hs : Escale > 0
    · rw [if_pos hs] at h2
      cases hm : minElem E with
      | none => rw [hm] at h2; cases h2
      | some m =>
        rw [hm] at h2
        dsimp only at h2
        by_cases h0 : m = 0
        · rw [if_pos h0] at h2; cases h2
        · rw [if_neg h0, Out.ok.injEq, Prod.mk.injEq] at h2
          rw [← h2.1, List.getElem?_map] at g2
          cases he : E[k]? with
          | none => rw [he] at g2; cases g2
          | some e =>
            rw [he] at g2
            refine ⟨id, e, n, by rw [h4]; exact g1, rfl, g3, ?_⟩
            rw [h5, g4, if_pos hs, ← h2.2, ← Option.some.inj g2]
    · rw [if_neg hs, Out.ok.injEq, Prod.mk.injEq] at h2
      rw [← h2.1] at g2
      exact ⟨id, e', n, by rw [h4]; exact g1, g2, g3, by rw [h5, g4, if_neg hs]⟩

theorem divAll_ok (l : List K) (v : K) (r : List K) (h : divAll l v = .ok r) : v ≠ 0 ∧ r = l.map fun x => x / v := by
  unfold divAll at h
  by_cases h0 : v = 0
  · rw [if_pos h0] at h; cases h
  · rw [if_neg h0] at h
    cases h
    exact ⟨h0, rfl⟩

theorem sum_div_list (l : List K) (v : K) : (l.map fun x => x / v).sum = l.sum / v := by
  induction l with
  | nil => simp
  | cons a l ih => rw [List.map_cons, List.sum_cons, List.sum_cons, ih, add_div]

/-- C74: without saturation regions there is one volume fraction per material, the volume of the cells assigned to it over the
total volume; the fractions sum to one. -/
theorem C74_fractions (Escale Emin0 : K) (mods : Moduli K) (rho : List K) (cells : List (Nat × K))
    (r : Loaded K) (h : loadGrid Escale Emin0 mods [] rho cells = .ok r) :
    r.fractions.length = r.table.length ∧ r.fractions.sum = 1 ∧
      ∀ (j : Nat) (f : K), r.fractions[j]? = some f →
        f * (cells.map Prod.snd).sum = ((((cells.map Prod.snd).zip r.mats).filter fun p => p.2 = j).map Prod.fst).sum := by
  obtain ⟨E, nu, Es, s, h1, h2, h3, h4, h5, h6, -⟩ := loadGrid_ok _ _ _ _ _ _ _ h
  have hI := cellInv_final Es nu cells s h3
  rw [if_pos rfl] at h6
  obtain ⟨hv, hf⟩ := divAll_ok _ _ _ h6
  refine ⟨?_, ?_, ?_⟩
  · rw [hf, h5]
    simp
  · rw [hf, sum_div_list]
    exact div_self hv
  · intro j f hj
    rw [hf, List.getElem?_map, List.getElem?_map] at hj
    cases hr : (List.range s.cache.length)[j]? with
    | none => rw [hr] at hj; cases hj
    | some j' =>
      have : j' = j := by
        obtain ⟨hlt, he⟩ := List.getElem?_eq_some_iff.mp hr
        rw [List.getElem_range] at he
        exact he.symm
      subst this
      rw [hr] at hj
      have := Option.some.inj hj
      dsimp only at this
      rw [← this, ← total_eq Es nu cells s h3, div_mul_cancel₀ _ hv, hI.vol, h4]
      rfl

/-! ### Saturation regions -/

theorem satStep_spec (satnum : List Int) (vf vf' : List K) (c : Nat × K) (h : satStep satnum vf c = some vf') :
    ∃ n : Nat, satnum[c.1]? = some ((n : Int) + 1) ∧ n < vf'.length ∧ vf.length ≤ vf'.length ∧ vf'.sum = vf.sum + c.2 ∧
      ∀ j, vf'.getD j 0 = vf.getD j 0 + if j = n then c.2 else 0 := by
  unfold satStep at h
  cases hs : satnum[c.1]? with
  | none => rw [hs] at h; cases h
  | some z =>
    rw [hs] at h
    dsimp only at h
    by_cases h1 : z < 1
    · rw [if_pos h1] at h; cases h
    · rw [if_neg h1] at h
      obtain ⟨n, rfl⟩ : ∃ n : Nat, z = (n : Int) + 1 := ⟨(z - 1).toNat, by omega⟩
      have hn : ((n : Int) + 1).toNat = n + 1 := by omega
      rw [hn, Nat.add_sub_cancel] at h
      -- the enlarged vector
      obtain ⟨w, hw⟩ : ∃ w, w = if (n : Int) + 1 > (vf.length : Int) then resize vf (n + 1) else vf := ⟨_, rfl⟩
      rw [← hw] at h
      have hwlen : n < w.length ∧ vf.length ≤ w.length := by
        rw [hw]
        by_cases hg : (n : Int) + 1 > (vf.length : Int)
        · rw [if_pos hg]
          unfold resize
          rw [List.length_append, List.length_replicate]
          omega
        · rw [if_neg hg]
          omega
      have hwget : ∀ j, w.getD j 0 = vf.getD j 0 := by
        intro j
        rw [hw]
        by_cases hg : (n : Int) + 1 > (vf.length : Int)
        · rw [if_pos hg]
          unfold resize
          rw [List.getD_eq_getElem?_getD, List.getD_eq_getElem?_getD]
          by_cases hj : j < vf.length
          · rw [List.getElem?_append_left hj]
          · rw [List.getElem?_append_right (by omega), List.getElem?_replicate, List.getElem?_eq_none (by omega)]
            by_cases hx : j - vf.length < n + 1 - vf.length
            · rw [if_pos hx]; rfl
            · rw [if_neg hx]
        · rw [if_neg hg]
      have hwsum : w.sum = vf.sum := by
        rw [hw]
        by_cases hg : (n : Int) + 1 > (vf.length : Int)
        · rw [if_pos hg]
          unfold resize
          rw [List.sum_append, List.sum_replicate, smul_zero, add_zero]
        · rw [if_neg hg]
      have hmod : ∀ (w : List K) (n : Nat), n < w.length → (w.modify n fun x => x + c.2).sum = w.sum + c.2 := by
        intro w
        induction w with
        | nil => intro n hn; simp at hn
        | cons a w ih =>
          intro n hn
          cases n with
          | zero =>
            rw [List.modify_zero_cons, List.sum_cons, List.sum_cons]
            ring
          | succ n =>
            rw [List.modify_succ_cons, List.sum_cons, List.sum_cons, ih n (by simpa using hn), add_assoc]
      have hv := Option.some.inj h
      refine ⟨n, rfl, ?_, ?_, ?_, ?_⟩
      · rw [← hv, List.length_modify]
        exact hwlen.1
      · rw [← hv, List.length_modify]
        exact hwlen.2
      · rw [← hv, hmod w n hwlen.1, hwsum]
      · intro j
        rw [← hv, List.getD_eq_getElem?_getD, List.getElem?_modify]
        have hx := hwget j
        rw [List.getD_eq_getElem?_getD] at hx
        by_cases hj : n = j
        · subst hj
          rw [← hx, List.getElem?_eq_getElem hwlen.1, if_pos rfl]
          simp
        · rw [if_neg (fun hh => hj hh.symm), add_zero, ← hx]
          simp only [if_neg hj]
          cases w[j]? <;> rfl

theorem satLoop_spec (satnum : List Int) (cells : List (Nat × K)) (vf vf' : List K)
    (h : cells.foldlM (satStep satnum) vf = some vf') :
    vf.length ≤ vf'.length ∧ vf'.sum = vf.sum + (cells.map Prod.snd).sum ∧
      (∀ c ∈ cells, ∃ n : Nat, satnum[c.1]? = some ((n : Int) + 1) ∧ n < vf'.length) ∧
      ∀ j : Nat, vf'.getD j 0 = vf.getD j 0 +
        ((cells.filter fun c => satnum[c.1]? = some ((j : Int) + 1)).map Prod.snd).sum := by
  induction cells generalizing vf with
  | nil =>
    rw [List.foldlM_nil] at h
    have := Option.some.inj h
    subst this
    simp
  | cons c cells ih =>
    rw [List.foldlM_cons] at h
    cases hs : satStep satnum vf c with
    | none => rw [hs] at h; cases h
    | some w =>
      rw [hs] at h
      obtain ⟨i1, i2, i3, i4⟩ := ih w h
      obtain ⟨n, n1, n2, n3, n4, n5⟩ := satStep_spec satnum vf w c hs
      refine ⟨n3.trans i1, ?_, ?_, ?_⟩
      · rw [i2, n4, List.map_cons, List.sum_cons, add_assoc]
      · intro d hd
        rcases List.mem_cons.mp hd with rfl | hd
        · exact ⟨n, n1, lt_of_lt_of_le n2 i1⟩
        · exact i3 d hd
      · intro j
        rw [i4, n5, List.filter_cons]
        by_cases hj : j = n
        · subst hj
          rw [if_pos rfl, if_pos (by simpa using n1), List.map_cons, List.sum_cons, add_assoc]
        · rw [if_neg hj, if_neg, add_zero]
          simp only [decide_eq_true_eq]
          rw [n1]
          intro hc
          have := Option.some.inj hc
          omega

/-- C74: with saturation regions, fraction number `j` is the volume of the cells in region `j + 1` over the total volume; all
active cells have a region from 1 up to the number of fractions, and the fractions sum to one. -/
theorem C74_satnum (Escale Emin0 : K) (mods : Moduli K) (satnum : List Int) (rho : List K) (cells : List (Nat × K))
    (r : Loaded K) (hne : satnum ≠ []) (h : loadGrid Escale Emin0 mods satnum rho cells = .ok r) :
    r.fractions.sum = 1 ∧ (∀ c ∈ cells, ∃ n : Nat, satnum[c.1]? = some ((n : Int) + 1) ∧ n < r.fractions.length) ∧
      ∀ (j : Nat) (f : K), r.fractions[j]? = some f → f * (cells.map Prod.snd).sum =
        ((cells.filter fun c => satnum[c.1]? = some ((j : Int) + 1)).map Prod.snd).sum := by
  obtain ⟨E, nu, Es, s, h1, h2, h3, h4, h5, h6, -⟩ := loadGrid_ok _ _ _ _ _ _ _ h
  rw [if_neg hne] at h6
  cases hl : cells.foldlM (satStep satnum) ([] : List K) with
  | none => rw [hl] at h6; cases h6
  | some vf =>
    rw [hl] at h6
    replace h6 : divAll vf (totalVolume s) = .ok r.fractions := h6
    obtain ⟨hv, hf⟩ := divAll_ok _ _ _ h6
    obtain ⟨-, i2, i3, i4⟩ := satLoop_spec satnum cells [] vf hl
    rw [List.sum_nil, zero_add] at i2
    rw [total_eq Es nu cells s h3] at hv hf
    refine ⟨?_, ?_, ?_⟩
    · rw [hf, sum_div_list, i2, div_self hv]
    · rw [hf, List.length_map]
      exact i3
    · intro j f hj
      rw [hf, List.getElem?_map] at hj
      cases hx : vf[j]? with
      | none => rw [hx] at hj; cases hj
      | some x =>
        rw [hx] at hj
        have := Option.some.inj hj
        rw [← this, div_mul_cancel₀ _ hv]
        have e := i4 j
        rw [List.getD_eq_getElem?_getD, hx] at e
        simpa using e

/-! ### Density -/

theorem rho_fold (rho : List K) (cells : List (Nat × K)) (m m' : K) (h : cells.foldlM (rhoStep rho) m = some m') :
    m' = m + (cells.map fun c => c.2 * rho.getD c.1 0).sum := by
  induction cells generalizing m with
  | nil =>
    rw [List.foldlM_nil] at h
    rw [← Option.some.inj h]
    simp
  | cons c cells ih =>
    rw [List.foldlM_cons] at h
    unfold rhoStep at h
    cases hr : rho[c.1]? with
    | none => rw [hr] at h; cases h
    | some x =>
      rw [hr] at h
      have := ih (m + c.2 * x) h
      rw [this, List.map_cons, List.sum_cons, List.getD_eq_getElem?_getD, hr]
      show _ = m + (c.2 * x + _)
      ring

/-- C74, what the code computes: the mass of the cells **minus one**, over the volume. Missing: the density should be the volume
average, mass over volume; see `C74_violated_density`. -/
theorem C74_density_partial (Escale Emin0 : K) (mods : Moduli K) (satnum : List Int) (rho : List K) (cells : List (Nat × K))
    (r : Loaded K) (hne : rho ≠ []) (h : loadGrid Escale Emin0 mods satnum rho cells = .ok r)
    (hpos : 1 < (cells.map fun c => c.2 * rho.getD c.1 0).sum) :
    r.rho * (cells.map Prod.snd).sum = (cells.map fun c => c.2 * rho.getD c.1 0).sum - 1 := by
  obtain ⟨E, nu, Es, s, h1, h2, h3, h4, h5, -, h6⟩ := loadGrid_ok _ _ _ _ _ _ _ h
  rw [if_neg hne] at h6
  cases hl : cells.foldlM (rhoStep rho) (-1) with
  | none => rw [hl] at h6; cases h6
  | some m =>
    rw [hl] at h6
    have hm := rho_fold rho cells (-1) m hl
    replace h6 : (if m > 0 then (if totalVolume s = 0 then Out.nan else .ok (m / totalVolume s)) else .ok m) = .ok r.rho := h6
    rw [if_pos (by rw [hm]; linarith)] at h6
    by_cases hv : totalVolume s = 0
    · rw [if_pos hv] at h6; cases h6
    · rw [if_neg hv, Out.ok.injEq] at h6
      rw [← h6, ← total_eq Es nu cells s h3, div_mul_cancel₀ _ hv, hm]
      ring

/-- Was the call a success with a property of the result? -/
def okAnd (o : Out (Loaded ℚ)) (f : Loaded ℚ → Bool) : Bool :=
  match o with
  | .ok r => f r
  | _ => false

/-- A single cell of volume one and density 1000 has the upscaled density 999; with density one half it has -1/2, with
volume two and density one quarter also (mass not divided by the volume). -/
theorem C74_violated_density :
    okAnd (loadGrid 0 0 (.en [5] [1 / 4]) [] [1000] [(0, 1)]) (fun r => r.rho == 999) = true ∧
    okAnd (loadGrid 0 0 (.en [5] [1 / 4]) [] [1 / 4] [(0, 2)]) (fun r => r.rho == -1 / 2) = true := by
  decide +kernel

/-- A ratio of one half, for which there is no constitutive matrix, is accepted; so is a negative ratio given as porosity. -/
theorem C74_violated_ratio :
    okAnd (loadGrid 0 0 (.en [5] [1 / 2]) [] [] [(0, 1)]) (fun r => r.table == [(5, 1 / 2)]) = true ∧
    okAnd (loadGrid 0 0 (.permporo [5] [-1]) [] [] [(0, 1)]) (fun r => r.table == [(5, -1)]) = true := by
  decide +kernel

/-- Saturation region zero is undefined behaviour in both loaders. -/
theorem C74_violated_region_zero (v : K) :
    (satStep [0] ([] : List K) (0, v) = none) ∧
    loadRocks [0] 1 [(0, v)] = .ub := by
  constructor
  · simp [satStep]
  · simp [loadRocks, rockLoop, rockStep, Out.bind]

example : okAnd (loadGrid 10 0 (.lm [2, 2, 4] [1, 1, 2]) [2, 1, 2] [3, 3, 3] [(0, 1), (2, 2), (1, 1)])
    (fun r => r.mats == [0, 1, 0] && r.table == [(10, 1 / 3), (20, 1 / 3)] && r.fractions == [1 / 4, 3 / 4] && r.Emin == 8 / 3) = true := by
  decide +kernel

/-! ### Rock lists -/

theorem rockLoop_spec (satnum : List Int) (n : Nat) (cells : List (Nat × K)) (s t : List Nat × (Nat → K))
    (h : rockLoop satnum n s cells = .ok t) :
    ∃ m : List Nat, t.1 = s.1 ++ m ∧ m.length = cells.length ∧ (∀ j ∈ m, j < n) ∧
      (∀ (i k : Nat) (v : K), cells[i]? = some (k, v) → ∃ j : Nat, m[i]? = some j ∧ satnum[k]? = some ((j : Int) + 1)) ∧
      ∀ j, t.2 j = s.2 j + bucket ((cells.map Prod.snd).zip m) j := by
  induction cells generalizing s with
  | nil =>
    rw [rockLoop] at h
    cases h
    refine ⟨[], by simp, rfl, by simp, by intro i k v hi; simp at hi, fun j => ?_⟩
    exact (add_zero _).symm
  | cons c cells ih =>
    rw [rockLoop] at h
    unfold rockStep at h
    cases hs : satnum[c.1]? with
    | none => rw [hs] at h; cases h
    | some z =>
      rw [hs] at h
      dsimp only at h
      by_cases h1 : z - 1 ≥ (n : Int)
      · rw [if_pos h1] at h; cases h
      · rw [if_neg h1] at h
        by_cases h2 : z < 1
        · rw [if_pos h2] at h; cases h
        · rw [if_neg h2] at h
          obtain ⟨w, hw⟩ : ∃ w : Nat, (z - 1).toNat = w := ⟨_, rfl⟩
          rw [hw] at h
          have hz : z = (w : Int) + 1 := by omega
          obtain ⟨m, e1, e2, e3, e4, e5⟩ := ih _ h
          refine ⟨w :: m, ?_, ?_, ?_, ?_, ?_⟩
          · rw [e1, List.append_assoc]
            rfl
          · rw [List.length_cons, List.length_cons, e2]
          · intro j hj
            rcases List.mem_cons.mp hj with rfl | hj
            · omega
            · exact e3 j hj
          · intro i k v hi
            cases i with
            | zero =>
              rw [List.getElem?_cons_zero, Option.some.injEq] at hi
              rw [hi] at hs
              exact ⟨w, rfl, by rw [hs, hz]⟩
            | succ i =>
              rw [List.getElem?_cons_succ] at hi
              exact e4 i k v hi
          · intro j
            rw [e5, List.map_cons, List.zip_cons_cons, bucket_cons]
            dsimp only
            by_cases hj : j = w
            · rw [if_pos hj, if_pos hj.symm, add_assoc]
            · rw [if_neg hj, if_neg (fun hh => hj hh.symm), zero_add]

/-- C74: with a rock list every active cell gets the rock with the number of its region, and the volume fractions are those of
the rocks; they sum to one. -/
theorem C74_rocks (satnum : List Int) (n : Nat) (hn : 0 < n) (cells : List (Nat × K)) (mats : List Nat) (fr : List K)
    (h : loadRocks satnum n cells = .ok (mats, fr)) :
    mats.length = cells.length ∧
      (∀ (i k : Nat) (v : K), cells[i]? = some (k, v) → ∃ j : Nat, mats[i]? = some j ∧ j < n ∧ satnum[k]? = some ((j : Int) + 1)) ∧
      fr.length = n ∧ fr.sum = 1 ∧ ∀ (j : Nat) (f : K), fr[j]? = some f → f * (cells.map Prod.snd).sum =
        ((((cells.map Prod.snd).zip mats).filter fun p => p.2 = j).map Prod.fst).sum := by
  unfold loadRocks at h
  cases hl : rockLoop satnum n ([], fun _ => (0 : K)) cells with
  | exit => rw [hl] at h; cases h
  | ub => rw [hl] at h; cases h
  | nan => rw [hl] at h; cases h
  | ok s =>
    rw [hl] at h
    replace h : (if n = 0 then Out.ok (s.1, []) else (divAll ((List.range n).map s.2) ((List.range n).map s.2).sum).bind
      fun fr => .ok (s.1, fr)) = .ok (mats, fr) := h
    rw [if_neg (by omega)] at h
    cases hd : divAll ((List.range n).map s.2) ((List.range n).map s.2).sum with
    | exit => rw [hd] at h; cases h
    | ub => rw [hd] at h; cases h
    | nan => rw [hd] at h; cases h
    | ok f =>
      rw [hd] at h
      replace h : Out.ok (s.1, f) = .ok (mats, fr) := h
      rw [Out.ok.injEq, Prod.mk.injEq] at h
      obtain ⟨h1, h2⟩ := h
      subst h1 h2
      obtain ⟨m, e1, e2, e3, e4, e5⟩ := rockLoop_spec satnum n cells _ s hl
      rw [List.nil_append] at e1
      obtain ⟨hv, hf⟩ := divAll_ok _ _ _ hd
      have etot : ((List.range n).map s.2).sum = (cells.map Prod.snd).sum := by
        have e : (List.range n).map s.2 = (List.range n).map (bucket ((cells.map Prod.snd).zip m)) :=
          List.map_congr_left fun j _ => by rw [e5, zero_add]
        rw [e, bucket_sum]
        · rw [List.map_fst_zip]
          rw [List.length_map, e2]
        · intro p hp
          exact e3 p.2 (List.of_mem_zip (a := p.1) (b := p.2) hp).2
      refine ⟨by rw [e1, e2], ?_, by rw [hf]; simp, by rw [hf, sum_div_list, div_self hv], ?_⟩
      · intro i k v hi
        obtain ⟨j, g1, g2⟩ := e4 i k v hi
        exact ⟨j, by rw [e1]; exact g1, e3 j (List.mem_of_getElem? g1), g2⟩
      · intro j x hj
        rw [hf, List.getElem?_map, List.getElem?_map] at hj
        cases hr : (List.range n)[j]? with
        | none => rw [hr] at hj; cases hj
        | some j' =>
          have : j' = j := by
            obtain ⟨hlt, he⟩ := List.getElem?_eq_some_iff.mp hr
            rw [List.getElem_range] at he
            exact he.symm
          subst this
          rw [hr] at hj
          have := Option.some.inj hj
          dsimp only at this
          rw [← this, ← etot, div_mul_cancel₀ _ hv, e5, zero_add, e1]
          rfl

/-- C74: isotropic rocks with positive moduli are all scaled by the same factor, and nothing else about them changes. -/
theorem C74_rock_scale (Escale : K) (hs : 0 < Escale) (rocks : List (K × K × K)) (hE : ∀ r ∈ rocks, 0 < r.1) :
    ∃ Emin : K, 0 < Emin ∧ (∀ r ∈ rocks, Emin ≤ r.1) ∧
      scaleRocks Escale (rocks.map fun r => .iso r.1 r.2.1 r.2.2) =
        .ok (rocks.map fun r => .iso (r.1 * Escale / Emin) r.2.1 r.2.2) := by
  have hmap : (rocks.map fun r => (Material.iso r.1 r.2.1 r.2.2 : Material K)).mapM Material.getE = some (rocks.map Prod.fst) := by
    induction rocks with
    | nil => rfl
    | cons r l ih =>
      rw [List.map_cons, List.mapM_cons, ih fun x hx => hE x (List.mem_cons_of_mem _ hx)]
      rfl
  have hmin : ∀ (l : List K) (a : K), 0 < a → (∀ x ∈ l, 0 < x) → 0 < l.foldl min a ∧ ∀ x ∈ l, l.foldl min a ≤ x := by
    intro l
    induction l with
    | nil => intro a ha _; exact ⟨ha, by simp⟩
    | cons b l ih =>
      intro a ha hl
      have hb : 0 < min a b := lt_min ha (hl b (List.mem_cons_self ..))
      obtain ⟨h1, h2⟩ := ih (min a b) hb fun x hx => hl x (List.mem_cons_of_mem _ hx)
      refine ⟨h1, ?_⟩
      intro x hx
      rcases List.mem_cons.mp hx with rfl | hx
      · have hle : ∀ (l : List K) (a : K), l.foldl min a ≤ a := by
          intro l
          induction l with
          | nil => intro a; exact le_refl _
          | cons c l ih => intro a; exact (ih _).trans (min_le_left _ _)
        exact (hle l _).trans (min_le_right _ _)
      · exact h2 x hx
  obtain ⟨h1, h2⟩ := hmin (rocks.map Prod.fst) (10 ^ 10) (by positivity) (by
    intro x hx
    obtain ⟨r, hr, rfl⟩ := List.mem_map.mp hx
    exact hE r hr)
  refine ⟨(rocks.map Prod.fst).foldl min (10 ^ 10), h1, fun r hr => h2 _ (List.mem_map_of_mem hr), ?_⟩
  unfold scaleRocks
  rw [if_pos hs, hmap]
  show (if (rocks.map Prod.fst).foldl min (10 ^ 10) = 0 then _ else _) = _
  rw [if_neg h1.ne', List.map_map]
  rfl

/-- Scaling a rock list with a rock that is not isotropic is undefined behaviour. -/
theorem C74_violated_cast (Escale : K) (hs : 0 < Escale) (c : Nat → K) : scaleRocks Escale [Material.sym c] = .ub := by
  unfold scaleRocks
  rw [if_pos hs]
  rfl

example : (match loadRocks [2, 1, 2] 2 [(0, (1 : ℚ)), (2, 2), (1, 1)] with
    | .ok r => r.1 == [1, 1, 0] && r.2 == [1 / 4, 3 / 4]
    | _ => false) = true := by
  decide +kernel

end Verif.Elastic
