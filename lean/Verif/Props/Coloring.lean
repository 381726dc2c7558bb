import Verif.Model.Coloring
import Verif.Spec.Coloring
import Mathlib.Data.List.Basic
import Mathlib.Data.List.Range
import Mathlib.Data.List.Nodup
import Mathlib.Tactic.Ring
import Mathlib.Tactic.Linarith

/-! C40: the two colours of the elements. -/

namespace Verif.Coloring

/-! ### Inverse of the cell numbering -/

theorem ga_fold (cells : List Nat) (k : Nat) (ga : List (Option Nat)) (hlt : ∀ g ∈ cells, g < ga.length) :
    ∃ ga', (cells.zipIdx k).foldlM
        (fun ga p => if p.1 < ga.length then some (ga.set p.1 (some p.2)) else none) ga = some ga' ∧
      ga'.length = ga.length ∧
      (cells.Nodup → ∀ g : Nat, g < ga.length → ∀ p : Nat,
        ga'[g]? = some (some p) ↔ (k ≤ p ∧ cells[p - k]? = some g) ∨ (g ∉ cells ∧ ga[g]? = some (some p))) := by
  induction cells generalizing k ga with
  | nil =>
    refine ⟨ga, rfl, rfl, fun _ g hg p => by simp⟩
  | cons c cells ih =>
    have hc : c < ga.length := hlt c (by simp)
    obtain ⟨ga', h1, h2, h3⟩ := ih (k + 1) (ga.set c (some k)) (by
      intro g hg; rw [List.length_set]; exact hlt g (by simp [hg]))
    refine ⟨ga', ?_, by rw [h2, List.length_set], ?_⟩
    · rw [List.zipIdx_cons, List.foldlM_cons]
      simp only [hc, if_true]
      exact h1
    · intro hnd g hg p
      rw [List.nodup_cons] at hnd
      rw [h3 hnd.2 g (by rw [List.length_set]; exact hg) p]
      have hz : ∀ q : Nat, k ≤ q → ((c :: cells)[q - k]? = some g ↔
          (q = k ∧ c = g) ∨ (k + 1 ≤ q ∧ cells[q - (k + 1)]? = some g)) := by
        intro q hq
        rcases Nat.eq_or_lt_of_le hq with h | h
        · subst h
          have : ¬ (k + 1 ≤ k) := by omega
          simp
        · have e : q - k = (q - (k + 1)) + 1 := by omega
          rw [e, List.getElem?_cons_succ]
          have h5 : ¬ q = k := by omega
          have h6 : k + 1 ≤ q := h
          simp only [h5, h6, false_and, true_and, false_or]
      constructor
      · rintro (⟨ha, hb⟩ | ⟨ha, hb⟩)
        · exact Or.inl ⟨by omega, (hz p (by omega)).mpr (Or.inr ⟨ha, hb⟩)⟩
        · rw [List.getElem?_set] at hb
          by_cases hcg : c = g
          · rw [if_pos hcg, if_pos hc] at hb
            have : k = p := by simpa using hb
            exact Or.inl ⟨by omega, (hz p (by omega)).mpr (Or.inl ⟨this.symm, hcg⟩)⟩
          · rw [if_neg hcg] at hb
            exact Or.inr ⟨by simp [ha, Ne.symm hcg], hb⟩
      · rintro (⟨ha, hb⟩ | ⟨ha, hb⟩)
        · rcases (hz p ha).mp hb with ⟨h5, h6⟩ | h5
          · refine Or.inr ⟨by rw [← h6]; exact hnd.1, ?_⟩
            rw [List.getElem?_set, if_pos h6, if_pos hc, h5]
          · exact Or.inl h5
        · rw [List.mem_cons, not_or] at ha
          refine Or.inr ⟨ha.2, ?_⟩
          rw [List.getElem?_set, if_neg (Ne.symm ha.1)]
          exact hb

theorem ga_spec (size : Nat) (cells : List Nat) (hlt : ∀ g ∈ cells, g < size) (hnd : cells.Nodup) :
    ∃ ga, globalActive size cells = some ga ∧ ga.length = size ∧
      ∀ g p : Nat, ga[g]? = some (some p) ↔ cells[p]? = some g := by
  obtain ⟨ga, h1, h2, h3⟩ := ga_fold cells 0 (List.replicate size none) (by simpa using hlt)
  rw [List.length_replicate] at h2 h3
  refine ⟨ga, h1, h2, fun g p => ?_⟩
  by_cases hg : g < size
  · rw [h3 hnd g hg p, List.getElem?_replicate, if_pos hg]
    simp
  · constructor
    · intro h
      rw [List.getElem?_eq_none (by omega)] at h
      exact absurd h (by simp)
    · intro h
      exact absurd (hlt g (List.mem_of_getElem? h)) hg

/-! ### Cells of a strip -/

theorem enc_coord {n1 n2 x y z : Nat} (hx : x < n1) (hy : y < n2) :
    (x + n1 * (y + n2 * z)) % n1 = x ∧ (x + n1 * (y + n2 * z)) / n1 % n2 = y ∧ (x + n1 * (y + n2 * z)) / n1 / n2 = z := by
  have h1 : 0 < n1 := by omega
  have h2 : 0 < n2 := by omega
  have h3 : (x + n1 * (y + n2 * z)) / n1 = y + n2 * z := by
    rw [Nat.add_mul_div_left _ _ h1, Nat.div_eq_of_lt hx, Nat.zero_add]
  refine ⟨by rw [Nat.add_mul_mod_self_left, Nat.mod_eq_of_lt hx], ?_, ?_⟩
  · rw [h3, Nat.add_mul_mod_self_left, Nat.mod_eq_of_lt hy]
  · rw [h3, Nat.add_mul_div_left _ _ h2, Nat.div_eq_of_lt hy, Nat.zero_add]

theorem enc_decode (n1 n2 g : Nat) : g % n1 + n1 * (g / n1 % n2 + n2 * (g / n1 / n2)) = g := by
  rw [Nat.mod_add_div, Nat.mod_add_div]

/-- Position of a cell along a direction. -/
def pos (n1 n2 dir g : Nat) : Nat := if dir = 0 then g % n1 else if dir = 1 then g / n1 % n2 else g / n1 / n2

/-- Cells of a box. -/
def box (n1 n2 ox oy oz mx my mz : Nat) : List Nat :=
  (List.range mz).flatMap fun z => (List.range my).flatMap fun y => (List.range mx).map fun x =>
    (ox + x) + n1 * ((oy + y) + n2 * (oz + z))

theorem mem_box {n1 n2 ox oy oz mx my mz g : Nat} (hx : ox + mx ≤ n1) (hy : oy + my ≤ n2) :
    g ∈ box n1 n2 ox oy oz mx my mz ↔
      (ox ≤ g % n1 ∧ g % n1 < ox + mx) ∧ (oy ≤ g / n1 % n2 ∧ g / n1 % n2 < oy + my) ∧
        (oz ≤ g / n1 / n2 ∧ g / n1 / n2 < oz + mz) := by
  simp only [box, List.mem_flatMap, List.mem_map, List.mem_range]
  constructor
  · rintro ⟨z, hz, y, hy', x, hx', rfl⟩
    obtain ⟨e1, e2, e3⟩ := enc_coord (n1 := n1) (n2 := n2) (x := ox + x) (y := oy + y) (z := oz + z) (by omega) (by omega)
    rw [e1, e2, e3]
    omega
  · rintro ⟨⟨a1, a2⟩, ⟨b1, b2⟩, c1, c2⟩
    refine ⟨g / n1 / n2 - oz, by omega, g / n1 % n2 - oy, by omega, g % n1 - ox, by omega, ?_⟩
    have := enc_decode n1 n2 g
    rw [Nat.add_sub_cancel' a1, Nat.add_sub_cancel' b1, Nat.add_sub_cancel' c1]
    exact this

theorem nodup_box {n1 n2 ox oy oz mx my mz : Nat} (hx : ox + mx ≤ n1) (hy : oy + my ≤ n2) :
    (box n1 n2 ox oy oz mx my mz).Nodup := by
  unfold box
  rw [List.nodup_flatMap]
  constructor
  · intro z _
    rw [List.nodup_flatMap]
    constructor
    · intro y hy'
      refine List.Nodup.map_on ?_ List.nodup_range
      intro a ha b hb h
      omega
    · refine List.Pairwise.imp_of_mem ?_ List.pairwise_lt_range
      intro a b ha hb hab g h1 h2
      rw [List.mem_range] at ha hb
      rw [List.mem_map] at h1 h2
      obtain ⟨x, hx1, rfl⟩ := h1
      obtain ⟨x', hx2, e⟩ := h2
      rw [List.mem_range] at hx1 hx2
      have h3 := (enc_coord (n1 := n1) (n2 := n2) (x := ox + x) (y := oy + a) (z := oz + z) (by omega) (by omega)).2.1
      have h4 := (enc_coord (n1 := n1) (n2 := n2) (x := ox + x') (y := oy + b) (z := oz + z) (by omega) (by omega)).2.1
      rw [e, h3] at h4
      omega
  · refine List.Pairwise.imp_of_mem ?_ List.pairwise_lt_range
    intro a b ha hb hab g h1 h2
    rw [List.mem_flatMap] at h1 h2
    obtain ⟨y, hy1, h1⟩ := h1
    obtain ⟨y', hy2, h2⟩ := h2
    rw [List.mem_range] at hy1 hy2
    rw [List.mem_map] at h1 h2
    obtain ⟨x, hx1, rfl⟩ := h1
    obtain ⟨x', hx2, e⟩ := h2
    rw [List.mem_range] at hx1 hx2
    have h3 := (enc_coord (n1 := n1) (n2 := n2) (x := ox + x) (y := oy + y) (z := oz + a) (by omega) (by omega)).2.2
    have h4 := (enc_coord (n1 := n1) (n2 := n2) (x := ox + x') (y := oy + y') (z := oz + b) (by omega) (by omega)).2.2
    rw [e, h3] at h4
    omega

theorem visited_box (n1 n2 n3 dir o m : Nat) (hd : dir ≤ 2) :
    visited n1 n2 (o * (if dir = 0 then 1 else n1 * (if dir = 1 then 1 else n2))) (if dir = 0 then m else n1)
        (if dir = 1 then m else n2) (if dir = 2 then m else n3) =
      box n1 n2 (if dir = 0 then o else 0) (if dir = 1 then o else 0) (if dir = 2 then o else 0)
        (if dir = 0 then m else n1) (if dir = 1 then m else n2) (if dir = 2 then m else n3) := by
  have h : dir = 0 ∨ dir = 1 ∨ dir = 2 := by omega
  unfold visited box
  rcases h with rfl | rfl | rfl <;>
    refine congrArg (fun f => List.flatMap f _) (funext fun z => congrArg (fun f => List.flatMap f _) (funext fun y =>
      congrArg (fun f => List.map f _) (funext fun x => ?_))) <;> simp <;> ring

theorem coord_lt {n1 n2 n3 g : Nat} (hg : g < n1 * n2 * n3) : g % n1 < n1 ∧ g / n1 % n2 < n2 ∧ g / n1 / n2 < n3 := by
  have h1 : 0 < n1 := by
    rcases Nat.eq_zero_or_pos n1 with h | h
    · subst h; simp at hg
    · exact h
  have h2 : 0 < n2 := by
    rcases Nat.eq_zero_or_pos n2 with h | h
    · subst h; simp at hg
    · exact h
  refine ⟨Nat.mod_lt _ h1, Nat.mod_lt _ h2, ?_⟩
  rw [Nat.div_div_eq_div_mul, Nat.div_lt_iff_lt_mul (Nat.mul_pos h1 h2)]
  rw [Nat.mul_comm n3]; exact hg

theorem lt_of_coord {n1 n2 n3 g : Nat} (h1 : 0 < n1) (h2 : 0 < n2) (h : g / n1 / n2 < n3) : g < n1 * n2 * n3 := by
  rw [Nat.div_div_eq_div_mul, Nat.div_lt_iff_lt_mul (Nat.mul_pos h1 h2)] at h
  rw [Nat.mul_comm n3] at h; exact h

/-- Length of a direction. -/
def len (n1 n2 n3 dir : Nat) : Nat := if dir = 0 then n1 else if dir = 1 then n2 else n3

theorem mapM_reads {ga : List (Option Nat)} (l : List Nat) (h : ∀ e ∈ l, e < ga.length) :
    l.mapM (fun e => ga[e]?) = some (l.map fun e => (ga[e]?).getD none) := by
  induction l with
  | nil => rfl
  | cons e l ih =>
    rw [List.mapM_cons, ih fun a ha => h a (by simp [ha])]
    have he := h e (by simp)
    rw [List.getElem?_eq_getElem he]
    simp [List.getElem?_eq_getElem he]

theorem strip_spec {n1 n2 n3 dir : Nat} (hd : dir ≤ 2) {ga : List (Option Nat)} {cells : List Nat}
    (hlen : ga.length = n1 * n2 * n3) (hga : ∀ g p : Nat, ga[g]? = some (some p) ↔ cells[p]? = some g)
    (s : Nat → Nat → Nat) (c t : Nat) (hfit : start s c t + s c t ≤ len n1 n2 n3 dir) :
    ∃ l, strip n1 n2 n3 dir (if dir = 0 then 1 else n1 * (if dir = 1 then 1 else n2)) ga s c t = some l ∧ l.Nodup ∧
      ∀ p : Nat, p ∈ l ↔ ∃ g : Nat, cells[p]? = some g ∧ start s c t ≤ pos n1 n2 dir g ∧
        pos n1 n2 dir g < start s c t + s c t := by
  have hd' : dir = 0 ∨ dir = 1 ∨ dir = 2 := by omega
  have hx : (if dir = 0 then start s c t else 0) + (if dir = 0 then s c t else n1) ≤ n1 := by
    rcases hd' with rfl | rfl | rfl <;> simp [len] at hfit ⊢ <;> omega
  have hy : (if dir = 1 then start s c t else 0) + (if dir = 1 then s c t else n2) ≤ n2 := by
    rcases hd' with rfl | rfl | rfl <;> simp [len] at hfit ⊢ <;> omega
  have hz : (if dir = 2 then start s c t else 0) + (if dir = 2 then s c t else n3) ≤ n3 := by
    rcases hd' with rfl | rfl | rfl <;> simp [len] at hfit ⊢ <;> omega
  unfold strip
  rw [visited_box n1 n2 n3 dir _ _ hd]
  set B := box n1 n2 (if dir = 0 then start s c t else 0) (if dir = 1 then start s c t else 0)
    (if dir = 2 then start s c t else 0) (if dir = 0 then s c t else n1) (if dir = 1 then s c t else n2)
    (if dir = 2 then s c t else n3) with hB
  have hmem : ∀ g : Nat, g ∈ B ↔ (_ ∧ _ ∧ _) := fun g => mem_box hx hy
  have hlt : ∀ e ∈ B, e < ga.length := by
    intro e he
    rw [hmem] at he
    obtain ⟨⟨a1, a2⟩, ⟨b1, b2⟩, c1, c2⟩ := he
    rw [hlen]
    exact lt_of_coord (by omega) (by omega) (by omega)
  rw [mapM_reads B hlt, Option.map_some]
  refine ⟨_, rfl, ?_, ?_⟩
  · rw [List.filterMap_map]
    refine List.Nodup.filterMap ?_ (nodup_box hx hy)
    intro a a' p h1 h2
    simp only [Function.comp, id, Option.mem_def] at h1 h2
    have k1 : ga[a]? = some (some p) := by
      cases h : ga[a]? with
      | none => rw [h] at h1; simp at h1
      | some v => rw [h] at h1; simp at h1; rw [h1]
    have k2 : ga[a']? = some (some p) := by
      cases h : ga[a']? with
      | none => rw [h] at h2; simp at h2
      | some v => rw [h] at h2; simp at h2; rw [h2]
    rw [hga] at k1 k2
    rw [k1] at k2
    exact Option.some.inj k2
  · intro p
    have hpos : ∀ g : Nat, g < n1 * n2 * n3 → (g ∈ B ↔ start s c t ≤ pos n1 n2 dir g ∧
        pos n1 n2 dir g < start s c t + s c t) := by
      intro g hg
      obtain ⟨q1, q2, q3⟩ := coord_lt hg
      rw [hmem]
      unfold pos
      rcases hd' with rfl | rfl | rfl <;> simp [q1, q2, q3]
    rw [List.mem_filterMap]
    constructor
    · rintro ⟨v, hv, hvp⟩
      rw [List.mem_map] at hv
      obtain ⟨g, hgB, rfl⟩ := hv
      have hgl := hlt g hgB
      have k1 : ga[g]? = some (some p) := by
        rw [List.getElem?_eq_getElem hgl] at hvp ⊢
        simpa using hvp
      exact ⟨g, (hga g p).mp k1, (hpos g (hlen ▸ hgl)).mp hgB⟩
    · rintro ⟨g, hg, hgp⟩
      have k1 := (hga g p).mpr hg
      have hgl : g < ga.length := by
        by_contra hcon
        rw [List.getElem?_eq_none (by omega)] at k1
        exact absurd k1 (by simp)
      refine ⟨some p, ?_, rfl⟩
      rw [List.mem_map]
      exact ⟨g, (hpos g (hlen ▸ hgl)).mpr hgp, by rw [k1]; rfl⟩

/-! ### Sizes of the strips -/

theorem offset_mono (s : Nat → Nat → Nat) {t u : Nat} (h : t ≤ u) : offset s t ≤ offset s u := by
  induction h with
  | refl => exact le_rfl
  | step _ ih => exact ih.trans (by rw [offset]; omega)

theorem offset_bump (T : Nat) (s : Nat → Nat → Nat) (c0 t0 : Nat) (hc : c0 < 2) (u : Nat) :
    offset (fun c t => if c = c0 ∧ t = t0 then s c t + 1 else s c t) u = offset s u + (if t0 < u then 1 else 0) := by
  induction u with
  | zero => simp [offset]
  | succ u ih =>
    rw [offset, ih, offset]
    have h : c0 = 0 ∨ c0 = 1 := by omega
    rcases Nat.lt_trichotomy t0 u with h1 | h1 | h1
    · have a1 : ¬ u = t0 := by omega
      have a2 : t0 < u + 1 := by omega
      simp [h1, a1, a2]; omega
    · subst h1
      rcases h with rfl | rfl <;> simp <;> omega
    · have a1 : ¬ u = t0 := by omega
      have a2 : ¬ t0 < u + 1 := by omega
      have a3 : ¬ t0 < u := by omega
      simp [a1, a2, a3]

theorem stripSizes_spec (T z r : Nat) (hr : r < 2 * T) :
    ∃ s, stripSizes T z r = some s ∧ (∀ c t, z ≤ s c t) ∧ offset s T = 2 * T * z + r := by
  have key : ∀ n : Nat, n < 2 * T → ∃ s, (List.range' 1 n).foldlM (bump T) (fun _ _ => z) = some s ∧
      (∀ c t, z ≤ s c t) ∧ offset s T = 2 * T * z + n := by
    intro n
    induction n with
    | zero =>
      intro _
      refine ⟨_, rfl, fun _ _ => le_rfl, ?_⟩
      have : ∀ u : Nat, offset (fun _ _ => z) u = 2 * u * z := by
        intro u
        induction u with
        | zero => simp [offset]
        | succ u ih => rw [offset, ih]; ring
      rw [this]; rfl
    | succ n ih =>
      intro hn
      obtain ⟨s, h1, h2, h3⟩ := ih (by omega)
      have hb : bump T s (1 + n) = some (fun c t => if c = (1 + n) % 2 ∧ t = T - (1 + n + 1) / 2 then s c t + 1 else s c t) :=
        if_pos (by omega)
      refine ⟨fun c t => if c = (1 + n) % 2 ∧ t = T - (1 + n + 1) / 2 then s c t + 1 else s c t, ?_, ?_, ?_⟩
      · rw [List.range'_1_concat, List.foldlM_append, h1]
        change (bump T s (1 + n)).bind (fun x => some x) = _
        rw [Option.bind_fun_some]
        exact hb
      · intro c t
        beta_reduce
        have := h2 c t
        split <;> omega
      · rw [offset_bump T s _ _ (by omega), h3, if_pos (by omega)]
        omega
  exact key r hr

theorem reduce_spec (els : Nat) (m : Nat) (hm : 0 < m) :
    reduceThreads els m = 1 ∨ (1 < reduceThreads els m ∧ 2 ≤ els / (2 * reduceThreads els m)) := by
  induction m with
  | zero => omega
  | succ m ih =>
    rw [reduceThreads]
    split
    · rename_i h
      exact ih (by omega)
    · rename_i h
      rcases Nat.eq_zero_or_pos m with h0 | h0
      · left; omega
      · right
        refine ⟨by omega, ?_⟩
        by_contra hcon
        exact h ⟨by omega, by omega⟩

/-! ### The groups -/

theorem direction_le (n1 n2 n3 parts : Nat) : stripDirection n1 n2 n3 parts ≤ 2 := by
  unfold stripDirection
  dsimp only
  repeat' split
  all_goals omega

theorem strip_disjoint (s : Nat → Nat → Nat) {c t u x : Nat} (hc : c < 2) (htu : t < u)
    (h1 : x < start s c t + s c t) : x + s (1 - c) (if c = 0 then t else t + 1) < start s c u + 1 ∧
      (x + 1 ≤ start s c u) := by
  have hm : offset s (t + 1) ≤ offset s u := offset_mono s (by omega)
  rw [offset] at hm
  have h : c = 0 ∨ c = 1 := by omega
  rcases h with rfl | rfl
  · simp [start] at h1 ⊢; omega
  · rcases Nat.eq_or_lt_of_le (show t + 1 ≤ u by omega) with h2 | h2
    · subst h2
      simp [start, offset] at h1 ⊢; omega
    · have hm2 : offset s (t + 2) ≤ offset s u := offset_mono s (by omega)
      rw [offset, offset] at hm2
      simp [start] at h1 ⊢; omega

theorem mapM_strips {f : Nat → Option (List Nat)} (T : Nat) (P : Nat → List Nat → Prop)
    (h : ∀ t : Nat, t < T → ∃ l, f t = some l ∧ P t l) :
    ∃ L : List (List Nat), (List.range T).mapM f = some L ∧ L.length = T ∧
      ∀ (t : Nat) (l : List Nat), L[t]? = some l → P t l := by
  induction T with
  | zero => exact ⟨[], rfl, rfl, fun t l h => by simp at h⟩
  | succ T ih =>
    obtain ⟨L, h1, h2, h3⟩ := ih fun t ht => h t (by omega)
    obtain ⟨l, h4, h5⟩ := h T (by omega)
    refine ⟨L ++ [l], ?_, by simp [h2], ?_⟩
    · rw [List.range_succ, List.mapM_append, h1]
      simp [h4]
    · intro t l' hl
      rcases Nat.lt_or_ge t T with ht | ht
      · rw [List.getElem?_append_left (by omega)] at hl
        exact h3 t l' hl
      · rw [List.getElem?_append_right (by omega)] at hl
        have : t - L.length = 0 := by
          by_contra hne
          rw [List.getElem?_eq_none (by simp; omega)] at hl
          exact absurd hl (by simp)
        rw [this] at hl
        have e : t = T := by omega
        have e2 : l = l' := by simpa using hl
        rw [e, ← e2]; exact h5

theorem strip_unique (s : Nat → Nat → Nat) (T x : Nat) (hx : x < offset s T) :
    ∃ c t : Nat, c < 2 ∧ t < T ∧ start s c t ≤ x ∧ x < start s c t + s c t := by
  induction T with
  | zero => simp [offset] at hx
  | succ T ih =>
    rcases Nat.lt_or_ge x (offset s T) with h | h
    · obtain ⟨c, t, h1, h2, h3, h4⟩ := ih h
      exact ⟨c, t, h1, by omega, h3, h4⟩
    · rw [offset] at hx
      rcases Nat.lt_or_ge x (offset s T + s 0 T) with h2 | h2
      · exact ⟨0, T, by omega, by omega, by simpa [start] using h, by simpa [start] using h2⟩
      · exact ⟨1, T, by omega, by omega, by simpa [start] using h2, by simp only [start]; simpa using hx⟩

theorem colours_disjoint (s : Nat → Nat → Nat) {t u x : Nat} (h1 : start s 0 t ≤ x) (h2 : x < start s 0 t + s 0 t)
    (h3 : start s 1 u ≤ x) (h4 : x < start s 1 u + s 1 u) : False := by
  simp only [start, if_true, one_ne_zero, if_false] at h1 h2 h3 h4
  rcases Nat.lt_or_ge u t with h | h
  · have hm : offset s (u + 1) ≤ offset s t := offset_mono s (by omega)
    rw [offset] at hm
    omega
  · have hm : offset s t ≤ offset s u := offset_mono s h
    rcases Nat.eq_or_lt_of_le h with h5 | h5
    · subst h5; omega
    · have hm2 : offset s (t + 1) ≤ offset s u := offset_mono s (by omega)
      rw [offset] at hm2
      omega

theorem nodup_flatten_of {L : List (List Nat)} (P : Nat → Nat → Prop)
    (hn : ∀ (t : Nat) (l : List Nat), L[t]? = some l → l.Nodup ∧ ∀ p : Nat, p ∈ l → P t p)
    (hd : ∀ t u p : Nat, t < u → P t p → P u p → False) : L.flatten.Nodup := by
  rw [List.nodup_flatten]
  constructor
  · intro l hl
    obtain ⟨t, ht, rfl⟩ := List.mem_iff_getElem.mp hl
    exact (hn t _ (List.getElem?_eq_getElem ht)).1
  · rw [List.pairwise_iff_getElem]
    intro t u ht hu htu p h1 h2
    exact hd t u p htu ((hn t _ (List.getElem?_eq_getElem ht)).2 p h1) ((hn u _ (List.getElem?_eq_getElem hu)).2 p h2)

/-- The groups in the parallel case. -/
theorem parallel_spec {n1 n2 n3 : Nat} {cells : List Nat} {m : Nat} (hm : 0 < m) (hlt : ∀ g ∈ cells, g < n1 * n2 * n3)
    (hnd : cells.Nodup)
    (hpos : 0 < n1 ∧ 0 < n2 ∧ 0 < n3) :
    ∃ g0 g1, calcGroups n1 n2 n3 cells m = some (g0, g1) ∧
      ((g0 = [List.range cells.length] ∧ g1 = []) ∨
      ∃ (dir T : Nat) (s : Nat → Nat → Nat), dir ≤ 2 ∧ (∀ c t, 2 ≤ s c t) ∧ offset s T = len n1 n2 n3 dir ∧
        g0.length = T ∧ g1.length = T ∧
        (∀ (t : Nat) (l : List Nat), g0[t]? = some l → l.Nodup ∧ ∀ p : Nat, p ∈ l ↔ ∃ g : Nat, cells[p]? = some g ∧
          start s 0 t ≤ pos n1 n2 dir g ∧ pos n1 n2 dir g < start s 0 t + s 0 t) ∧
        (∀ (t : Nat) (l : List Nat), g1[t]? = some l → l.Nodup ∧ ∀ p : Nat, p ∈ l ↔ ∃ g : Nat, cells[p]? = some g ∧
          start s 1 t ≤ pos n1 n2 dir g ∧ pos n1 n2 dir g < start s 1 t + s 1 t)) := by
  unfold calcGroups
  dsimp only
  set dir := stripDirection n1 n2 n3 (if m > 1 then 2 * m else 1) with hdir
  have hd : dir ≤ 2 := direction_le _ _ _ _
  clear_value dir
  have hlen : (if dir = 0 then n1 else if dir = 1 then n2 else n3) = len n1 n2 n3 dir := rfl
  rw [hlen]
  have hels : 0 < len n1 n2 n3 dir := by
    unfold len
    split
    · exact hpos.1
    · split
      · exact hpos.2.1
      · exact hpos.2.2
  set els := len n1 n2 n3 dir with hels'
  rcases reduce_spec els m hm with h1 | ⟨h1, h2⟩
  · rw [if_pos h1, if_neg (by omega)]
    exact ⟨_, _, rfl, Or.inl ⟨rfl, rfl⟩⟩
  · rw [if_neg (by omega)]
    set T := reduceThreads els m with hT
    clear_value T
    obtain ⟨ga, e1, e2, e3⟩ := ga_spec (n1 * n2 * n3) cells hlt hnd
    have hr : els - els / (2 * T) * (2 * T) < 2 * T := by
      have h3 := Nat.mod_lt els (show 0 < 2 * T by omega)
      have h4 := Nat.mod_add_div els (2 * T)
      rw [Nat.mul_comm (2 * T)] at h4
      omega
    obtain ⟨s, f1, f2, f3⟩ := stripSizes_spec T (els / (2 * T)) _ hr
    have hoff : offset s T = els := by
      rw [f3, Nat.mul_comm (2 * T)]
      have := Nat.div_mul_le_self els (2 * T)
      omega
    rw [e1, Option.bind_some, f1, Option.bind_some]
    have hfit : ∀ c t : Nat, c < 2 → t < T → start s c t + s c t ≤ len n1 n2 n3 dir := by
      intro c t hc ht
      have hmn : offset s (t + 1) ≤ offset s T := offset_mono s (by omega)
      rw [offset, hoff] at hmn
      have h : c = 0 ∨ c = 1 := by omega
      rcases h with rfl | rfl <;> simp [start] <;> omega
    obtain ⟨g0, a1, a2, a3⟩ := mapM_strips T _ fun t ht =>
      strip_spec hd e2 e3 s 0 t (hfit 0 t (by omega) ht)
    obtain ⟨g1, b1, b2, b3⟩ := mapM_strips T _ fun t ht =>
      strip_spec hd e2 e3 s 1 t (hfit 1 t (by omega) ht)
    rw [a1, Option.bind_some, b1, Option.map_some]
    exact ⟨_, _, rfl, Or.inr ⟨dir, T, s, hd, fun c t => h2.trans (f2 c t), hoff, a2, b2, a3, b3⟩⟩

theorem pos_lt {n1 n2 n3 dir g : Nat} (hg : g < n1 * n2 * n3) : pos n1 n2 dir g < len n1 n2 n3 dir := by
  obtain ⟨q1, q2, q3⟩ := coord_lt hg
  unfold pos len
  split
  · exact q1
  · split
    · exact q2
    · exact q3

/-- **C40**: whatever the size of the grid, the active cells and the number of threads, the lists of elements of all threads of
both colours contain every active element exactly once. -/
theorem C40_partition {n1 n2 n3 : Nat} {cells : List Nat} {threads : Nat} (ht : 0 < threads) (hpos : 0 < n1 ∧ 0 < n2 ∧ 0 < n3)
    (hlt : ∀ g ∈ cells, g < n1 * n2 * n3) (hnd : cells.Nodup) :
    ∃ g0 g1, calcGroups n1 n2 n3 cells threads = some (g0, g1) ∧
      (g0.flatten ++ g1.flatten).Perm (List.range cells.length) := by
  obtain ⟨g0, g1, h, hcase⟩ := parallel_spec ht hlt hnd hpos
  refine ⟨g0, g1, h, ?_⟩
  rcases hcase with ⟨rfl, rfl⟩ | ⟨dir, T, s, hd, hs, hoff, hl0, hl1, h0, h1⟩
  · simp
  · have hmem : ∀ (c : Nat) (L : List (List Nat)), L.length = T → (∀ (t : Nat) (l : List Nat), L[t]? = some l → l.Nodup ∧
        ∀ p : Nat, p ∈ l ↔ ∃ g : Nat, cells[p]? = some g ∧
          start s c t ≤ pos n1 n2 dir g ∧ pos n1 n2 dir g < start s c t + s c t) →
        ∀ p : Nat, p ∈ L.flatten ↔ ∃ t g : Nat, t < T ∧ cells[p]? = some g ∧
          start s c t ≤ pos n1 n2 dir g ∧ pos n1 n2 dir g < start s c t + s c t := by
      intro c L hL hP p
      rw [List.mem_flatten]
      constructor
      · rintro ⟨l, hl, hp⟩
        obtain ⟨t, ht, rfl⟩ := List.mem_iff_getElem.mp hl
        obtain ⟨g, k1, k2⟩ := ((hP t _ (List.getElem?_eq_getElem ht)).2 p).mp hp
        exact ⟨t, g, by omega, k1, k2⟩
      · rintro ⟨t, g, ht, k1, k2⟩
        have ht' : t < L.length := by omega
        exact ⟨L[t], List.getElem_mem ht', ((hP t _ (List.getElem?_eq_getElem ht')).2 p).mpr ⟨g, k1, k2⟩⟩
    have hm0 := hmem 0 g0 hl0 h0
    have hm1 := hmem 1 g1 hl1 h1
    have hsame : ∀ (c : Nat), c < 2 → ∀ t u p : Nat, t < u →
        (∃ g : Nat, cells[p]? = some g ∧ start s c t ≤ pos n1 n2 dir g ∧ pos n1 n2 dir g < start s c t + s c t) →
        (∃ g : Nat, cells[p]? = some g ∧ start s c u ≤ pos n1 n2 dir g ∧ pos n1 n2 dir g < start s c u + s c u) → False := by
      rintro c hc t u p htu ⟨g, k1, k2, k3⟩ ⟨g', k4, k5, k6⟩
      rw [k1] at k4
      obtain rfl := Option.some.inj k4
      have := (strip_disjoint s hc htu k3).2
      omega
    have hnd' : (g0.flatten ++ g1.flatten).Nodup := by
      rw [List.nodup_append]
      refine ⟨nodup_flatten_of _ (fun t l hl => ⟨(h0 t l hl).1, fun p => ((h0 t l hl).2 p).mp⟩) (hsame 0 (by omega)),
        nodup_flatten_of _ (fun t l hl => ⟨(h1 t l hl).1, fun p => ((h1 t l hl).2 p).mp⟩) (hsame 1 (by omega)), ?_⟩
      intro p hp q hq hpq
      subst hpq
      obtain ⟨t, g, _, k1, k2, k3⟩ := (hm0 p).mp hp
      obtain ⟨u, g', _, k4, k5, k6⟩ := (hm1 p).mp hq
      rw [k1] at k4
      obtain rfl := Option.some.inj k4
      exact colours_disjoint s k2 k3 k5 k6
    rw [List.perm_ext_iff_of_nodup hnd' List.nodup_range]
    intro p
    rw [List.mem_append, hm0, hm1, List.mem_range]
    constructor
    · rintro (⟨t, g, _, k, _⟩ | ⟨t, g, _, k, _⟩)
      · exact (List.getElem?_eq_some_iff.mp k).1
      · exact (List.getElem?_eq_some_iff.mp k).1
    · intro hp
      have hg := hlt _ (List.getElem_mem hp)
      obtain ⟨c, t, hc, ht, k1, k2⟩ := strip_unique s T (pos n1 n2 dir cells[p]) (by rw [hoff]; exact pos_lt hg)
      have h : c = 0 ∨ c = 1 := by omega
      rcases h with rfl | rfl
      · exact Or.inl ⟨t, _, ht, List.getElem?_eq_getElem hp, k1, k2⟩
      · exact Or.inr ⟨t, _, ht, List.getElem?_eq_getElem hp, k1, k2⟩

theorem not_touch {n1 n2 dir g h : Nat} (hd : dir ≤ 2) (hfar : pos n1 n2 dir g + 1 < pos n1 n2 dir h) :
    ¬ Touch n1 n2 g h ∧ ¬ Touch n1 n2 h g := by
  have hd' : dir = 0 ∨ dir = 1 ∨ dir = 2 := by omega
  unfold Touch
  rcases hd' with rfl | rfl | rfl <;> simp only [pos] at hfar <;> simp at hfar
  · constructor <;> (rintro ⟨⟨_, _⟩, _, _⟩; omega)
  · constructor <;> (rintro ⟨_, ⟨_, _⟩, _⟩; omega)
  · constructor <;> (rintro ⟨_, _, _, _⟩; omega)

theorem raceFree_of {n1 n2 dir c : Nat} {cells : List Nat} {L : List (List Nat)} (hc : c < 2) (hd : dir ≤ 2)
    {s : Nat → Nat → Nat} (hs : ∀ c t, 2 ≤ s c t)
    (hP : ∀ (t : Nat) (l : List Nat), L[t]? = some l → l.Nodup ∧ ∀ p : Nat, p ∈ l ↔ ∃ g : Nat, cells[p]? = some g ∧
          start s c t ≤ pos n1 n2 dir g ∧ pos n1 n2 dir g < start s c t + s c t) : RaceFree n1 n2 cells L := by
  have hmem : ∀ t p g : Nat, p ∈ L.getD t [] → cells[p]? = some g → start s c t ≤ pos n1 n2 dir g ∧
      pos n1 n2 dir g < start s c t + s c t := by
    intro t p g hp hg
    rw [List.getD_eq_getElem?_getD] at hp
    cases h : L[t]? with
    | none => rw [h] at hp; simp at hp
    | some l =>
      rw [h] at hp
      obtain ⟨g', k1, k2⟩ := ((hP t l h).2 p).mp hp
      rw [hg] at k1
      rw [Option.some.inj k1]; exact k2
  intro t u htu p q hp hq g h hg hh
  have k1 := hmem t p g hp hg
  have k2 := hmem u q h hq hh
  rcases Nat.lt_or_gt_of_ne htu with hlt | hlt
  · have := (strip_disjoint s hc hlt k1.2).1
    have := hs (1 - c) (if c = 0 then t else t + 1)
    exact (not_touch hd (by omega)).1
  · have := (strip_disjoint s hc hlt k2.2).1
    have := hs (1 - c) (if c = 0 then u else u + 1)
    exact (not_touch hd (by omega)).2

/-- **C40**: elements that different threads process at the same time, i.e. elements of one colour in the lists of two threads,
never have a corner in common. -/
theorem C40_racefree {n1 n2 n3 : Nat} {cells : List Nat} {threads : Nat} (ht : 0 < threads) (hpos : 0 < n1 ∧ 0 < n2 ∧ 0 < n3)
    (hlt : ∀ g ∈ cells, g < n1 * n2 * n3) (hnd : cells.Nodup) {g0 g1 : List (List Nat)}
    (h : calcGroups n1 n2 n3 cells threads = some (g0, g1)) : RaceFree n1 n2 cells g0 ∧ RaceFree n1 n2 cells g1 := by
  obtain ⟨g0', g1', h', hcase⟩ := parallel_spec ht hlt hnd hpos
  rw [h] at h'
  obtain ⟨rfl, rfl⟩ := Prod.mk.inj (Option.some.inj h')
  rcases hcase with ⟨rfl, rfl⟩ | ⟨dir, T, s, hd, hs, hoff, hl0, hl1, h0, h1⟩
  · constructor
    · intro t u htu p q hp hq
      exfalso
      have e : ∀ t p : Nat, p ∈ List.getD [List.range cells.length] t [] → t = 0 := by
        intro t p hp
        by_contra hne
        obtain ⟨k, rfl⟩ := Nat.exists_eq_succ_of_ne_zero hne
        simp at hp
      exact htu ((e t p hp).trans (e u q hq).symm)
    · intro t u _ p q hp
      simp at hp
  · exact ⟨raceFree_of (by omega) hd hs h0, raceFree_of (by omega) hd hs h1⟩

/-- **C40**: without threads all elements are in one list. -/
theorem C40_serial (cells : List Nat) : ((calcGroupsSerial cells).1.flatten ++ (calcGroupsSerial cells).2.flatten).Perm
    (List.range cells.length) ∧ (calcGroupsSerial cells).1.length = 1 ∧ (calcGroupsSerial cells).2 = [] := by
  simp [calcGroupsSerial]

/-- Eighteen cells in two rows, eleven of them active, two threads. -/
example : (∀ g ∈ [0, 1, 2, 3, 5, 6, 7, 8, 9, 12, 17], g < 9 * 2 * 1) ∧ [0, 1, 2, 3, 5, 6, 7, 8, 9, 12, 17].Nodup ∧
    calcGroups 9 2 1 [0, 1, 2, 3, 5, 6, 7, 8, 9, 12, 17] 2 =
      some ([[0, 1, 8], [4]], [[2, 3, 9], [5, 6, 7, 10]]) := by decide +kernel

/-- Strips along the second direction; two of the three threads are used. -/
example : calcGroups 2 9 1 [0, 1, 2, 3, 5, 6, 7, 8, 9, 12, 17] 3 =
    some ([[0, 1, 2, 3], [7, 8]], [[4, 5, 6], [9, 10]]) := by decide +kernel

/-- **C40** The strips are cut in the direction that leaves the fewest elements over, and of several such directions in
the longest. -/
theorem C40_direction (n1 n2 n3 parts : Nat) (d e : Nat) (hd : d = stripDirection n1 n2 n3 parts) (he : e < 3) :
    leftover n1 n2 n3 parts d ≤ leftover n1 n2 n3 parts e ∧
      (leftover n1 n2 n3 parts e = leftover n1 n2 n3 parts d → along n1 n2 n3 e ≤ along n1 n2 n3 d) := by
  have hr : ∀ n, n - n / parts * parts = n % parts := fun n => by
    have := Nat.div_add_mod n parts
    rw [Nat.mul_comm] at this
    omega
  have e1 : n1 % parts * n2 * n3 = leftover n1 n2 n3 parts 0 := by show _ = (n1 % parts) * (n2 * n3); ring
  have e2 : n1 * (n2 % parts) * n3 = leftover n1 n2 n3 parts 1 := by show _ = (n2 % parts) * (n1 * n3); ring
  have e3 : n1 * n2 * (n3 % parts) = leftover n1 n2 n3 parts 2 := by show _ = (n3 % parts) * (n1 * n2); ring
  have a1 : n1 = along n1 n2 n3 0 := rfl
  have a2 : n2 = along n1 n2 n3 1 := rfl
  have a3 : n3 = along n1 n2 n3 2 := rfl
  unfold stripDirection at hd
  dsimp only at hd
  rw [hr, hr, hr, e1, e2, e3] at hd
  generalize leftover n1 n2 n3 parts = L at *
  have h3 : e = 0 ∨ e = 1 ∨ e = 2 := by omega
  generalize hA : along n1 n2 n3 = A at *
  clear e1 e2 e3 hr
  repeat' split at hd
  all_goals
    subst hd
    rcases h3 with rfl | rfl | rfl <;> refine ⟨?_, ?_⟩ <;> omega

example : stripDirection 7 8 9 4 = 1 := by decide

end Verif.Coloring
