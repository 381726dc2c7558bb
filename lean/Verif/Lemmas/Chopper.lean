import Verif.Model.Chopper
import Mathlib.Tactic.Ring
import Mathlib.Tactic.Linarith
import Mathlib.Tactic.IntervalCases
import Mathlib.Data.List.Basic

/-!
Array writes, flattened loops and corner index arithmetic for the chopper.
-/

namespace Verif.Chopper

theorem aw_spec {α : Type} (W : List (Nat × Option α)) (l : List α) (hin : ∀ w ∈ W, w.1 < l.length)
    (hs : ∀ w ∈ W, w.2.isSome = true) (hc : ∀ w ∈ W, ∀ w' ∈ W, w.1 = w'.1 → w.2 = w'.2) :
    ∃ r, applyWrites W l = some r ∧ r.length = l.length ∧ (∀ w ∈ W, r[w.1]? = w.2) ∧
      (∀ i : Nat, (∀ w ∈ W, w.1 ≠ i) → r[i]? = l[i]?) := by
  induction W generalizing l with
  | nil => exact ⟨l, rfl, rfl, by simp, fun _ _ => rfl⟩
  | cons w W ih =>
    have hw := hin w (List.mem_cons_self ..)
    obtain ⟨v, hv⟩ := Option.isSome_iff_exists.mp (hs w (List.mem_cons_self ..))
    obtain ⟨r, h1, h2, h3, h4⟩ := ih (l.set w.1 v)
      (fun w' hw' => by rw [List.length_set]; exact hin w' (List.mem_cons_of_mem _ hw'))
      (fun w' hw' => hs w' (List.mem_cons_of_mem _ hw'))
      (fun a ha b hb => hc a (List.mem_cons_of_mem _ ha) b (List.mem_cons_of_mem _ hb))
    refine ⟨r, ?_, by rw [h2, List.length_set], ?_, ?_⟩
    · unfold applyWrites
      rw [hv]
      simp only [if_pos hw, h1]
    · intro w' hw'
      rcases List.mem_cons.mp hw' with rfl | hw'
      · by_cases hex : ∃ u ∈ W, u.1 = w'.1
        · obtain ⟨u, hu, hue⟩ := hex
          rw [← hue, h3 u hu]
          exact hc u (List.mem_cons_of_mem _ hu) w' (List.mem_cons_self ..) hue
        · rw [h4 w'.1 (fun u hu e => hex ⟨u, hu, e⟩), hv]
          simp [hw]
      · exact h3 w' hw'
    · intro i hi
      rw [h4 i (fun u hu => hi u (List.mem_cons_of_mem _ hu))]
      exact List.getElem?_set_ne (hi w (List.mem_cons_self ..))

theorem aw_congr {α : Type} (W : List (Nat × Option α)) (l l' : List α) (hl : l.length = l'.length)
    (h : ∀ i : Nat, (∀ w ∈ W, w.1 ≠ i) → l[i]? = l'[i]?) : applyWrites W l = applyWrites W l' := by
  induction W generalizing l l' with
  | nil =>
    have : l = l' := List.ext_getElem? (fun i => h i (by simp))
    rw [this]
  | cons w W ih =>
    unfold applyWrites
    cases hw : w.2 with
    | none => rfl
    | some v =>
      simp only [hl]
      by_cases hlt : w.1 < l'.length
      · rw [if_pos hlt, if_pos hlt]
        apply ih
        · rw [List.length_set, List.length_set, hl]
        · intro i hi
          by_cases e : w.1 = i
          · subst e
            simp [hlt, hl]
          · rw [List.getElem?_set_ne e, List.getElem?_set_ne e]
            apply h
            intro u hu
            rcases List.mem_cons.mp hu with rfl | hu
            · exact e
            · exact hi u hu
      · rw [if_neg hlt, if_neg hlt]

theorem aw_length {α : Type} (W : List (Nat × Option α)) (l r : List α) (h : applyWrites W l = some r) :
    r.length = l.length := by
  induction W generalizing l with
  | nil => simp [applyWrites] at h; rw [h]
  | cons w W ih =>
    unfold applyWrites at h
    split at h
    · split at h
      · rw [ih _ h, List.length_set]
      · exact absurd h (by simp)
    · exact absurd h (by simp)

theorem resizeTo_length {α : Type} (l : List α) (n : Nat) (d : α) : (resizeTo l n d).length = n := by
  simp only [resizeTo, List.length_append, List.length_take, List.length_replicate]
  omega

theorem loop_length (a b : Nat) : (loop a b).length = b - a := by simp [loop]

theorem loop_get (a b i : Nat) (h : i < b - a) : (loop a b)[i]? = some (a + i) := by
  simp [loop, List.getElem?_range h]

theorem mem_loop (a b x : Nat) : x ∈ loop a b ↔ a ≤ x ∧ x < b := by
  simp only [loop, List.mem_map, List.mem_range]
  constructor
  · rintro ⟨y, hy, rfl⟩; omega
  · intro ⟨h1, h2⟩; exact ⟨x - a, by omega, by omega⟩

/-- Indexing a flattened list of blocks of equal length. -/
theorem flatMap_get {α β : Type} (l : List α) (f : α → List β) (m : Nat) (hf : ∀ x ∈ l, (f x).length = m) (a b : Nat)
    (hb : b < m) (x : α) (hx : l[a]? = some x) : (l.flatMap f)[a * m + b]? = (f x)[b]? := by
  induction l generalizing a with
  | nil => simp at hx
  | cons y l ih =>
    have hy := hf y (List.mem_cons_self ..)
    rw [List.flatMap_cons]
    cases a with
    | zero =>
      simp only [List.getElem?_cons_zero, Option.some.injEq] at hx
      subst hx
      rw [Nat.zero_mul, Nat.zero_add, List.getElem?_append_left (by omega)]
    | succ a =>
      simp only [List.getElem?_cons_succ] at hx
      rw [List.getElem?_append_right (by rw [hy, Nat.succ_mul]; omega), hy]
      have : (a + 1) * m + b - m = a * m + b := by rw [Nat.succ_mul]; omega
      rw [this]
      exact ih (fun z hz => hf z (List.mem_cons_of_mem _ hz)) a hx

theorem flatMap_length {α β : Type} (l : List α) (f : α → List β) (m : Nat) (hf : ∀ x ∈ l, (f x).length = m) :
    (l.flatMap f).length = l.length * m := by
  induction l with
  | nil => simp
  | cons y l ih =>
    rw [List.flatMap_cons, List.length_append, hf y (List.mem_cons_self ..),
      ih (fun z hz => hf z (List.mem_cons_of_mem _ hz)), List.length_cons, Nat.succ_mul, Nat.add_comm]

variable {K : Type}

theorem cellLoop_length (R : Req K) (kmin kmax : Nat) :
    (cellLoop R kmin kmax).length = (R.imax - R.imin) * (R.jmax - R.jmin) * (kmax - kmin) := by
  unfold cellLoop
  rw [flatMap_length (m := (R.jmax - R.jmin) * (R.imax - R.imin)), loop_length]
  · ring
  · intro k _
    rw [flatMap_length (m := R.imax - R.imin), loop_length]
    intro j _
    rw [List.length_map, loop_length]

theorem cellLoop_get (R : Req K) (kmin kmax i j k : Nat) (hi : i < R.imax - R.imin) (hj : j < R.jmax - R.jmin)
    (hk : k < kmax - kmin) :
    (cellLoop R kmin kmax)[(R.imax - R.imin) * (R.jmax - R.jmin) * k + (R.imax - R.imin) * j + i]? =
      some (R.imin + i, R.jmin + j, kmin + k) := by
  have e : (R.imax - R.imin) * (R.jmax - R.jmin) * k + (R.imax - R.imin) * j + i =
      k * ((R.jmax - R.jmin) * (R.imax - R.imin)) + (j * (R.imax - R.imin) + i) := by ring
  have hin : j * (R.imax - R.imin) + i < (R.jmax - R.jmin) * (R.imax - R.imin) := by
    calc j * (R.imax - R.imin) + i < j * (R.imax - R.imin) + (R.imax - R.imin) := by omega
      _ = (j + 1) * (R.imax - R.imin) := by ring
      _ ≤ (R.jmax - R.jmin) * (R.imax - R.imin) := Nat.mul_le_mul_right _ hj
  rw [e]
  unfold cellLoop
  rw [flatMap_get _ _ _ _ k _ hin (kmin + k) (loop_get _ _ _ hk)]
  · rw [flatMap_get _ _ (R.imax - R.imin) _ j i hi (R.jmin + j) (loop_get _ _ _ hj)]
    · rw [List.getElem?_map, loop_get _ _ _ hi]; rfl
    · intro x _; rw [List.length_map, loop_length]
  · intro x _
    rw [flatMap_length (m := R.imax - R.imin), loop_length]
    intro y _
    rw [List.length_map, loop_length]

theorem mem_cellLoop (R : Req K) (kmin kmax : Nat) (c : Nat × Nat × Nat) :
    c ∈ cellLoop R kmin kmax ↔ (R.imin ≤ c.1 ∧ c.1 < R.imax) ∧ (R.jmin ≤ c.2.1 ∧ c.2.1 < R.jmax) ∧
      (kmin ≤ c.2.2 ∧ c.2.2 < kmax) := by
  obtain ⟨i, j, k⟩ := c
  simp only [cellLoop, List.mem_flatMap, List.mem_map, mem_loop, Prod.mk.injEq]
  constructor
  · rintro ⟨k', hk, j', hj, i', hi, rfl, rfl, rfl⟩
    exact ⟨hi, hj, hk⟩
  · rintro ⟨hi, hj, hk⟩
    exact ⟨k, hk, j, hj, i, hi, rfl, rfl, rfl⟩

/-- Corner `cc` in mixed-radix form: bit 0 of `cc` is the x side, bit 1 the y side, bit 2 the z side. -/
theorem cornerIndex_eq (nx ny i j k cc : Nat) (hc : cc < 8) :
    cornerIndex nx ny i j k cc = (2 * i + cc % 2) + 2 * nx * ((2 * j + cc / 2 % 2) + 2 * ny * (2 * k + cc / 4)) := by
  interval_cases cc <;> simp [cornerIndex] <;> ring

theorem radix_inj {n a b c d : Nat} (ha : a < n) (hc : c < n) (h : a + n * b = c + n * d) : a = c ∧ b = d := by
  have h1 : (a + n * b) % n = (c + n * d) % n := by rw [h]
  rw [Nat.add_mul_mod_self_left, Nat.add_mul_mod_self_left, Nat.mod_eq_of_lt ha, Nat.mod_eq_of_lt hc] at h1
  subst h1
  have h2 : n * b = n * d := by omega
  exact ⟨rfl, Nat.eq_of_mul_eq_mul_left (by omega) h2⟩

theorem cornerIndex_inj {nx ny i j k cc i' j' k' cc' : Nat} (hi : i < nx) (hi' : i' < nx) (hj : j < ny) (hj' : j' < ny)
    (hc : cc < 8) (hc' : cc' < 8) (h : cornerIndex nx ny i j k cc = cornerIndex nx ny i' j' k' cc') :
    i = i' ∧ j = j' ∧ k = k' ∧ cc = cc' := by
  rw [cornerIndex_eq _ _ _ _ _ _ hc, cornerIndex_eq _ _ _ _ _ _ hc'] at h
  obtain ⟨h1, h⟩ := radix_inj (by omega) (by omega) h
  obtain ⟨h2, h3⟩ := radix_inj (by omega) (by omega) h
  omega

theorem radix_lt {n m a b : Nat} (ha : a < n) (hb : b < m) : a + n * b < n * m := by
  calc a + n * b < n + n * b := by omega
    _ = n * (b + 1) := by ring
    _ ≤ n * m := Nat.mul_le_mul_left _ hb

theorem cornerIndex_lt {nx ny nz i j k cc : Nat} (hi : i < nx) (hj : j < ny) (hk : k < nz) (hc : cc < 8) :
    cornerIndex nx ny i j k cc < 8 * (nx * ny * nz) := by
  rw [cornerIndex_eq _ _ _ _ _ _ hc]
  have h1 : (2 * j + cc / 2 % 2) + 2 * ny * (2 * k + cc / 4) < 2 * ny * (2 * nz) := radix_lt (by omega) (by omega)
  have h2 := radix_lt (n := 2 * nx) (a := 2 * i + cc % 2) (by omega) h1
  calc _ < 2 * nx * (2 * ny * (2 * nz)) := h2
    _ = 8 * (nx * ny * nz) := by ring

theorem cornerIndex_surj {nx ny nz p : Nat} (hp : p < 8 * (nx * ny * nz)) :
    ∃ i j k cc, i < nx ∧ j < ny ∧ k < nz ∧ cc < 8 ∧ cornerIndex nx ny i j k cc = p := by
  have hx : 0 < nx := by
    rcases Nat.eq_zero_or_pos nx with h | h
    · subst h; simp at hp
    · exact h
  have hy : 0 < ny := by
    rcases Nat.eq_zero_or_pos ny with h | h
    · subst h; simp at hp
    · exact h
  have e1 : p % (2 * nx) + 2 * nx * (p / (2 * nx)) = p := Nat.mod_add_div p (2 * nx)
  have e2 := Nat.mod_add_div (p / (2 * nx)) (2 * ny)
  have l1 : p % (2 * nx) < 2 * nx := Nat.mod_lt _ (by omega)
  have l2 : p / (2 * nx) % (2 * ny) < 2 * ny := Nat.mod_lt _ (by omega)
  have l3 : p / (2 * nx) / (2 * ny) < 2 * nz := by
    rw [Nat.div_div_eq_div_mul, Nat.div_lt_iff_lt_mul (Nat.mul_pos (by omega) (by omega))]
    calc p < 8 * (nx * ny * nz) := hp
      _ = 2 * nz * (2 * nx * (2 * ny)) := by ring
  generalize p % (2 * nx) = x at *
  generalize p / (2 * nx) % (2 * ny) = y at *
  generalize p / (2 * nx) / (2 * ny) = z at *
  generalize p / (2 * nx) = q at *
  refine ⟨x / 2, y / 2, z / 2, x % 2 + 2 * (y % 2) + 4 * (z % 2), by omega, by omega, by omega, by omega, ?_⟩
  rw [cornerIndex_eq _ _ _ _ _ _ (by omega)]
  have a1 : 2 * (x / 2) + (x % 2 + 2 * (y % 2) + 4 * (z % 2)) % 2 = x := by omega
  have a2 : 2 * (y / 2) + (x % 2 + 2 * (y % 2) + 4 * (z % 2)) / 2 % 2 = y := by omega
  have a3 : 2 * (z / 2) + (x % 2 + 2 * (y % 2) + 4 * (z % 2)) / 4 = z := by omega
  rw [a1, a2, a3, e2, e1]

variable [LinearOrder K]

theorem foldl_max_ge (l : List K) (a : K) : a ≤ l.foldl max a ∧ ∀ x ∈ l, x ≤ l.foldl max a := by
  induction l generalizing a with
  | nil => simp
  | cons y l ih =>
    obtain ⟨h1, h2⟩ := ih (max a y)
    refine ⟨le_trans (le_max_left _ _) h1, ?_⟩
    intro x hx
    rcases List.mem_cons.mp hx with rfl | hx
    · exact le_trans (le_max_right _ _) h1
    · exact h2 x hx

theorem foldl_max_mem (l : List K) (a : K) : l.foldl max a = a ∨ l.foldl max a ∈ l := by
  induction l generalizing a with
  | nil => left; rfl
  | cons y l ih =>
    rw [List.foldl_cons]
    rcases ih (max a y) with h | h
    · rcases max_choice a y with e | e
      · left; rw [h, e]
      · right; rw [h, e]; exact List.mem_cons_self ..
    · right; exact List.mem_cons_of_mem _ h

theorem foldl_min_le (l : List K) (a : K) : l.foldl min a ≤ a ∧ ∀ x ∈ l, l.foldl min a ≤ x := by
  induction l generalizing a with
  | nil => simp
  | cons y l ih =>
    obtain ⟨h1, h2⟩ := ih (min a y)
    refine ⟨le_trans h1 (min_le_left _ _), ?_⟩
    intro x hx
    rcases List.mem_cons.mp hx with rfl | hx
    · exact le_trans h1 (min_le_right _ _)
    · exact h2 x hx

theorem foldl_min_mem (l : List K) (a : K) : l.foldl min a = a ∨ l.foldl min a ∈ l := by
  induction l generalizing a with
  | nil => left; rfl
  | cons y l ih =>
    rw [List.foldl_cons]
    rcases ih (min a y) with h | h
    · rcases min_choice a y with e | e
      · left; rw [h, e]
      · right; rw [h, e]; exact List.mem_cons_self ..
    · right; exact List.mem_cons_of_mem _ h

theorem maxElt_spec {l : List K} {m : K} (h : maxElt l = some m) : m ∈ l ∧ ∀ x ∈ l, x ≤ m := by
  cases l with
  | nil => simp [maxElt] at h
  | cons y l =>
    simp only [maxElt, Option.some.injEq] at h
    subst h
    refine ⟨?_, ?_⟩
    · rcases foldl_max_mem l y with e | e
      · rw [e]; exact List.mem_cons_self ..
      · exact List.mem_cons_of_mem _ e
    · intro x hx
      rcases List.mem_cons.mp hx with rfl | hx
      · exact (foldl_max_ge l x).1
      · exact (foldl_max_ge l y).2 x hx

theorem minElt_spec {l : List K} {m : K} (h : minElt l = some m) : m ∈ l ∧ ∀ x ∈ l, m ≤ x := by
  cases l with
  | nil => simp [minElt] at h
  | cons y l =>
    simp only [minElt, Option.some.injEq] at h
    subst h
    refine ⟨?_, ?_⟩
    · rcases foldl_min_mem l y with e | e
      · rw [e]; exact List.mem_cons_self ..
      · exact List.mem_cons_of_mem _ e
    · intro x hx
      rcases List.mem_cons.mp hx with rfl | hx
      · exact (foldl_min_le l x).1
      · exact (foldl_min_le l y).2 x hx

theorem maxElt_gt {l : List K} (z : K) :
    (match maxElt l with | some m => decide (m > z) | none => false) = true ↔ ∃ x ∈ l, z < x := by
  cases h : maxElt l with
  | none =>
    cases l with
    | nil => simp
    | cons y l => simp [maxElt] at h
  | some m =>
    obtain ⟨h1, h2⟩ := maxElt_spec h
    simp only [gt_iff_lt, decide_eq_true_eq]
    exact ⟨fun hz => ⟨m, h1, hz⟩, fun ⟨x, hx, hz⟩ => lt_of_lt_of_le hz (h2 x hx)⟩

theorem minElt_lt {l : List K} (z : K) :
    (match minElt l with | some m => decide (m < z) | none => false) = true ↔ ∃ x ∈ l, x < z := by
  cases h : minElt l with
  | none =>
    cases l with
    | nil => simp
    | cons y l => simp [minElt] at h
  | some m =>
    obtain ⟨h1, h2⟩ := minElt_spec h
    simp only [decide_eq_true_eq]
    exact ⟨fun hz => ⟨m, h1, hz⟩, fun ⟨x, hx, hz⟩ => lt_of_le_of_lt (h2 x hx) hz⟩

end Verif.Chopper
