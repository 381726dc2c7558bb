import Verif.Model.RelPerm
import Mathlib.Algebra.Field.Rat
import Mathlib.Algebra.Order.Ring.Unbundled.Rat
import Mathlib.Tactic.NormNum
import Mathlib.Tactic.Linarith

/-!
C31: what holds of the cell data after the input check of the relperm upscaler. C70: checked relperm curves.
-/

namespace Verif.RelPerm

variable {K : Type} [Field K] [LinearOrder K]

omit [Field K] [LinearOrder K] in
theorem noRock_get (v : K) (ss : List Int) (l r : List K) (h : noRock v ss l = some r) :
    r.length = l.length ∧ ∀ (i : Nat) (x : K), l[i]? = some x → r[i]? = some (if ss[i]? = some 0 then v else x) := by
  induction ss generalizing l r with
  | nil =>
    simp only [noRock, Option.some.injEq] at h
    subst h
    exact ⟨rfl, fun i x hx => by simpa using hx⟩
  | cons s ss ih =>
    cases l with
    | nil =>
      simp only [noRock] at h
      split at h
      · exact absurd h (by simp)
      · obtain ⟨h1, h2⟩ := ih [] r h
        exact ⟨h1, fun i x hx => by simp at hx⟩
    | cons x l =>
      simp only [noRock, Option.map_eq_some_iff] at h
      obtain ⟨r', hr, rfl⟩ := h
      obtain ⟨h1, h2⟩ := ih l r' hr
      refine ⟨by simp [h1], ?_⟩
      intro i y hy
      cases i with
      | zero =>
        simp only [List.getElem?_cons_zero, Option.some.injEq] at hy ⊢
        subst hy
        rfl
      | succ i =>
        simp only [List.getElem?_cons_succ] at hy ⊢
        exact h2 i y hy

omit [Field K] [LinearOrder K] in
theorem noRock_defined (v : K) (ss : List Int) (l : List K) (h : ss.length ≤ l.length) :
    ∃ r, noRock v ss l = some r := by
  induction ss generalizing l with
  | nil => exact ⟨l, rfl⟩
  | cons s ss ih =>
    cases l with
    | nil => simp at h
    | cons x l =>
      obtain ⟨r, hr⟩ := ih l (by simpa using h)
      exact ⟨_, by simp [noRock, hr]; rfl⟩

/-- The outcome of one accepted array: the value of every cell. -/
theorem noRock_map (v : K) (f : K → K) (ss : List Int) (l r : List K) (h : noRock v ss (l.map f) = some r) :
    r.length = l.length ∧ ∀ (i : Nat) (y : K), r[i]? = some y → ∃ x, l[i]? = some x ∧ y = if ss[i]? = some 0 then v else f x := by
  obtain ⟨h1, h2⟩ := noRock_get v ss _ r h
  rw [List.length_map] at h1
  refine ⟨h1, ?_⟩
  intro i y hy
  have hi := (List.getElem?_eq_some_iff.mp hy).1
  rw [h1] at hi
  have hx := List.getElem?_eq_getElem hi
  refine ⟨_, hx, ?_⟩
  have := h2 i (f l[i]) (by rw [List.getElem?_map, hx]; rfl)
  rw [hy] at this
  exact Option.some.inj this

/-- **C31.** Accepted input: every rock number is in 0..1000; cells of rock type 0 have porosity 0 and the least
permeability; in all other cells porosity lies in `[minPoro, 1]` and x-permeability in the configured limits, and values
already in range are unchanged. y- and z-permeabilities are kept as given (non-negative). -/
theorem C31_accepted (minPoro low high : K) (c c' : Cells K) (h : sanity minPoro low high c = .ok c')
    (hp : minPoro ≤ 1) (hk : low ≤ high) :
    c'.satnums = c.satnums ∧ (∀ s ∈ c'.satnums, 0 ≤ s ∧ s ≤ 1000) ∧
    (c'.poros.length = c.poros.length ∧ ∀ (i : Nat) (y : K), c'.poros[i]? = some y → ∃ x, c.poros[i]? = some x ∧
      (c.satnums[i]? = some 0 → y = 0) ∧
      (c.satnums[i]? ≠ some 0 → minPoro ≤ y ∧ y ≤ 1 ∧ (minPoro ≤ x → y = x))) ∧
    (c'.permx.length = c.permx.length ∧ ∀ (i : Nat) (y : K), c'.permx[i]? = some y → ∃ x, c.permx[i]? = some x ∧
      low ≤ y ∧ y ≤ high ∧ (c.satnums[i]? = some 0 → y = low) ∧
      (c.satnums[i]? ≠ some 0 → low ≤ x → x ≤ high → y = x)) ∧
    (c.aniso = true → ∀ i : Nat,
      (∀ y, c'.permy[i]? = some y → ∃ x, c.permy[i]? = some x ∧ 0 ≤ x ∧ y = if c.satnums[i]? = some 0 then low else x) ∧
      (∀ y, c'.permz[i]? = some y → ∃ x, c.permz[i]? = some x ∧ 0 ≤ x ∧ y = if c.satnums[i]? = some 0 then low else x)) := by
  unfold sanity at h
  split at h
  · exact absurd h (by simp)
  rename_i hs
  split at h
  · exact absurd h (by simp)
  rename_i hpo
  split at h
  · exact absurd h (by simp)
  rename_i hkx
  split at h
  · exact absurd h (by simp)
  rename_i hky
  split at h
  · exact absurd h (by simp)
  rename_i hkz
  simp only [Bool.or_eq_true, not_or, List.any_eq_true, not_exists, decide_eq_true_eq] at hs hpo hkx
  have hsat : ∀ s ∈ c.satnums, 0 ≤ s ∧ s ≤ 1000 := fun s hm =>
    ⟨not_lt.mp fun hh => hs.1 s ⟨hm, hh⟩, not_lt.mp fun hh => hs.2 s ⟨hm, hh⟩⟩
  have hpor : ∀ p ∈ c.poros, 0 ≤ p ∧ p ≤ 1 := fun p hm =>
    ⟨not_lt.mp fun hh => hpo p ⟨hm, Or.inl hh⟩, not_lt.mp fun hh => hpo p ⟨hm, Or.inr hh⟩⟩
  have hkxx : ∀ p ∈ c.permx, 0 ≤ p := fun p hm => not_lt.mp fun hh => hkx p ⟨hm, hh⟩
  simp only [] at h
  split at h
  rotate_left 1
  · exact absurd h (by simp)
  rename_i kx po e1 e2
  obtain ⟨lx, gx⟩ := noRock_map low (truncPerm low high) _ _ _ e1
  obtain ⟨lp, gp⟩ := noRock_map 0 (truncPoro minPoro) _ _ _ e2
  have poroP : po.length = c.poros.length ∧ ∀ (i : Nat) (y : K), po[i]? = some y → ∃ x, c.poros[i]? = some x ∧
      (c.satnums[i]? = some 0 → y = 0) ∧
      (c.satnums[i]? ≠ some 0 → minPoro ≤ y ∧ y ≤ 1 ∧ (minPoro ≤ x → y = x)) := by
    refine ⟨lp, ?_⟩
    intro i y hy
    obtain ⟨x, hx, ey⟩ := gp i y hy
    obtain ⟨q1, q2⟩ := hpor x (List.mem_of_getElem? hx)
    refine ⟨x, hx, fun h0 => by rw [ey, if_pos h0], fun h0 => ?_⟩
    rw [ey, if_neg h0]
    unfold truncPoro
    by_cases hlt : x < minPoro
    · rw [if_pos ⟨not_lt.mpr q1, hlt⟩]
      exact ⟨le_refl _, hp, fun hh => absurd hlt (not_lt.mpr hh)⟩
    · rw [if_neg (fun hh => hlt hh.2)]
      exact ⟨not_lt.mp hlt, q2, fun _ => rfl⟩
  have permP : kx.length = c.permx.length ∧ ∀ (i : Nat) (y : K), kx[i]? = some y → ∃ x, c.permx[i]? = some x ∧
      low ≤ y ∧ y ≤ high ∧ (c.satnums[i]? = some 0 → y = low) ∧
      (c.satnums[i]? ≠ some 0 → low ≤ x → x ≤ high → y = x) := by
    refine ⟨lx, ?_⟩
    intro i y hy
    obtain ⟨x, hx, ey⟩ := gx i y hy
    have q1 := hkxx x (List.mem_of_getElem? hx)
    refine ⟨x, hx, ?_⟩
    by_cases h0 : c.satnums[i]? = some 0
    · rw [if_pos h0] at ey
      rw [ey]
      exact ⟨le_refl _, hk, fun _ => rfl, fun hh => absurd h0 hh⟩
    · rw [if_neg h0] at ey
      rw [ey]
      unfold truncPerm
      by_cases hlt : x < low
      · rw [if_pos ⟨not_lt.mpr q1, hlt⟩]
        exact ⟨le_refl _, hk, fun hh => absurd hh h0, fun _ hh => absurd hlt (not_lt.mpr hh)⟩
      · rw [if_neg (fun hh => hlt hh.2)]
        by_cases hgt : x > high
        · rw [if_pos hgt]
          exact ⟨hk, le_refl _, fun hh => absurd hh h0, fun _ _ hh => absurd hgt (not_lt.mpr hh)⟩
        · rw [if_neg hgt]
          exact ⟨not_lt.mp hlt, not_lt.mp hgt, fun hh => absurd hh h0, fun _ _ _ => rfl⟩
  by_cases ha : c.aniso = true
  · rw [if_pos ha] at h
    split at h
    · rename_i ky kz e3 e4
      rw [← Except.ok.inj h]
      rw [ha] at hky hkz
      simp only [Bool.true_and, List.any_eq_true, not_exists, decide_eq_true_eq] at hky hkz
      refine ⟨rfl, hsat, poroP, permP, fun _ i => ⟨?_, ?_⟩⟩
      · intro y hy
        obtain ⟨x, hx, ey⟩ := (noRock_map low id c.satnums c.permy ky (by rw [List.map_id]; exact e3)).2 i y hy
        exact ⟨x, hx, not_lt.mp fun hh => hky x ⟨List.mem_of_getElem? hx, hh⟩, ey⟩
      · intro y hy
        obtain ⟨x, hx, ey⟩ := (noRock_map low id c.satnums c.permz kz (by rw [List.map_id]; exact e4)).2 i y hy
        exact ⟨x, hx, not_lt.mp fun hh => hkz x ⟨List.mem_of_getElem? hx, hh⟩, ey⟩
    · exact absurd h (by simp)
  · rw [if_neg ha] at h
    rw [← Except.ok.inj h]
    exact ⟨rfl, hsat, poroP, permP, fun hh => absurd hh ha⟩

/-- **C31.** Input whose arrays cover all cells is rejected exactly when some rock number is outside 0..1000, some
porosity outside [0,1], or some permeability negative. -/
theorem C31_rejected_iff (minPoro low high : K) (c : Cells K) (h1 : c.satnums.length ≤ c.poros.length)
    (h2 : c.satnums.length ≤ c.permx.length)
    (h3 : c.aniso = true → c.satnums.length ≤ c.permy.length ∧ c.satnums.length ≤ c.permz.length) :
    (∃ e, sanity minPoro low high c = .error e) ↔
      (∃ s ∈ c.satnums, s < 0 ∨ 1000 < s) ∨ (∃ p ∈ c.poros, p < 0 ∨ 1 < p) ∨ (∃ k ∈ c.permx, k < 0) ∨
      (c.aniso = true ∧ ((∃ k ∈ c.permy, k < 0) ∨ ∃ k ∈ c.permz, k < 0)) := by
  obtain ⟨kx, e1⟩ := noRock_defined low c.satnums (c.permx.map (truncPerm low high)) (by simpa using h2)
  obtain ⟨po, e2⟩ := noRock_defined 0 c.satnums (c.poros.map (truncPoro minPoro)) (by simpa using h1)
  unfold sanity
  by_cases a1 : (c.satnums.any (fun s => decide (s < 0)) || c.satnums.any (fun s => decide (s > 1000))) = true
  · rw [if_pos a1]
    refine ⟨fun _ => Or.inl ?_, fun _ => ⟨_, rfl⟩⟩
    simp only [Bool.or_eq_true, List.any_eq_true, decide_eq_true_eq] at a1
    rcases a1 with ⟨s, hs, hh⟩ | ⟨s, hs, hh⟩
    · exact ⟨s, hs, Or.inl hh⟩
    · exact ⟨s, hs, Or.inr hh⟩
  have n1 : ¬ ∃ s ∈ c.satnums, s < 0 ∨ 1000 < s := by
    rintro ⟨s, hs, hh | hh⟩
    · exact a1 (by simp only [Bool.or_eq_true, List.any_eq_true, decide_eq_true_eq]; exact Or.inl ⟨s, hs, hh⟩)
    · exact a1 (by simp only [Bool.or_eq_true, List.any_eq_true, decide_eq_true_eq]; exact Or.inr ⟨s, hs, hh⟩)
  rw [if_neg a1]
  by_cases a2 : c.poros.any (fun p => decide (p < 0) || decide (p > 1)) = true
  · rw [if_pos a2]
    refine ⟨fun _ => Or.inr (Or.inl ?_), fun _ => ⟨_, rfl⟩⟩
    simpa only [Bool.or_eq_true, List.any_eq_true, decide_eq_true_eq] using a2
  have n2 : ¬ ∃ p ∈ c.poros, p < 0 ∨ 1 < p := by
    intro hh
    exact a2 (by simpa only [Bool.or_eq_true, List.any_eq_true, decide_eq_true_eq] using hh)
  rw [if_neg a2]
  by_cases a3 : c.permx.any (fun k => decide (k < 0)) = true
  · rw [if_pos a3]
    refine ⟨fun _ => Or.inr (Or.inr (Or.inl ?_)), fun _ => ⟨_, rfl⟩⟩
    simpa only [List.any_eq_true, decide_eq_true_eq] using a3
  have n3 : ¬ ∃ k ∈ c.permx, k < 0 := by
    intro hh
    exact a3 (by simpa only [List.any_eq_true, decide_eq_true_eq] using hh)
  rw [if_neg a3]
  by_cases a4 : (c.aniso && c.permy.any (fun k => decide (k < 0))) = true
  · rw [if_pos a4]
    refine ⟨fun _ => Or.inr (Or.inr (Or.inr ?_)), fun _ => ⟨_, rfl⟩⟩
    simp only [Bool.and_eq_true, List.any_eq_true, decide_eq_true_eq] at a4
    exact ⟨a4.1, Or.inl a4.2⟩
  rw [if_neg a4]
  by_cases a5 : (c.aniso && c.permz.any (fun k => decide (k < 0))) = true
  · rw [if_pos a5]
    refine ⟨fun _ => Or.inr (Or.inr (Or.inr ?_)), fun _ => ⟨_, rfl⟩⟩
    simp only [Bool.and_eq_true, List.any_eq_true, decide_eq_true_eq] at a5
    exact ⟨a5.1, Or.inr a5.2⟩
  rw [if_neg a5]
  simp only [e1, e2]
  have none_of : ¬ ((∃ s ∈ c.satnums, s < 0 ∨ 1000 < s) ∨ (∃ p ∈ c.poros, p < 0 ∨ 1 < p) ∨ (∃ k ∈ c.permx, k < 0) ∨
      (c.aniso = true ∧ ((∃ k ∈ c.permy, k < 0) ∨ ∃ k ∈ c.permz, k < 0))) := by
    rintro (hh | hh | hh | ⟨ha, hh | hh⟩)
    · exact n1 hh
    · exact n2 hh
    · exact n3 hh
    · exact a4 (by simp only [Bool.and_eq_true, List.any_eq_true, decide_eq_true_eq]; exact ⟨ha, hh⟩)
    · exact a5 (by simp only [Bool.and_eq_true, List.any_eq_true, decide_eq_true_eq]; exact ⟨ha, hh⟩)
  refine ⟨fun ⟨e, he⟩ => ?_, fun hh => absurd hh none_of⟩
  by_cases ha : c.aniso = true
  · rw [if_pos ha] at he
    obtain ⟨ky, e3⟩ := noRock_defined low c.satnums c.permy (h3 ha).1
    obtain ⟨kz, e4⟩ := noRock_defined low c.satnums c.permz (h3 ha).2
    rw [e3, e4] at he
    exact absurd he (by simp)
  · rw [if_neg ha] at he
    exact absurd he (by simp)

/-- **C31.** Loading fails exactly without PORO or PERMX; without SATNUM all cells get rock 1; the y- and
z-permeabilities are used only when both are present. -/
theorem C31_load (d : DeckIn K) :
    ((∃ e, load d = .error e) ↔ d.poro = none ∨ d.permx = none) ∧
    ∀ c, load d = .ok c → d.poro = some c.poros ∧ d.permx = some c.permx ∧
      (d.satnum = some c.satnums ∨ d.satnum = none ∧ c.satnums = List.replicate c.poros.length 1) ∧
      (c.aniso = true ↔ d.permy ≠ none ∧ d.permz ≠ none) ∧
      (c.aniso = true → d.permy = some c.permy ∧ d.permz = some c.permz) := by
  unfold load
  rcases d with ⟨_ | po, _ | kx, _ | ky, _ | kz, _ | sn⟩ <;> simp
  all_goals (try (intro c hc; subst hc; simp))

/-- A three-cell input with a cell to raise, a cell to cut and a cell without rock. -/
example : (match sanity (K := ℚ) (1/1000) 1 100 ⟨[0, 1/4, 1/5], [1/2, 500, 30], [], [], [1, 2, 0], false⟩ with
    | .ok c => c.poros == [1/1000, 1/4, 0] && c.permx == [1, 100, 1]
    | .error _ => false) = true := by decide +kernel

/-- **C31 (deviation).** y- and z-permeabilities of 0 are accepted and stay 0 although the least permeability is 1, and
rock number 1000 is accepted although the message asks for numbers below 1000. -/
theorem C31_violated_unlimited_permy :
    (match sanity (K := ℚ) (1/1000) 1 100 ⟨[1/4], [30], [0], [5000], [1000], true⟩ with
    | .ok c => c.permy == [0] && c.permz == [5000] && c.satnums == [1000]
    | .error _ => false) = true := by decide +kernel

/-! ### C70 -/

theorem foldl_min_snd (ps : List (K × K)) (m : K) :
    (∀ q ∈ ps, ps.foldl (fun m q => min m q.2) m ≤ q.2) ∧ ps.foldl (fun m q => min m q.2) m ≤ m ∧
    (ps.foldl (fun m q => min m q.2) m = m ∨ ∃ q ∈ ps, q.2 = ps.foldl (fun m q => min m q.2) m) := by
  induction ps generalizing m with
  | nil => simp
  | cons p ps ih =>
    obtain ⟨h1, h2, h3⟩ := ih (min m p.2)
    rw [List.foldl_cons]
    refine ⟨?_, le_trans h2 (min_le_left _ _), ?_⟩
    · intro q hq
      rcases List.mem_cons.mp hq with rfl | hq
      · exact le_trans h2 (min_le_right _ _)
      · exact h1 q hq
    · rcases h3 with h3 | ⟨q, hq, e⟩
      · rw [h3]
        rcases min_choice m p.2 with e | e
        · left; exact e
        · right; exact ⟨p, List.mem_cons_self .., e.symm⟩
      · right; exact ⟨q, List.mem_cons_of_mem _ hq, e⟩

theorem foldl_max_snd (ps : List (K × K)) (m : K) :
    (∀ q ∈ ps, q.2 ≤ ps.foldl (fun m q => max m q.2) m) ∧ m ≤ ps.foldl (fun m q => max m q.2) m ∧
    (ps.foldl (fun m q => max m q.2) m = m ∨ ∃ q ∈ ps, q.2 = ps.foldl (fun m q => max m q.2) m) := by
  induction ps generalizing m with
  | nil => simp
  | cons p ps ih =>
    obtain ⟨h1, h2, h3⟩ := ih (max m p.2)
    rw [List.foldl_cons]
    refine ⟨?_, le_trans (le_max_left _ _) h2, ?_⟩
    · intro q hq
      rcases List.mem_cons.mp hq with rfl | hq
      · exact le_trans (le_max_right _ _) h2
      · exact h1 q hq
    · rcases h3 with h3 | ⟨q, hq, e⟩
      · rw [h3]
        rcases max_choice m p.2 with e | e
        · left; exact e
        · right; exact ⟨p, List.mem_cons_self .., e.symm⟩
      · right; exact ⟨q, List.mem_cons_of_mem _ hq, e⟩

theorem minF_spec (c : Curve K) (m : K) (h : c.minF = some m) : (∀ q ∈ c.pts, m ≤ q.2) ∧ ∃ q ∈ c.pts, q.2 = m := by
  unfold Curve.minF at h
  split at h
  · exact absurd h (by simp)
  · rename_i p ps e
    have := Option.some.inj h
    subst this
    obtain ⟨h1, h2, h3⟩ := foldl_min_snd ps p.2
    rw [e]
    refine ⟨?_, ?_⟩
    · intro q hq
      rcases List.mem_cons.mp hq with rfl | hq
      · exact h2
      · exact h1 q hq
    · rcases h3 with h3 | ⟨q, hq, e'⟩
      · exact ⟨p, List.mem_cons_self .., h3.symm⟩
      · exact ⟨q, List.mem_cons_of_mem _ hq, e'⟩

theorem maxF_spec (c : Curve K) (m : K) (h : c.maxF = some m) : (∀ q ∈ c.pts, q.2 ≤ m) ∧ ∃ q ∈ c.pts, q.2 = m := by
  unfold Curve.maxF at h
  split at h
  · exact absurd h (by simp)
  · rename_i p ps e
    have := Option.some.inj h
    subst this
    obtain ⟨h1, h2, h3⟩ := foldl_max_snd ps p.2
    rw [e]
    refine ⟨?_, ?_⟩
    · intro q hq
      rcases List.mem_cons.mp hq with rfl | hq
      · exact h2
      · exact h1 q hq
    · rcases h3 with h3 | ⟨q, hq, e'⟩
      · exact ⟨p, List.mem_cons_self .., h3.symm⟩
      · exact ⟨q, List.mem_cons_of_mem _ hq, e'⟩

/-- The values rise or fall along the curve. -/
def MonotonePts (l : List (K × K)) : Prop :=
  (∀ i j : Nat, ∀ p q, i ≤ j → l[i]? = some p → l[j]? = some q → p.2 ≤ q.2) ∨
  (∀ i j : Nat, ∀ p q, i ≤ j → l[i]? = some p → l[j]? = some q → q.2 ≤ p.2)

/-- **C70.** For a non-empty monotone curve and a positive threshold: the curve is accepted exactly when its least value
is below the threshold (or zero); an accepted curve has the value 0 at one of its ends afterwards, its abscissas are
unchanged, and at most that one value was changed, by less than the threshold if it was not negative. -/
theorem C70_checkCurve (thresh : K) (ht : 0 < thresh) (c : Curve K) (hne : c.pts ≠ []) (hm : MonotonePts c.pts) :
    ∃ ok pts, checkCurve thresh c = some (ok, pts) ∧
      (ok = true ↔ ∃ q ∈ c.pts, q.2 < thresh) ∧
      (ok = false → pts = c.pts) ∧
      (ok = true → pts.map (·.1) = c.pts.map (·.1) ∧
        ((∃ p, pts.head? = some p ∧ p.2 = 0) ∨ ∃ p, pts.getLast? = some p ∧ p.2 = 0) ∧
        ((∃ p, c.pts.head? = some p ∧ p.2 < thresh ∧ (pts = c.pts ∨ pts = (p.1, 0) :: c.pts.tail)) ∨
          ∃ p, c.pts.getLast? = some p ∧ p.2 < thresh ∧ (pts = c.pts ∨ pts = c.pts.dropLast ++ [(p.1, 0)]))) := by
  obtain ⟨first, hf⟩ : ∃ p, c.pts.head? = some p := by
    cases h : c.pts with
    | nil => exact absurd h hne
    | cons p ps => exact ⟨p, rfl⟩
  obtain ⟨last, hl⟩ : ∃ p, c.pts.getLast? = some p := ⟨_, List.getLast?_eq_getLast_of_ne_nil hne⟩
  obtain ⟨m, hmin⟩ : ∃ m, c.minF = some m := by
    unfold Curve.minF
    cases h : c.pts with
    | nil => exact absurd h hne
    | cons p ps => exact ⟨_, rfl⟩
  obtain ⟨m1, q0, hq0, eq0⟩ := minF_spec c m hmin
  -- the least value is at an end
  have hend : first.2 = m ∨ last.2 = m := by
    obtain ⟨i, hi⟩ := List.mem_iff_getElem?.mp hq0
    have hf0 : c.pts[0]? = some first := by rw [← List.head?_eq_getElem?]; exact hf
    have hlast : c.pts[c.pts.length - 1]? = some last := by rw [← List.getLast?_eq_getElem?]; exact hl
    have hlen := (List.getElem?_eq_some_iff.mp hi).1
    have b1 := m1 first (List.mem_of_getElem? hf0)
    have b2 := m1 last (List.mem_of_getElem? hlast)
    rcases hm with hm | hm
    · left; exact le_antisymm (eq0 ▸ hm 0 i first q0 (by omega) hf0 hi) b1
    · right; exact le_antisymm (eq0 ▸ hm i _ q0 last (by omega) hi hlast) b2
  have hhead : c.pts = first :: c.pts.tail := by
    cases h : c.pts with
    | nil => exact absurd h hne
    | cons p ps => rw [h] at hf; simp at hf; simp [hf]
  have hlasteq : c.pts = c.pts.dropLast ++ [last] := by
    have := List.dropLast_append_getLast hne
    rw [List.getLast?_eq_getLast_of_ne_nil hne] at hl
    rw [Option.some.inj hl] at this
    exact this.symm
  unfold checkCurve
  simp only [hmin, hf, hl]
  have hex : (∃ q ∈ c.pts, q.2 < thresh) ↔ m < thresh :=
    ⟨fun ⟨q, hq, h⟩ => lt_of_le_of_lt (m1 q hq) h, fun h => ⟨q0, hq0, eq0 ▸ h⟩⟩
  rw [hex]
  by_cases h0 : m = 0
  · rw [if_pos h0]
    refine ⟨true, c.pts, rfl, ⟨fun _ => h0 ▸ ht, fun _ => rfl⟩, fun h => absurd h (by simp), fun _ => ⟨rfl, ?_, ?_⟩⟩
    · rcases hend with h | h
      · left; exact ⟨first, hf, by rw [h, h0]⟩
      · right; exact ⟨last, hl, by rw [h, h0]⟩
    · rcases hend with h | h
      · left; exact ⟨first, rfl, by rw [h, h0]; exact ht, Or.inl rfl⟩
      · right; exact ⟨last, rfl, by rw [h, h0]; exact ht, Or.inl rfl⟩
  rw [if_neg h0]
  by_cases h1 : m < thresh
  · rw [if_pos h1]
    by_cases h2 : first.2 < thresh
    · rw [if_pos h2]
      refine ⟨true, _, rfl, ⟨fun _ => h1, fun _ => rfl⟩, fun h => absurd h (by simp), fun _ => ⟨?_, ?_, ?_⟩⟩
      · conv_rhs => rw [hhead]
        rfl
      · left; exact ⟨_, rfl, rfl⟩
      · left; exact ⟨first, rfl, h2, Or.inr rfl⟩
    · rw [if_neg h2]
      have h3 : last.2 < thresh := by
        rcases hend with h | h
        · exact absurd (h ▸ h1) h2
        · exact h ▸ h1
      rw [if_pos h3]
      refine ⟨true, _, rfl, ⟨fun _ => h1, fun _ => rfl⟩, fun h => absurd h (by simp), fun _ => ⟨?_, ?_, ?_⟩⟩
      · conv_rhs => rw [hlasteq]
        simp
      · right; exact ⟨(last.1, 0), by simp, rfl⟩
      · right; exact ⟨last, rfl, h3, Or.inr rfl⟩
  · rw [if_neg h1]
    exact ⟨false, c.pts, rfl, by simp [h1], fun _ => rfl, fun h => absurd h (by simp)⟩

/-- A curve whose last value is rounded to zero. -/
example : checkCurve (K := ℚ) (1/100) ⟨[(0, 1), (1/2, 1/3), (1, 1/1000)], fun _ => 0⟩ =
    some (true, [(0, 1), (1/2, 1/3), (1, 0)]) := by decide +kernel

end Verif.RelPerm
