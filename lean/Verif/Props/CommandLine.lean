import Verif.Spec.CommandLine
import Mathlib.Tactic.Common
import Mathlib.Data.List.Induction
import Mathlib.Order.Basic

/-!
C101: command lines of the upscaling programs.
-/

namespace Verif.Cmd

open Spec

/-- What the loop makes of the options. -/
def settings (opts : Opts) (os : List (Arg × Arg)) : Opts := os.foldl (fun p o => Function.update p o.1 (some o.2)) opts

theorem settings_value (defaults : Opts) (os : List (Arg × Arg)) (k v : Arg) : settings defaults os k = some v ↔ Value defaults os k v := by
  induction os using List.reverseRecOn with
  | nil => simp [settings, Value]
  | append_singleton os o ih =>
    have e : settings defaults (os ++ [o]) = Function.update (settings defaults os) o.1 (some o.2) := by
      simp [settings]
    rw [e]
    by_cases h : k = o.1
    · subst h
      rw [Function.update_self]
      constructor
      · intro h
        obtain rfl := Option.some.inj h
        exact .inl ⟨os, [], rfl, by simp⟩
      · rintro (⟨l, r, h1, h2⟩ | ⟨h1, -⟩)
        · rcases List.eq_nil_or_concat r with rfl | ⟨r, x, rfl⟩
          · have := (List.append_inj' h1 rfl).2
            rw [(List.cons.inj this).1]
          · exfalso
            rw [List.concat_eq_append, ← List.cons_append, ← List.append_assoc] at h1
            have := (List.append_inj' h1 rfl).2
            obtain rfl := (List.cons.inj this).1
            exact h2 o (by simp) rfl
        · exact absurd rfl (h1 o (by simp))
    · rw [Function.update_of_ne h, ih]
      constructor
      · rintro (⟨l, r, rfl, h2⟩ | ⟨h1, h2⟩)
        · refine .inl ⟨l, r ++ [o], by simp, fun x hx => ?_⟩
          rcases List.mem_append.mp hx with hx | hx
          · exact h2 x hx
          · rw [List.mem_singleton.mp hx]; exact fun h' => h h'.symm
        · refine .inr ⟨fun x hx => ?_, h2⟩
          rcases List.mem_append.mp hx with hx | hx
          · exact h1 x hx
          · rw [List.mem_singleton.mp hx]; exact fun h' => h h'.symm
      · rintro (⟨l, r, h1, h2⟩ | ⟨h1, h2⟩)
        · rcases List.eq_nil_or_concat r with rfl | ⟨r, x, rfl⟩
          · have := (List.append_inj' h1 rfl).2
            exact absurd (congrArg Prod.fst (List.cons.inj this).1).symm h
          · rw [List.concat_eq_append, ← List.cons_append, ← List.append_assoc] at h1
            exact .inl ⟨l, r, (List.append_inj' h1 rfl).1, fun o ho => h2 o (by simp [ho])⟩
        · exact .inr ⟨fun o ho => h1 o (by simp [ho]), h2⟩

theorem settings_known (defaults : Opts) (os : List (Arg × Arg)) (h : Known defaults os) (k : Arg) :
    (settings defaults os k).isSome = (defaults k).isSome := by
  induction os generalizing defaults with
  | nil => rfl
  | cons o os ih =>
    obtain ⟨v, hv⟩ := h o (by simp)
    have e : settings defaults (o :: os) = settings (Function.update defaults o.1 (some o.2)) os := rfl
    rw [e, ih]
    · by_cases hk : k = o.1
      · subst hk; simp [hv]
      · rw [Function.update_of_ne hk]
    · intro x hx
      by_cases hk : x.1 = o.1
      · exact ⟨o.2, by rw [hk, Function.update_self]⟩
      · rw [Function.update_of_ne hk]; exact h x (by simp [hx])

theorem known_update (opts : Opts) (k w : Arg) (hk : (opts k).isSome) (os : List (Arg × Arg)) :
    Known (Function.update opts k (some w)) os ↔ Known opts os := by
  obtain ⟨v, hv⟩ := Option.isSome_iff_exists.mp hk
  refine forall₂_congr fun o _ => ?_
  by_cases h : o.1 = k
  · rw [h, Function.update_self, hv]; simp
  · rw [Function.update_of_ne h]

theorem isOption_iff (a : Arg) : isOption a = true ↔ ∃ l, a = '-' :: l := by
  unfold isOption
  cases a with
  | nil => simp
  | cons c l => simp

/-- The loop: known options are read, then there are no more arguments, or a file. -/
theorem scan_line (os : List (Arg × Arg)) (opts : Opts) (h : Known opts os) (argidx ecl : Nat) (rest : List Arg) :
    scan argidx ecl opts ((os.flatMap fun o => ['-' :: o.1, o.2]) ++ rest) =
      scan (argidx + 2 * os.length) (if os = [] then ecl else argidx + 2 * os.length) (settings opts os) rest := by
  induction os generalizing opts argidx ecl with
  | nil => simp [settings]
  | cons o os ih =>
    have ho : (opts o.1).isSome := by obtain ⟨v, hv⟩ := h o (by simp); simp [hv]
    have e : ((o :: os).flatMap fun o => ['-' :: o.1, o.2]) ++ rest =
        ('-' :: o.1) :: o.2 :: ((os.flatMap fun o => ['-' :: o.1, o.2]) ++ rest) := by simp
    rw [e]
    have e2 : scan argidx ecl opts (('-' :: o.1) :: o.2 :: ((os.flatMap fun o => ['-' :: o.1, o.2]) ++ rest)) =
        scan (argidx + 2) (argidx + 2) (Function.update opts o.1 (some o.2)) ((os.flatMap fun o => ['-' :: o.1, o.2]) ++ rest) := by
      conv_lhs => unfold scan
      simp [isOption, ho]
    rw [e2, ih _ ((known_update opts o.1 o.2 ho os).mpr fun x hx => h x (by simp [hx]))]
    have e3 : argidx + 2 + 2 * os.length = argidx + 2 * (o :: os).length := by simp; omega
    rw [e3]
    have e4 : (if os = [] then argidx + 2 else argidx + 2 * (o :: os).length) = argidx + 2 * (o :: os).length := by
      split
      · rename_i h; subst h; simp
      · rfl
    rw [e4, if_neg (by simp)]
    rfl

/-- Every list of arguments is read as known options followed by: nothing, a file, an unknown option, or a known option without value. -/
theorem cases_line (defaults : Opts) (l : List Arg) : ∃ os rest, l = (os.flatMap fun o => ['-' :: o.1, o.2]) ++ rest ∧ Known defaults os ∧
    (rest = [] ∨ (∃ f r, rest = f :: r ∧ IsFile f) ∨ (∃ k r, rest = ('-' :: k) :: r ∧ defaults k = none) ∨
      ∃ k v, rest = ['-' :: k] ∧ defaults k = some v) := by
  induction l using List.twoStepInduction with
  | nil => exact ⟨[], [], rfl, by simp [Known], .inl rfl⟩
  | singleton a =>
    refine ⟨[], [a], rfl, by simp [Known], ?_⟩
    by_cases h : isOption a = true
    · obtain ⟨k, rfl⟩ := (isOption_iff a).mp h
      cases hk : defaults k with
      | none => exact .inr (.inr (.inl ⟨k, [], rfl, hk⟩))
      | some v => exact .inr (.inr (.inr ⟨k, v, rfl, hk⟩))
    · exact .inr (.inl ⟨a, [], rfl, fun l hl => h ((isOption_iff a).mpr ⟨l, hl⟩)⟩)
  | cons_cons a b l ih _ =>
    by_cases h : isOption a = true
    · obtain ⟨k, rfl⟩ := (isOption_iff a).mp h
      cases hk : defaults k with
      | none => exact ⟨[], _, rfl, by simp [Known], .inr (.inr (.inl ⟨k, _, rfl, hk⟩))⟩
      | some v =>
        obtain ⟨os, rest, rfl, h1, h2⟩ := ih
        refine ⟨(k, b) :: os, rest, by simp, ?_, h2⟩
        intro o ho
        rcases List.mem_cons.mp ho with rfl | ho
        · exact ⟨v, hk⟩
        · exact h1 o ho
    · exact ⟨[], _, rfl, by simp [Known], .inr (.inl ⟨a, _, rfl, fun l hl => h ((isOption_iff a).mpr ⟨l, hl⟩)⟩)⟩

theorem line_length (prog : Arg) (os : List (Arg × Arg)) (rest : List Arg) : (line prog os rest).length = 1 + 2 * os.length + rest.length := by
  unfold line
  simp only [List.cons_append, List.length_cons, List.length_append, List.length_flatMap]
  have : (os.map fun _ => 2).sum = 2 * os.length := by
    induction os with
    | nil => rfl
    | cons o os ih => rw [List.map_cons, List.sum_cons, ih, List.length_cons]; omega
  simp only [List.length_nil, Nat.zero_add, Nat.reduceAdd] at *
  rw [this]; omega

theorem line_tail (prog : Arg) (os : List (Arg × Arg)) (rest : List Arg) : (line prog os rest).tail = (os.flatMap fun o => ['-' :: o.1, o.2]) ++ rest := rfl

theorem line_drop (prog : Arg) (os : List (Arg × Arg)) (rest : List Arg) : (line prog os rest).drop (1 + 2 * os.length) = rest := by
  have h : (line prog os []).length = 1 + 2 * os.length := by rw [line_length]; rfl
  have : line prog os rest = line prog os [] ++ rest := by unfold line; simp
  rw [this, ← h, List.drop_left]

theorem line_get (prog : Arg) (os : List (Arg × Arg)) (f : Arg) (rest : List Arg) : (line prog os (f :: rest))[1 + 2 * os.length]? = some f := by
  have := line_drop prog os (f :: rest)
  have h2 : ((line prog os (f :: rest)).drop (1 + 2 * os.length))[0]? = some f := by rw [this]; rfl
  rwa [List.getElem?_drop] at h2

theorem scan_file (argidx ecl : Nat) (opts : Opts) (f : Arg) (r : List Arg) (hf : IsFile f) : scan argidx ecl opts (f :: r) = .ok (opts, argidx) := by
  have h : ¬ isOption f = true := fun h => by obtain ⟨l, hl⟩ := (isOption_iff f).mp h; exact hf l hl
  cases r with
  | nil => unfold scan; rw [if_neg h]
  | cons b r => unfold scan; rw [if_neg h]

theorem scan_unknown (argidx ecl : Nat) (opts : Opts) (k : Arg) (r : List Arg) (hk : opts k = none) :
    scan argidx ecl opts (('-' :: k) :: r) = .usage := by
  cases r with
  | nil => unfold scan; simp [isOption, hk]
  | cons b r => unfold scan; simp [isOption, hk]

theorem scan_noValue (argidx ecl : Nat) (opts : Opts) (k v : Arg) (hk : opts k = some v) : scan argidx ecl opts ['-' :: k] = .ub := by
  unfold scan; simp [isOption, hk]

theorem settings_none {defaults : Opts} {os : List (Arg × Arg)} (h : Known defaults os) {k : Arg} (hk : defaults k = none) :
    settings defaults os k = none := by
  have := settings_known defaults os h k
  rw [hk] at this
  simpa using this

theorem settings_some {defaults : Opts} {os : List (Arg × Arg)} (h : Known defaults os) {k v : Arg} (hk : defaults k = some v) :
    ∃ w, settings defaults os k = some w := by
  have := settings_known defaults os h k
  rw [hk] at this
  exact Option.isSome_iff_exists.mp this

/-- **C101** (accepted lines). Programs with rock files: options in any order and number, each with the value that follows, the last value
counts; then the Eclipse file, then the rock files in order. -/
theorem C101_accepts (defaults : Opts) (prog file : Arg) (os : List (Arg × Arg)) (rocks : List Arg) (hk : Known defaults os) (hf : IsFile file)
    (hr : rocks ≠ []) :
    ∃ opts, withRocks defaults (line prog os (file :: rocks)) = .ok (opts, file, rocks) ∧ ∀ k v, opts k = some v ↔ Value defaults os k v := by
  refine ⟨settings defaults os, ?_, settings_value defaults os⟩
  have hl := line_length prog os (file :: rocks)
  have hr' : 0 < rocks.length := List.length_pos_iff.mpr hr
  rw [List.length_cons] at hl
  unfold withRocks
  rw [if_neg (by omega), line_tail, scan_line _ _ hk, scan_file _ _ _ _ _ hf]
  dsimp only
  rw [if_neg (by omega), line_get]
  dsimp only
  have := line_drop prog os (file :: rocks)
  have h2 : (line prog os (file :: rocks)).drop (1 + 2 * os.length + 1) = rocks := by
    rw [← List.drop_drop, this]; rfl
  rw [h2]

/-- **C101** (nothing else is accepted). -/
theorem C101_only (defaults : Opts) (prog : Arg) (args : List Arg) (opts : Opts) (file : Arg) (rocks : List Arg)
    (h : withRocks defaults (prog :: args) = .ok (opts, file, rocks)) :
    ∃ os, prog :: args = line prog os (file :: rocks) ∧ Known defaults os ∧ IsFile file ∧ rocks ≠ [] ∧ ∀ k v, opts k = some v ↔ Value defaults os k v := by
  obtain ⟨os, rest, hl, hk, hc⟩ := cases_line defaults args
  have hline : prog :: args = line prog os rest := by rw [hl]; rfl
  rw [hline] at h
  rcases hc with rfl | ⟨f, r, rfl, hf⟩ | ⟨k, r, rfl, hk2⟩ | ⟨k, v, rfl, hk2⟩
  · exfalso
    unfold withRocks at h
    rw [line_tail, scan_line _ _ hk] at h
    have hlen := line_length prog os []
    rw [List.length_nil] at hlen
    split at h
    · cases h
    · rename_i h1
      have : os ≠ [] := by rintro rfl; simp at hlen; omega
      rw [if_neg this] at h
      dsimp only [scan] at h
      rw [if_pos (by omega)] at h
      cases h
  · have hr : r ≠ [] := by
      rintro rfl
      unfold withRocks at h
      have hlen := line_length prog os [f]
      rw [List.length_singleton] at hlen
      rw [if_neg (by omega), line_tail, scan_line _ _ hk, scan_file _ _ _ _ _ hf] at h
      dsimp only at h
      rw [if_pos (by omega)] at h
      cases h
    obtain ⟨opts', h1, h2⟩ := C101_accepts defaults prog f os r hk hf hr
    rw [h1] at h
    injection h with h
    obtain ⟨h3, h⟩ := Prod.mk.inj h
    obtain ⟨h4, h5⟩ := Prod.mk.inj h
    subst h3 h4 h5
    exact ⟨os, hline, hk, hf, hr, h2⟩
  · exfalso
    unfold withRocks at h
    rw [line_tail, scan_line _ _ hk, scan_unknown _ _ _ _ _ (settings_none hk hk2)] at h
    split at h <;> cases h
  · exfalso
    obtain ⟨w, hw⟩ := settings_some hk hk2
    unfold withRocks at h
    rw [line_tail, scan_line _ _ hk, scan_noValue _ _ _ _ _ hw] at h
    split at h <;> cases h

/-- **C101** (unknown options). A line with an option that is not known is rejected, whatever follows. -/
theorem C101_unknown (defaults : Opts) (prog k : Arg) (os : List (Arg × Arg)) (rest : List Arg) (hk : Known defaults os) (hu : defaults k = none) :
    withRocks defaults (line prog os (('-' :: k) :: rest)) = .usage ∧ fileOnly defaults (line prog os (('-' :: k) :: rest)) = .usage := by
  have hl := line_length prog os (('-' :: k) :: rest)
  rw [List.length_cons] at hl
  constructor
  · unfold withRocks
    rw [if_neg (by omega), line_tail, scan_line _ _ hk, scan_unknown _ _ _ _ _ (settings_none hk hu)]
  · unfold fileOnly
    rw [if_neg (by omega), line_tail, scan_line _ _ hk, scan_unknown _ _ _ _ _ (settings_none hk hu)]

/-- **C101** (statistics program, accepted lines). Arguments after the Eclipse file are ignored. -/
theorem C101_file (defaults : Opts) (prog file : Arg) (os : List (Arg × Arg)) (rest : List Arg) (hk : Known defaults os) (hf : IsFile file) :
    ∃ opts, fileOnly defaults (line prog os (file :: rest)) = .ok (opts, file) ∧ ∀ k v, opts k = some v ↔ Value defaults os k v := by
  refine ⟨settings defaults os, ?_, settings_value defaults os⟩
  have hl := line_length prog os (file :: rest)
  rw [List.length_cons] at hl
  unfold fileOnly
  rw [if_neg (by omega), line_tail, scan_line _ _ hk, scan_file _ _ _ _ _ hf]
  dsimp only
  rw [line_get]

/-- **C101** (no arguments). A program called without arguments shows its usage. -/
theorem C101_noargs (defaults : Opts) (prog : Arg) :
    withRocks defaults [prog] = .usage ∧ fileOnly defaults [prog] = .usage ∧ permLine defaults [prog] = .usage := ⟨rfl, rfl, rfl⟩

/-- **C101** (violated). These and only these lines have no defined result: an option in the last place, without its value. -/
theorem C101_violated_value (defaults : Opts) (prog : Arg) (args : List Arg) :
    withRocks defaults (prog :: args) = .ub ↔ ∃ os k v, prog :: args = line prog os ['-' :: k] ∧ Known defaults os ∧ defaults k = some v := by
  constructor
  · intro h
    obtain ⟨os, rest, hl, hk, hc⟩ := cases_line defaults args
    have hline : prog :: args = line prog os rest := by rw [hl]; rfl
    rcases hc with rfl | ⟨f, r, rfl, hf⟩ | ⟨k, r, rfl, hk2⟩ | ⟨k, v, rfl, hk2⟩
    · exfalso
      rw [hline] at h
      unfold withRocks at h
      rw [line_tail, scan_line _ _ hk] at h
      have hlen := line_length prog os []
      rw [List.length_nil] at hlen
      split at h
      · cases h
      · rename_i h1
        have : os ≠ [] := by rintro rfl; simp at hlen; omega
        rw [if_neg this] at h
        dsimp only [scan] at h
        rw [if_pos (by omega)] at h
        cases h
    · exfalso
      rw [hline] at h
      by_cases hr : r = []
      · subst hr
        unfold withRocks at h
        have hlen := line_length prog os [f]
        rw [List.length_singleton] at hlen
        rw [if_neg (by omega), line_tail, scan_line _ _ hk, scan_file _ _ _ _ _ hf] at h
        dsimp only at h
        rw [if_pos (by omega)] at h
        cases h
      · obtain ⟨o, h1, -⟩ := C101_accepts defaults prog f os r hk hf hr
        rw [h1] at h
        cases h
    · exfalso
      rw [hline, (C101_unknown defaults prog k os r hk hk2).1] at h
      cases h
    · exact ⟨os, k, v, hline, hk, hk2⟩
  · rintro ⟨os, k, v, hline, hk, hk2⟩
    obtain ⟨w, hw⟩ := settings_some hk hk2
    have hl := line_length prog os ['-' :: k]
    rw [List.length_singleton] at hl
    rw [hline]
    unfold withRocks
    rw [if_neg (by omega), line_tail, scan_line _ _ hk, scan_noValue _ _ _ _ _ hw]

/-- **C101** (violated). The statistics program opens a null file name if options are not followed by a file. -/
theorem C101_violated_file (defaults : Opts) (prog : Arg) (os : List (Arg × Arg)) (hk : Known defaults os) (hne : os ≠ []) :
    fileOnly defaults (line prog os []) = .ub ∧ permLine defaults (line prog os []) = .ub ∧ withRocks defaults (line prog os []) = .usage := by
  have hl := line_length prog os []
  rw [List.length_nil] at hl
  have hp : 0 < os.length := List.length_pos_iff.mpr hne
  have hnone : (line prog os [])[1 + 2 * os.length]? = none := List.getElem?_eq_none (by omega)
  refine ⟨?_, ?_, ?_⟩
  · unfold fileOnly
    rw [if_neg (by omega), line_tail, scan_line _ _ hk, if_neg hne]
    dsimp only [scan]
    rw [hnone]
  · have key : ∀ (os : List (Arg × Arg)) (opts : Opts) (ecl : Nat), Known opts os →
        scanPerm ecl opts (os.flatMap fun o => ['-' :: o.1, o.2]) = .ok (settings opts os, ecl + 2 * os.length) := by
      intro os
      induction os with
      | nil => intro opts ecl _; simp [scanPerm, settings]
      | cons o os ih =>
        intro opts ecl h
        have ho : (opts o.1).isSome := by obtain ⟨v, hv⟩ := h o (by simp); simp [hv]
        have e : ((o :: os).flatMap fun o => ['-' :: o.1, o.2]) = ('-' :: o.1) :: o.2 :: (os.flatMap fun o => ['-' :: o.1, o.2]) := by simp
        rw [e]
        unfold scanPerm
        rw [if_neg (by simp), if_pos (by simp [isOption])]
        rw [List.tail_cons]
        rw [if_pos ho, ih _ _ ((known_update opts o.1 o.2 ho os).mpr fun x hx => h x (by simp [hx]))]
        have : ecl + 2 + 2 * os.length = ecl + 2 * (o :: os).length := by simp; omega
        rw [this]
        rfl
    unfold permLine
    rw [if_neg (by omega), line_tail, List.append_nil, key os defaults 1 hk]
    dsimp only
    rw [hnone]
  · unfold withRocks
    rw [if_neg (by omega), line_tail, scan_line _ _ hk, if_neg hne]
    dsimp only [scan]
    rw [if_pos (by omega)]

theorem scanPerm_line (os : List (Arg × Arg)) (opts : Opts) (ecl : Nat) (f : Arg) :
    ∃ n p, scanPerm ecl opts ((os.flatMap fun o => ['-' :: o.1, o.2]) ++ [f]) = .ok (p, ecl + 2 * n) ∧ n ≤ os.length ∧
      (Known opts os → n = os.length ∧ p = settings opts os) ∧ ((∃ o ∈ os, opts o.1 = none) → n < os.length) := by
  induction os generalizing opts ecl with
  | nil => exact ⟨0, opts, by simp [scanPerm], Nat.le_refl _, fun _ => ⟨rfl, rfl⟩, by simp⟩
  | cons o os ih =>
    have e : ((o :: os).flatMap fun o => ['-' :: o.1, o.2]) ++ [f] = ('-' :: o.1) :: o.2 :: ((os.flatMap fun o => ['-' :: o.1, o.2]) ++ [f]) := by simp
    rw [e]
    unfold scanPerm
    rw [if_neg (by simp), if_pos (by simp [isOption])]
    rw [List.tail_cons]
    by_cases ho : (opts o.1).isSome = true
    · rw [if_pos ho]
      obtain ⟨n, p, h1, h2, h3, h4⟩ := ih (Function.update opts o.1 (some o.2)) (ecl + 2)
      refine ⟨n + 1, p, by rw [h1]; congr 2; omega, by simp; omega, fun h => ?_, ?_⟩
      · obtain ⟨a, b⟩ := h3 ((known_update opts o.1 o.2 ho os).mpr fun x hx => h x (by simp [hx]))
        exact ⟨by simp [a], b⟩
      · rintro ⟨x, hx, hn⟩
        rcases List.mem_cons.mp hx with rfl | hx
        · rw [hn] at ho; cases ho
        · have := h4 ⟨x, hx, by
            rw [Function.update_of_ne]
            · exact hn
            · intro e; rw [e] at hn; rw [hn] at ho; cases ho⟩
          simp; omega
    · rw [if_neg ho]
      obtain ⟨n, p, h1, h2, h3, h4⟩ := ih opts ecl
      refine ⟨n, p, h1, by simp; omega, fun h => ?_, fun _ => by simp; omega⟩
      obtain ⟨v, hv⟩ := h o (by simp)
      rw [hv] at ho
      exact absurd rfl ho

/-- **C101** (permeability program, accepted lines). -/
theorem C101_perm (defaults : Opts) (prog file : Arg) (os : List (Arg × Arg)) (hk : Known defaults os) :
    ∃ opts, permLine defaults (line prog os [file]) = .ok (opts, file) ∧ ∀ k v, opts k = some v ↔ Value defaults os k v := by
  refine ⟨settings defaults os, ?_, settings_value defaults os⟩
  have hl := line_length prog os [file]
  rw [List.length_singleton] at hl
  obtain ⟨n, p, h1, -, h3, -⟩ := scanPerm_line os defaults 1 file
  obtain ⟨rfl, rfl⟩ := h3 hk
  unfold permLine
  rw [if_neg (by omega), line_tail, h1]
  dsimp only
  rw [line_get]

/-- **C101** (violated). The permeability program does not reject an unknown option: it then takes the name of an option for the file. -/
theorem C101_violated_unknown (defaults : Opts) (prog file : Arg) (os : List (Arg × Arg)) (hu : ∃ o ∈ os, defaults o.1 = none) :
    ∃ opts o, o ∈ os ∧ permLine defaults (line prog os [file]) = .ok (opts, '-' :: o.1) := by
  have hl := line_length prog os [file]
  rw [List.length_singleton] at hl
  obtain ⟨n, p, h1, -, -, h4⟩ := scanPerm_line os defaults 1 file
  have hn := h4 hu
  refine ⟨p, os[n], List.getElem_mem hn, ?_⟩
  unfold permLine
  rw [if_neg (by omega), line_tail, h1]
  dsimp only
  have : line prog os [file] = line prog (os.take n) (('-' :: os[n].1) :: os[n].2 :: ((os.drop (n + 1)).flatMap fun o => ['-' :: o.1, o.2]) ++ [file]) := by
    have e : os = os.take n ++ os[n] :: os.drop (n + 1) := by rw [List.getElem_cons_drop, List.take_append_drop]
    have e2 : (os.flatMap fun o => ['-' :: o.1, o.2]) = ((os.take n).flatMap fun o => ['-' :: o.1, o.2]) ++
        ('-' :: os[n].1) :: os[n].2 :: ((os.drop (n + 1)).flatMap fun o => ['-' :: o.1, o.2]) := by
      conv_lhs => rw [e]
      simp only [List.flatMap_append, List.flatMap_cons, List.cons_append, List.nil_append]
    unfold line
    rw [e2]
    simp
  rw [this]
  have h2 := line_get prog (os.take n) ('-' :: os[n].1) (os[n].2 :: ((os.drop (n + 1)).flatMap fun o => ['-' :: o.1, o.2]) ++ [file])
  rw [List.length_take, Nat.min_eq_left (Nat.le_of_lt hn)] at h2
  rw [List.cons_append, h2]

/-- **C101** (rock files). One file for each rock type, in order, or one for all; any other number is rejected. -/
theorem C101_rocks (n : Nat) (files : List Arg) (hne : files ≠ []) :
    (∀ l, rockFiles n files = .ok l ↔ l.length = n ∧ (files = l ∨ ∃ f, files = [f] ∧ ∀ x ∈ l, x = f)) ∧
    ((∀ l, rockFiles n files ≠ .ok l) → rockFiles n files = .usage ∧ files.length ≠ n ∧ files.length ≠ 1) := by
  constructor
  · intro l
    unfold rockFiles
    split
    · rename_i h
      constructor
      · intro h'; injection h' with h'; subst h'; exact ⟨h, .inl rfl⟩
      · rintro ⟨h1, rfl | ⟨f, rfl, h2⟩⟩
        · rfl
        · have : l = List.replicate n f := List.eq_replicate_iff.mpr ⟨h1, h2⟩
          rw [List.length_singleton] at h
          subst h
          rw [this]; rfl
    · rename_i h
      match files, hne with
      | [f], _ =>
        constructor
        · intro h'; injection h' with h'; subst h'
          exact ⟨by simp, .inr ⟨f, rfl, fun x hx => List.eq_of_mem_replicate hx⟩⟩
        · rintro ⟨h1, rfl | ⟨g, hg, h2⟩⟩
          · exact absurd h1 h
          · obtain rfl := (List.cons.inj hg).1
            rw [List.eq_replicate_iff.mpr ⟨h1, h2⟩]
      | a :: b :: r, _ =>
        constructor
        · intro h'; cases h'
        · rintro ⟨h1, rfl | ⟨g, hg, h2⟩⟩
          · exact absurd h1 h
          · cases hg
  · intro hn
    unfold rockFiles at hn ⊢
    split at hn
    · exact absurd rfl (hn _)
    · rename_i h
      rw [if_neg h]
      match files, hne with
      | [f], _ => exact absurd rfl (hn _)
      | a :: b :: r, _ => exact ⟨rfl, h, by simp⟩

theorem pairs_flat (l : List (Arg × Arg)) : pairs (l.flatMap fun p => [p.1, p.2]) = l := by
  induction l with
  | nil => rfl
  | cons p l ih => simp [pairs, ih]

theorem flat_pairs (n : Nat) (l : List Arg) (h : l.length = 2 * n) : (pairs l).flatMap (fun p => [p.1, p.2]) = l ∧ (pairs l).length = n := by
  induction n generalizing l with
  | zero =>
    have : l = [] := List.length_eq_zero_iff.mp (by omega)
    subst this; simp [pairs]
  | succ n ih =>
    match l, h with
    | [], h => simp at h
    | [a], h => simp at h; omega
    | a :: b :: r, h =>
      obtain ⟨h1, h2⟩ := ih r (by simp at h; omega)
      simp [pairs, h1, h2]

/-- **C101** (rock files, anisotropic input). Water and oil files alternate: a pair for each rock type, in order, or one pair for all. -/
theorem C101_rockpairs (n : Nat) (files : List Arg) (hne : files ≠ []) (l : List (Arg × Arg)) :
    rockPairs n files = .ok l ↔ l.length = n ∧ (files = l.flatMap (fun p => [p.1, p.2]) ∨ ∃ w o, files = [w, o] ∧ ∀ x ∈ l, x = (w, o)) := by
  unfold rockPairs
  split
  · rename_i h
    obtain ⟨h1, h2⟩ := flat_pairs n files h
    constructor
    · intro h'; injection h' with h'; subst h'; exact ⟨h2, .inl h1.symm⟩
    · rintro ⟨h3, rfl | ⟨w, o, rfl, h4⟩⟩
      · rw [pairs_flat]
      · have : n = 1 := by simp at h; omega
        subst this
        obtain ⟨x, rfl⟩ := List.length_eq_one_iff.mp h3
        rw [h4 x (by simp)]
        rfl
  · rename_i h
    constructor
    · intro h'
      split at h'
      · rename_i w o
        injection h' with h'; subst h'
        exact ⟨by simp, .inr ⟨w, o, rfl, fun x hx => List.eq_of_mem_replicate hx⟩⟩
      · cases h'
    · rintro ⟨h3, rfl | ⟨w, o, rfl, h4⟩⟩
      · exfalso
        apply h
        rw [← h3]
        clear h h3 hne
        induction l with
        | nil => rfl
        | cons a l ih => simp only [List.flatMap_cons, List.length_append, ih, List.length_cons, List.length_nil]; omega
      · dsimp only
        rw [List.eq_replicate_iff.mpr ⟨h3, h4⟩]

/-- **C101** (boundary conditions). One to three characters; the conditions computed are those whose letters occur, and at least one must. -/
theorem C101_conditions (bc : Arg) (F L P : Bool) :
    conditions bc = .ok (F, L, P) ↔ bc.length ≤ 3 ∧ (F = true ↔ 'f' ∈ bc) ∧ (L = true ↔ 'l' ∈ bc) ∧ (P = true ↔ 'p' ∈ bc) ∧ (F || L || P) = true := by
  have key : ∀ c, bc.length ≤ 3 → ((bc.findIdx (· == c) < 3 ∧ bc.findIdx (· == c) < bc.length) ↔ c ∈ bc) := by
    intro c h
    constructor
    · rintro ⟨-, h⟩
      obtain ⟨x, hx, he⟩ := List.findIdx_lt_length.mp h
      rw [← beq_iff_eq.mp he]; exact hx
    · intro h'
      have : bc.findIdx (· == c) < bc.length := List.findIdx_lt_length.mpr ⟨c, h', by simp⟩
      exact ⟨by omega, this⟩
  unfold conditions
  by_cases hl : bc.length ≤ 3
  · by_cases h1 : 1 ≤ bc.length
    · rw [if_pos ⟨h1, hl⟩]
      simp only [key _ hl]
      by_cases hf : 'f' ∈ bc <;> by_cases hll : 'l' ∈ bc <;> by_cases hp : 'p' ∈ bc <;> cases F <;> cases L <;> cases P <;> simp [hf, hll, hp, hl]
    · have : bc = [] := List.length_eq_zero_iff.mp (by omega)
      subst this
      cases F <;> cases L <;> cases P <;> simp
  · rw [if_neg (fun h => hl h.2)]
    simp [hl]

/-- The hypotheses are met: `upscale_cap -points 20 -output x -points 30 grid stone1 stone2`. -/
def someDefaults : Opts := fun k => if k = "points".toList then some "50".toList else if k = "output".toList then some [] else none

example : ∃ opts, withRocks someDefaults (["upscale_cap", "-points", "20", "-output", "x", "-points", "30", "grid", "stone1", "stone2"].map String.toList) =
    .ok (opts, "grid".toList, ["stone1".toList, "stone2".toList]) ∧ opts "points".toList = some "30".toList := by
  obtain ⟨o, h1, h2⟩ := C101_accepts someDefaults "upscale_cap".toList "grid".toList
    [("points".toList, "20".toList), ("output".toList, "x".toList), ("points".toList, "30".toList)] ["stone1".toList, "stone2".toList]
    (by intro o ho; simp at ho; rcases ho with rfl | rfl | rfl
        · exact ⟨_, rfl⟩
        · exact ⟨[], by decide⟩
        · exact ⟨_, rfl⟩) (by intro l h; simp at h) (by simp)
  refine ⟨o, h1, (h2 _ _).mpr (.inl ⟨[("points".toList, "20".toList), ("output".toList, "x".toList)], [], rfl, by simp⟩)⟩

example : conditions "pf".toList = .ok (true, false, true) := rfl

example : rockFiles 3 ["a".toList] = .ok ["a".toList, "a".toList, "a".toList] := rfl

end Verif.Cmd
