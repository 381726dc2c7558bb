import Verif.Spec.Compare
import Mathlib.Tactic.Ring
import Mathlib.Tactic.Linarith
import Mathlib.Algebra.Order.Field.Rat

/-!
C132: the program that compares results of upscaling with references.
-/

namespace Verif.Compare

open Spec

/-! ### Reading -/

theorem space_of_blank {c : Char} (h : Blank c) : isSpace c = true := by
  unfold isSpace
  rcases h with rfl | rfl | rfl | h | h
  · decide
  · decide
  · decide
  · simp [h]
  · simp [h]

theorem not_space {c : Char} (h : ¬ Blank c ∧ c ≠ '\n') : isSpace c = false := by
  unfold isSpace
  obtain ⟨h1, h2⟩ := h
  unfold Blank at h1
  push Not at h1
  obtain ⟨a, b, d, e, f⟩ := h1
  have hn : ∀ k : Char, c ≠ k → c.toNat ≠ k.toNat := fun k hk he => hk (Char.toNat_inj.mp he)
  have g1 := hn '\t' b
  have g2 := hn '\r' d
  have g3 := hn '\n' h2
  have e1 : '\t'.toNat = 9 := rfl
  have e2 : '\r'.toNat = 13 := rfl
  have e3 : '\n'.toNat = 10 := rfl
  rw [e1] at g1; rw [e2] at g2; rw [e3] at g3
  simp only [a, decide_false, Bool.false_or, Bool.and_eq_false_iff, decide_eq_false_iff_not]
  omega

theorem words_blank (b rest : List Char) (hb : ∀ c ∈ b, Blank c) : words [] (b ++ rest) = words [] rest := by
  induction b with
  | nil => rfl
  | cons c b ih =>
    rw [List.cons_append, words, if_pos (space_of_blank (hb c (by simp))), if_pos rfl]
    exact ih fun x hx => hb x (by simp [hx])

theorem words_word (w acc rest : List Char) (hw : ∀ c ∈ w, ¬ Blank c ∧ c ≠ '\n') : words acc (w ++ rest) = words (w.reverse ++ acc) rest := by
  induction w generalizing acc with
  | nil => rfl
  | cons c w ih =>
    rw [List.cons_append, words, if_neg (by rw [not_space (hw c (by simp))]; decide), ih _ fun x hx => hw x (by simp [hx])]
    simp

theorem words_sep (w b rest : List Char) (hw : Word w) (hb : b ≠ []) (hb' : ∀ c ∈ b, Blank c) : words [] (w ++ (b ++ rest)) = w :: words [] rest := by
  rw [words_word w [] _ hw.2.1]
  obtain ⟨c, b, rfl⟩ := List.exists_cons_of_ne_nil hb
  have hne : w.reverse ++ [] ≠ [] := by simpa using hw.1
  rw [List.cons_append, words, if_pos (space_of_blank (hb' c (by simp))), if_neg hne, words_blank b rest fun x hx => hb' x (by simp [hx])]
  simp

theorem words_values (l : List (List Char × List Char)) (rest : List Char) (h : ∀ p ∈ l, Word p.1 ∧ p.2 ≠ [] ∧ ∀ c ∈ p.2, Blank c) :
    words [] (l.flatMap (fun p => p.1 ++ p.2) ++ rest) = l.map Prod.fst ++ words [] rest := by
  induction l with
  | nil => rfl
  | cons p l ih =>
    obtain ⟨h1, h2, h3⟩ := h p (by simp)
    rw [List.flatMap_cons, List.append_assoc, List.append_assoc, words_sep p.1 p.2 _ h1 h2 h3, ih fun q hq => h q (by simp [hq])]
    rfl

theorem words_acc_head (acc l : List Char) (h : acc ≠ []) : ∃ w r, words acc l = w :: r ∧ acc.reverse <+: w := by
  induction l generalizing acc with
  | nil => exact ⟨acc.reverse, [], by rw [words, if_neg h], List.prefix_rfl⟩
  | cons c l ih =>
    rw [words]
    split
    · exact ⟨acc.reverse, _, rfl, List.prefix_rfl⟩
    · obtain ⟨w, r, h1, h2⟩ := ih (c :: acc) (by simp)
      refine ⟨w, r, h1, List.IsPrefix.trans ?_ h2⟩
      rw [List.reverse_cons]
      exact List.prefix_append _ _

variable {K : Type}

theorem take_word {w : List Char} (h : Word w) : w.take 1 ≠ ['#'] := by
  obtain ⟨c, w, rfl⟩ := List.exists_cons_of_ne_nil h.1
  intro e
  simp at e
  exact h.2.2 (by simp [e])

theorem readLine_chars (atof : List Char → Dbl K) (l : Line) (h : l.Ok) : readLine atof l.chars = l.content.map atof := by
  obtain ⟨h1, h2, h3⟩ := h
  unfold readLine Line.chars
  rw [List.append_assoc, words_blank _ _ h1, words_values _ _ h2]
  have hv : ∀ w ∈ l.values.map Prod.fst, decide (w.take 1 ≠ ['#']) = true := by
    intro w hw
    obtain ⟨p, hp, rfl⟩ := List.mem_map.mp hw
    exact decide_eq_true (take_word (h2 p hp).1)
  rw [List.takeWhile_append_of_pos hv]
  unfold Line.content
  congr 2
  cases ht : l.tail with
  | nothing => rfl
  | word w =>
    rw [ht] at h3
    have : words [] w = [w] := by
      have := words_word w [] [] h3.2.1
      rw [List.append_nil] at this
      rw [this, words, if_neg (by simpa using h3.1)]
      simp
    simp only [this]
    rw [List.takeWhile_cons, if_pos (decide_eq_true (take_word h3))]
    rfl
  | comment t =>
    simp only
    obtain ⟨w, r, g1, g2⟩ := words_acc_head ['#'] t (by simp)
    have : words [] ('#' :: t) = words ['#'] t := by
      rw [words, if_neg (by decide)]
    rw [this, g1, List.takeWhile_cons, if_neg]
    obtain ⟨s, hs⟩ := g2
    subst hs
    simp

theorem chars_line (l : Line) (h : l.Ok) : ∀ c ∈ l.chars, c ≠ '\n' := by
  obtain ⟨h1, h2, h3⟩ := h
  have hb : ∀ c : Char, Blank c → c ≠ '\n' := by
    rintro c hc rfl
    unfold Blank at hc
    revert hc
    decide
  unfold Line.chars
  intro c hc
  rcases List.mem_append.mp hc with hc | hc
  · rcases List.mem_append.mp hc with hc | hc
    · exact hb c (h1 c hc)
    · obtain ⟨p, hp, hc⟩ := List.mem_flatMap.mp hc
      rcases List.mem_append.mp hc with hc | hc
      · exact ((h2 p hp).1.2.1 c hc).2
      · exact hb c ((h2 p hp).2.2 c hc)
  · cases ht : l.tail with
    | nothing => rw [ht] at hc; simp at hc
    | word w => rw [ht] at hc h3; exact (h3.2.1 c hc).2
    | comment t =>
      rw [ht] at hc h3
      rcases List.mem_cons.mp hc with rfl | hc
      · decide
      · exact h3 c hc

theorem getlines_line (s acc rest : List Char) (h : ∀ c ∈ s, c ≠ '\n') : getlines acc (s ++ '\n' :: rest) = (acc.reverse ++ s) :: getlines [] rest := by
  induction s generalizing acc with
  | nil => simp [getlines]
  | cons c s ih =>
    rw [List.cons_append, getlines, if_neg (h c (by simp)), ih _ fun x hx => h x (by simp [hx])]
    simp

theorem getlines_last (s acc : List Char) (h : ∀ c ∈ s, c ≠ '\n') : getlines acc s = if acc.reverse ++ s = [] then [] else [acc.reverse ++ s] := by
  induction s generalizing acc with
  | nil => simp [getlines]
  | cons c s ih =>
    rw [getlines, if_neg (h c (by simp)), ih _ fun x hx => h x (by simp [hx])]
    simp

/-- C132. Reading a file gives the values of its lines in order; white space is of no account, a comment ends its line, and the last line need not be ended. -/
theorem C132_read (atof : List Char → Dbl K) (ls : List Line) (last : Line) (h : ∀ l ∈ ls, l.Ok) (hl : last.Ok) :
    readData atof (some (text ls ++ last.chars)) = some ((ls.flatMap Line.content ++ last.content).map atof) ∧ readData atof none = none := by
  refine ⟨?_, rfl⟩
  unfold readData
  rw [Option.map_some]
  congr 1
  induction ls with
  | nil =>
    rw [text, List.nil_append, getlines_last _ _ (chars_line last hl)]
    rw [List.flatMap_nil, List.nil_append]
    have := readLine_chars atof last hl
    split
    · rename_i he
      simp only [List.reverse_nil, List.nil_append] at he
      rw [he] at this
      rw [← this]; rfl
    · simpa using this
  | cons l ls ih =>
    rw [text, List.append_assoc, List.cons_append, getlines_line _ _ _ (chars_line l (h l (by simp)))]
    rw [List.flatMap_cons, ih fun x hx => h x (by simp [hx]), List.reverse_nil, List.nil_append, readLine_chars atof l (h l (by simp))]
    simp

/-! ### Comparison -/

variable [Field K] [LinearOrder K]

theorem compareAll_pass (absTol relTol : Dbl K) (front : Dbl K) (l : List (Dbl K × Dbl K)) :
    compareAll absTol relTol (some front) l = if ∀ p ∈ l, deviates absTol relTol p.1 p.2 = false then .pass else .deviation front := by
  induction l with
  | nil => simp [compareAll]
  | cons p l ih =>
    unfold compareAll
    cases hd : deviates absTol relTol p.1 p.2 with
    | true => simp [hd]
    | false =>
      simp only [Bool.false_eq_true, if_false, ih, List.forall_mem_cons, hd, true_and]

theorem deviates_fin [IsStrictOrderedRing K] (absTol relTol x y : K) :
    deviates (.fin absTol) (.fin relTol) (.fin x) (.fin y) = false ↔ |x - y| ≤ absTol ∨ |x - y| ≤ relTol * max |x| |y| := by
  have hmax : (Dbl.fin |x|).max (.fin |y|) = Dbl.fin (max |x| |y|) := by
    unfold Dbl.max Dbl.lt
    by_cases h : |x| < |y|
    · simp [h, max_eq_right h.le]
    · simp [h, max_eq_left (not_lt.mp h)]
  unfold deviates
  simp only [Dbl.sub, Dbl.abs, hmax, Dbl.div]
  by_cases h0 : max |x| |y| = 0
  · have hx : x = 0 := abs_eq_zero.mp (le_antisymm (by rw [← h0]; exact le_max_left ..) (abs_nonneg x))
    have hy : y = 0 := abs_eq_zero.mp (le_antisymm (by rw [← h0]; exact le_max_right ..) (abs_nonneg y))
    subst hx; subst hy
    simp [Dbl.lt]
  · have hpos : 0 < max |x| |y| := lt_of_le_of_ne (le_trans (abs_nonneg x) (le_max_left ..)) (Ne.symm h0)
    rw [if_neg h0]
    simp only [Dbl.lt, Bool.and_eq_false_iff, decide_eq_false_iff_not, not_lt]
    rw [div_le_iff₀ hpos]
    exact or_comm

/-- C132. For results and tolerances that are numbers, the program succeeds exactly if it is given two files, an absolute and a relative tolerance, both files can be opened, and their values agree. -/
theorem C132_accepts [IsStrictOrderedRing K] (atof : List Char → Dbl K) (files : List Char → Option (List Char)) (args : List (List Char))
    (read : List Char → Option (List K)) (hread : ∀ f, readData atof (files f) = (read f).map (List.map Dbl.fin)) (number : List Char → K) (hnum : ∀ t ∈ args.drop 2, atof t = .fin (number t)) :
    main atof files args = true ↔ ∃ t c a r x y, args = [t, c, a, r] ∧ read t = some x ∧ read c = some y ∧ Agree (number a) (number r) x y := by
  have key : ∀ (A R : K) (x y : List K), x.length = y.length → (compareAll (.fin A) (.fin R) (x.map Dbl.fin).head? ((x.map Dbl.fin).zip (y.map Dbl.fin)) = .pass ↔ Agree A R x y) := by
    intro A R x y hxy
    cases x with
    | nil =>
      cases y with
      | nil => simp [compareAll, Agree]
      | cons b y => simp at hxy
    | cons x0 x =>
      rw [List.map_cons, List.head?_cons, compareAll_pass]
      rw [← List.map_cons]
      have : (∀ p ∈ ((x0 :: x).map Dbl.fin).zip (y.map Dbl.fin), deviates (.fin A) (.fin R) p.1 p.2 = false) ↔ Agree A R (x0 :: x) y := by
        unfold Agree
        constructor
        · intro h
          refine ⟨hxy, fun i u v hu hv => ?_⟩
          have := h (.fin u, .fin v) (List.mem_iff_getElem?.mpr ⟨i, by rw [List.getElem?_zip_eq_some]; simp only [List.getElem?_map, hu, hv]; exact ⟨rfl, rfl⟩⟩)
          exact (deviates_fin A R u v).mp this
        · rintro ⟨_, h⟩ p hp
          obtain ⟨i, hi⟩ := List.mem_iff_getElem?.mp hp
          rw [List.getElem?_zip_eq_some] at hi
          obtain ⟨h1, h2⟩ := hi
          rw [List.getElem?_map, Option.map_eq_some_iff] at h1 h2
          obtain ⟨u, hu, h1⟩ := h1
          obtain ⟨v, hv, h2⟩ := h2
          rw [← h1, ← h2]
          exact (deviates_fin A R u v).mpr (h i u v hu hv)
      by_cases hA : Agree A R (x0 :: x) y
      · rw [if_pos (this.mpr hA)]; simp [hA]
      · rw [if_neg fun h => hA (this.mp h)]; simp [hA]
  constructor
  · intro h
    unfold main at h
    split at h
    · rename_i t c a r
      refine ⟨t, c, a, r, ?_⟩
      unfold startTest at h
      rw [hread, hread, hnum a (by simp), hnum r (by simp)] at h
      cases hx : read t with
      | none => rw [hx] at h; simp at h
      | some x =>
        cases hy : read c with
        | none => rw [hx, hy] at h; simp at h
        | some y =>
          refine ⟨x, y, rfl, rfl, rfl, ?_⟩
          rw [hx, hy] at h
          simp only [Option.map_some, List.length_map, ne_eq, ite_not] at h
          by_cases hl : x.length = y.length
          · rw [if_pos hl] at h
            refine (key _ _ x y hl).mp ?_
            split at h
            · assumption
            · cases h
          · rw [if_neg hl] at h; simp at h
    · cases h
  · rintro ⟨t, c, a, r, x, y, rfl, hx, hy, hA⟩
    unfold main startTest
    simp only
    rw [hread, hread, hnum a (by simp), hnum r (by simp), hx, hy]
    simp only [Option.map_some, List.length_map, ne_eq, hA.1, not_true_eq_false, if_false]
    rw [(key _ _ x y hA.1).mpr hA]

theorem agree_symm [IsStrictOrderedRing K] (absTol relTol : K) (x y : List K) :
    (Agree absTol relTol x y ↔ Agree absTol relTol y x) ∧ (0 ≤ absTol ∨ 0 ≤ relTol → Agree absTol relTol x x) := by
  have h1 : ∀ x y : List K, Agree absTol relTol x y → Agree absTol relTol y x := by
    rintro x y ⟨h1, h2⟩
    refine ⟨h1.symm, fun i u v hu hv => ?_⟩
    have := h2 i v u hv hu
    rw [abs_sub_comm, max_comm]; exact this
  refine ⟨⟨h1 x y, h1 y x⟩, fun h => ⟨rfl, fun i u v hu hv => ?_⟩⟩
  cases (Option.some.inj (hu.symm.trans hv))
  simp only [sub_self, abs_zero]
  rcases h with h | h
  · exact .inl h
  · exact .inr (mul_nonneg h (le_trans (abs_nonneg u) (le_max_left ..)))

/-- C132. The order of the files is of no account, and a file agrees with itself if one of the tolerances is not negative. -/
theorem C132_symmetric [IsStrictOrderedRing K] (atof : List Char → Dbl K) (files : List Char → Option (List Char)) (t c a r : List Char)
    (read : List Char → Option (List K)) (hread : ∀ f, readData atof (files f) = (read f).map (List.map Dbl.fin)) (A R : K) (hA : atof a = .fin A) (hR : atof r = .fin R) :
    main atof files [t, c, a, r] = main atof files [c, t, a, r] ∧ (0 ≤ A ∨ 0 ≤ R → (read t).isSome → main atof files [t, t, a, r] = true) := by
  have hnum : ∀ s ∈ [a, r], atof s = .fin ((fun s => if s = a then A else R) s) := by
    intro s hs
    simp only
    split
    · rename_i h; rw [h, hA]
    · rename_i h
      have : s = r := by simpa [h] using hs
      rw [this, hR]
  have key : ∀ f g, main atof files [f, g, a, r] = true ↔ ∃ x y, read f = some x ∧ read g = some y ∧ Agree A (if r = a then A else R) x y := by
    intro f g
    rw [C132_accepts atof files [f, g, a, r] read hread _ hnum]
    constructor
    · rintro ⟨t, c, a', r', x, y, he, h1, h2, h3⟩
      simp only [List.cons.injEq, and_true] at he
      obtain ⟨rfl, rfl, rfl, rfl⟩ := he
      exact ⟨x, y, h1, h2, by simpa using h3⟩
    · rintro ⟨x, y, h1, h2, h3⟩
      exact ⟨f, g, a, r, x, y, rfl, h1, h2, by simpa using h3⟩
  have hR' : (if r = a then A else R) = R := by
    split
    · rename_i h; rw [h, hA] at hR; exact Dbl.fin.inj hR
    · rfl
  rw [hR'] at key
  refine ⟨?_, fun h0 hs => ?_⟩
  · rw [Bool.eq_iff_iff, key, key]
    exact ⟨fun ⟨x, y, h1, h2, h3⟩ => ⟨y, x, h2, h1, (agree_symm A R x y).1.mp h3⟩, fun ⟨x, y, h1, h2, h3⟩ => ⟨y, x, h2, h1, (agree_symm A R x y).1.mp h3⟩⟩
  · obtain ⟨x, hx⟩ := Option.isSome_iff_exists.mp hs
    exact (key t t).mpr ⟨x, x, hx, hx, (agree_symm A R x x).2 h0⟩

/-- C132. A result that is not a number is accepted whatever the reference and the tolerances; so is an infinite one if the relative tolerance is a number, and one
that is infinite where the reference is infinite, also with the opposite sign. -/
theorem C132_violated_nan (absTol relTol a : Dbl K) (neg neg' : Bool) (r x : K) :
    deviates absTol relTol .nan a = false ∧ deviates absTol relTol a .nan = false ∧ deviates absTol (.fin r) (.inf neg) (.fin x) = false ∧
      deviates absTol relTol (.inf neg) (.inf neg') = false := by
  refine ⟨?_, ?_, ?_, by cases neg <;> cases neg' <;> cases relTol <;> rfl⟩
  · cases a <;> cases relTol <;> rfl
  · cases a <;> cases relTol <;> rfl
  · cases neg <;> simp [deviates, Dbl.sub, Dbl.abs, Dbl.max, Dbl.lt, Dbl.div]

/-- C132. The message names the first value of the first file, not the one that deviates: here 1 deviates from nothing, 2 from 3. -/
theorem C132_violated_message : compareAll (.fin 0) (.fin 0) (some (.fin 1)) [(.fin 1, .fin 1), (.fin 2, .fin (3 : ℚ))] = .deviation (.fin 1) := by decide +kernel

/-! ### Hypotheses are met -/

/-- A line with two values and a comment. -/
def someLine : Line := ⟨[' '], [(['1', '2'], ['\t', ' ']), (['7'], [' '])], .comment [' ', '9']⟩

example : someLine.Ok ∧ someLine.content = [['1', '2'], ['7']] := by
  refine ⟨⟨by unfold Blank; decide, ?_, show ∀ c ∈ [' ', '9'], c ≠ '\n' by decide⟩, rfl⟩
  unfold someLine Word Blank; decide

example : Agree (0 : ℚ) (1 / 10) [100, 0] [95, 0] ∧ ¬ Agree (1 : ℚ) (1 / 100) [100, 0] [95, 0] := by
  refine ⟨⟨rfl, ?_⟩, ?_⟩
  · intro i x y hx hy
    rcases i with _ | _ | i
    · cases hx; cases hy; right; norm_num
    · cases hx; cases hy; left; norm_num
    · cases hx
  · intro h
    have := h.2 0 100 95 rfl rfl
    norm_num at this

end Verif.Compare
