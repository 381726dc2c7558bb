import Mathlib.Tactic.Linarith
import Mathlib.Tactic.Ring
import Mathlib.Algebra.Order.Ring.Rat
import Mathlib.Data.Rat.Floor
import Verif.Model.Bench
import Verif.Spec.Bench
import Verif.Props.Compare

/-!
C135: the benchmark program reads its tables and judges the computed curves.
-/

namespace Verif.Bench

open Verif.Compare Verif.Bench.Spec

section reading

variable {K : Type} [Field K] [LinearOrder K]

theorem words_row (l : Compare.Spec.Line) (h : l.Ok) (ht : ∀ t, l.tail ≠ .comment t) : words [] l.chars = l.content := by
  obtain ⟨h1, h2, h3⟩ := h
  unfold Compare.Spec.Line.chars Compare.Spec.Line.content
  rw [List.append_assoc, words_blank _ _ h1, words_values _ _ h2]
  congr 1
  cases htl : l.tail with
  | nothing => rfl
  | comment t => exact absurd htl (ht t)
  | word w =>
    rw [htl] at h3
    have := words_word w [] [] h3.2.1
    rw [List.append_nil] at this
    dsimp only
    rw [this, words, if_neg (by simpa using h3.1)]
    simp

theorem row_start (l : Compare.Spec.Line) (h : l.Ok) (ht : ∀ t, l.tail ≠ .comment t) : l.chars.take 1 ≠ ['#'] := by
  obtain ⟨h1, h2, h3⟩ := h
  have hb : ∀ c : Char, Compare.Spec.Blank c → c ≠ '#' := by
    rintro c hc rfl
    unfold Compare.Spec.Blank at hc
    revert hc
    decide
  have hw : ∀ (w r : List Char), Compare.Spec.Word w → (w ++ r).take 1 ≠ ['#'] := by
    intro w r h
    obtain ⟨c, w, rfl⟩ := List.exists_cons_of_ne_nil h.1
    intro e
    simp at e
    exact h.2.2 (by simp [e])
  unfold Compare.Spec.Line.chars
  cases hl : l.lead with
  | cons c b =>
    intro e
    simp at e
    exact hb c (h1 c (by simp [hl])) e
  | nil =>
    cases hv : l.values with
    | cons p v =>
      rw [List.nil_append, List.flatMap_cons, List.append_assoc, List.append_assoc]
      exact hw _ _ (h2 p (by simp [hv])).1
    | nil =>
      cases htl : l.tail with
      | nothing => decide
      | comment t => exact absurd htl (ht t)
      | word w =>
        rw [htl] at h3
        simpa using hw w [] h3

theorem item_line (x : Item) (h : x.Ok) : ∀ c ∈ x.chars, c ≠ '\n' := by
  cases x with
  | comment t =>
    intro c hc
    rcases List.mem_cons.mp hc with rfl | hc
    · decide
    · exact h c hc
  | row l => exact chars_line l h.1

theorem lines_text (l : List Item) (h : ∀ x ∈ l, x.Ok) : getlines [] (text l) = l.map Item.chars := by
  induction l with
  | nil => rfl
  | cons x l ih =>
    unfold text at ih ⊢
    rw [List.flatMap_cons, List.append_assoc, List.singleton_append, getlines_line _ _ _ (item_line x (h x (by simp))), ih fun y hy => h y (by simp [hy])]
    rfl

theorem referenceLine_row (num : List Char → Option K) (value : List Char → K) (r : Reference K) (l : Compare.Spec.Line) (h : l.Ok)
    (ht : ∀ t, l.tail ≠ .comment t) (h5 : 5 ≤ l.content.length) (hn : ∀ w ∈ l.content.take 5, num w = some (value w)) :
    referenceLine num r l.chars = some ⟨r.p ++ [(l.content.map value).getD 0 0], r.s ++ [(l.content.map value).getD 1 0],
      r.k0 ++ [(l.content.map value).getD 2 0], r.k1 ++ [(l.content.map value).getD 3 0], r.k2 ++ [(l.content.map value).getD 4 0]⟩ := by
  unfold referenceLine
  rw [if_neg (row_start l h ht), words_row l h ht]
  obtain ⟨w, hw⟩ : ∃ w, w = l.content := ⟨_, rfl⟩
  rw [← hw] at h5 hn ⊢
  match w, h5, hn with
  | a :: b :: c :: d :: e :: w, _, hn =>
    simp only [List.take_succ_cons, List.take_zero] at hn
    simp [In.extract, hn a, hn b, hn c, hn d, hn e]

/-- Reading a reference: comments are passed over, and every other line gives a point whose pressure, saturation and relative permeabilities are the
first five numbers of the line. -/
theorem C135_reference (num : List Char → Option K) (value : List Char → K) (l : List Item) (h : ∀ x ∈ l, x.Ok)
    (hr : ∀ r ∈ rows l, 5 ≤ r.length ∧ ∀ w ∈ r.take 5, num w = some (value w)) :
    readReference num (text l) = some ⟨column value (rows l) 0, column value (rows l) 1, column value (rows l) 2, column value (rows l) 3,
      column value (rows l) 4⟩ := by
  unfold readReference
  rw [lines_text l h]
  have key : ∀ (l : List Item) (a : Reference K), (∀ x ∈ l, x.Ok) → (∀ r ∈ rows l, 5 ≤ r.length ∧ ∀ w ∈ r.take 5, num w = some (value w)) →
      (l.map Item.chars).foldlM (referenceLine num) a = some ⟨a.p ++ column value (rows l) 0, a.s ++ column value (rows l) 1,
        a.k0 ++ column value (rows l) 2, a.k1 ++ column value (rows l) 3, a.k2 ++ column value (rows l) 4⟩ := by
    intro l
    induction l with
    | nil => intro a _ _; simp [rows, column]
    | cons x l ih =>
      intro a h hr
      rw [List.map_cons, List.foldlM_cons]
      cases x with
      | comment t =>
        have : referenceLine num a (Item.chars (.comment t)) = some a := by
          unfold referenceLine
          rw [if_pos (show (Item.comment t).chars.take 1 = ['#'] from rfl)]
        rw [this]
        exact ih a (fun y hy => h y (by simp [hy])) hr
      | row w =>
        have hx := h _ List.mem_cons_self
        have hw := hr w.content (by simp [rows])
        have : referenceLine num a (Item.chars (.row w)) = _ := referenceLine_row num value a w hx.1 hx.2 hw.1 hw.2
        rw [this]
        simp only [Option.bind_eq_bind, Option.bind_some]
        rw [ih _ (fun y hy => h y (by simp [hy])) fun r hrr => hr r (by
          simp only [rows, List.filterMap_cons, List.mem_cons]
          exact Or.inr hrr)]
        simp [rows, column]
  simpa using key l ⟨[], [], [], [], []⟩ h hr

/-- A row that is too short is not noticed: the last number of the row is used again for every value that is missing. -/
theorem C135_violated_short (num : List Char → Option K) (value : List Char → K) (l : Compare.Spec.Line) (h : l.Ok) (ht : ∀ t, l.tail ≠ .comment t)
    (w : List Char) (ws : List (List Char)) (hw : l.content = w :: ws) (h5 : ws.length < 4) (hn : ∀ w ∈ l.content, num w = some (value w))
    (v : Nat → K) (hv : ∀ i, v i = (l.content.map value).getD (min i ws.length) 0) :
    readReference num (text [.row l]) = some ⟨[v 0], [v 1], [v 2], [v 3], [v 4]⟩ := by
  have hl : ∀ x ∈ [Item.row l], x.Ok := by
    intro x hx
    obtain rfl := List.mem_singleton.mp hx
    exact ⟨h, ht⟩
  unfold readReference
  rw [lines_text _ hl, List.map_singleton, List.foldlM_cons]
  show (referenceLine num _ l.chars >>= pure) = _
  rw [bind_pure]
  unfold referenceLine
  rw [if_neg (row_start l h ht), words_row l h ht]
  simp only [hv]
  rw [hw] at hn ⊢
  match ws, h5, hn with
  | [], _, hn => simp [In.extract, hn w]
  | [a], _, hn => simp [In.extract, hn w, hn a]
  | [a, b], _, hn => simp [In.extract, hn w, hn a, hn b]
  | [a, b, c], _, hn => simp [In.extract, hn w, hn a, hn b, hn c]

/-- A word that is not a number is not noticed either: it counts as zero, and so do all values after it, whatever the row says. -/
theorem C135_violated_junk (num : List Char → Option K) (value : List Char → K) (l : Compare.Spec.Line) (h : l.Ok) (ht : ∀ t, l.tail ≠ .comment t)
    (ws : List (List Char)) (junk : List Char) (rest : List (List Char)) (hw : l.content = ws ++ junk :: rest)
    (hn : ∀ w ∈ ws, num w = some (value w)) (hj : num junk = none) (v : Nat → K) (hv : ∀ i, v i = (ws.map value).getD i 0) :
    readReference num (text [.row l]) = some ⟨[v 0], [v 1], [v 2], [v 3], [v 4]⟩ := by
  have hl : ∀ x ∈ [Item.row l], x.Ok := by
    intro x hx
    obtain rfl := List.mem_singleton.mp hx
    exact ⟨h, ht⟩
  unfold readReference
  rw [lines_text _ hl, List.map_singleton, List.foldlM_cons]
  show (referenceLine num _ l.chars >>= pure) = _
  rw [bind_pure]
  unfold referenceLine
  rw [if_neg (row_start l h ht), words_row l h ht, hw]
  simp only [hv]
  match ws, hn with
  | [], hn => simp [In.extract, hj]
  | [a], hn => simp [In.extract, hj, hn a]
  | [a, b], hn => simp [In.extract, hj, hn a, hn b]
  | [a, b, c], hn => simp [In.extract, hj, hn a, hn b, hn c]
  | [a, b, c, d], hn => simp [In.extract, hj, hn a, hn b, hn c, hn d]
  | a :: b :: c :: d :: e :: ws, hn => simp [In.extract, hn a, hn b, hn c, hn d, hn e]

theorem stone_row (num : List Char → Option K) (value : List Char → K) (rc jc : Nat) (hrc : 2 ≤ rc) (hjc : 2 ≤ jc) (hne : rc ≠ jc)
    (ws : List (List Char)) (hn : ∀ w ∈ ws, num w = some (value w)) (n : Nat) (hn1 : 1 ≤ n) (t : Stone K) :
    stoneColumns num rc jc n ws t = ⟨t.sw ++ (if n = 1 then (ws.map value).take 1 else []),
      t.kr ++ (if n ≤ rc then ((ws.map value).drop (rc - n)).take 1 else []),
      t.j ++ (if n ≤ jc then ((ws.map value).drop (jc - n)).take 1 else [])⟩ := by
  induction ws generalizing n t with
  | nil => simp [stoneColumns]
  | cons w ws ih =>
    unfold stoneColumns
    rw [hn w (by simp)]
    dsimp only
    rw [ih (fun x hx => hn x (by simp [hx])) (n + 1) (by omega)]
    have hsucc : ∀ (m : Nat), n < m → (value w :: ws.map value).drop (m - n) = (ws.map value).drop (m - (n + 1)) := by
      intro m hm
      have : m - n = (m - (n + 1)) + 1 := by omega
      rw [this, List.drop_succ_cons]
    by_cases h1 : n = 1
    · subst h1
      have a : rc ≠ 1 := by omega
      have b : jc ≠ 1 := by omega
      simp [hsucc rc (by omega), hsucc jc (by omega), show 1 + 1 ≤ rc by omega, show 1 + 1 ≤ jc by omega, show 1 ≤ rc by omega, show 1 ≤ jc by omega]
    · have h1' : n + 1 ≠ 1 := by omega
      by_cases h2 : n = rc
      · subst h2
        by_cases hle : n < jc
        · simp [h1, hn1, hsucc jc hle, show n + 1 ≤ jc by omega, show n ≤ jc by omega, show n ≠ 0 by omega]
        · simp [h1, hn1, show ¬ n + 1 ≤ jc by omega, show ¬ n ≤ jc by omega, show n ≠ 0 by omega]
      · by_cases h3 : n = jc
        · subst h3
          by_cases hle : n < rc
          · simp [h1, h2, hsucc rc hle, show n + 1 ≤ rc by omega, show n ≤ rc by omega, show n ≠ 0 by omega]
          · simp [h1, h2, show ¬ n + 1 ≤ rc by omega, show ¬ n ≤ rc by omega, show n ≠ 0 by omega]
        · have e1 : ∀ m, n ≠ m → (if n + 1 ≤ m then ((ws.map value).drop (m - (n + 1))).take 1 else []) =
              (if n ≤ m then ((value w :: ws.map value).drop (m - n)).take 1 else []) := by
            intro m hm
            by_cases hle : n < m
            · rw [if_pos (by omega), if_pos (by omega), hsucc m hle]
            · rw [if_neg (by omega), if_neg (by omega)]
          rw [if_neg h1, if_neg h2, if_neg h3, if_neg h1', if_neg h1, e1 rc h2, e1 jc h3, List.map_cons]

theorem take_drop_one {α : Type} (l : List α) (n : Nat) (d : α) (h : n < l.length) : (l.drop n).take 1 = [l.getD n d] := by
  rw [List.drop_eq_getElem_cons h, List.take_succ_cons, List.take_zero, List.getD_eq_getElem?_getD, List.getElem?_eq_getElem h, Option.getD_some]

/-- Reading the stone file: saturations are the first column, relative permeabilities and J-function the columns asked for, one value for every line
that is not a comment. -/
theorem C135_stone (num : List Char → Option K) (value : List Char → K) (relPermCurve jFunctionCurve : Nat) (h2 : 2 ≤ relPermCurve)
    (h2' : 2 ≤ jFunctionCurve) (hne : relPermCurve ≠ jFunctionCurve) (l : List Item) (h : ∀ x ∈ l, x.Ok)
    (hr : ∀ r ∈ rows l, relPermCurve ≤ r.length ∧ jFunctionCurve ≤ r.length ∧ ∀ w ∈ r, num w = some (value w)) :
    readStone num relPermCurve jFunctionCurve (text l) =
      ⟨column value (rows l) 0, column value (rows l) (relPermCurve - 1), column value (rows l) (jFunctionCurve - 1)⟩ := by
  unfold readStone
  rw [lines_text l h]
  have key : ∀ (l : List Item) (a : Stone K), (∀ x ∈ l, x.Ok) →
      (∀ r ∈ rows l, relPermCurve ≤ r.length ∧ jFunctionCurve ≤ r.length ∧ ∀ w ∈ r, num w = some (value w)) →
      (l.map Item.chars).foldl (stoneLine num relPermCurve jFunctionCurve) a = ⟨a.sw ++ column value (rows l) 0,
        a.kr ++ column value (rows l) (relPermCurve - 1), a.j ++ column value (rows l) (jFunctionCurve - 1)⟩ := by
    intro l
    induction l with
    | nil => intro a _ _; simp [rows, column]
    | cons x l ih =>
      intro a h hr
      rw [List.map_cons, List.foldl_cons]
      cases x with
      | comment t =>
        have : stoneLine num relPermCurve jFunctionCurve a (Item.chars (.comment t)) = a := by
          unfold stoneLine
          rw [if_pos (show (Item.comment t).chars.take 1 = ['#'] from rfl)]
        rw [this]
        exact ih a (fun y hy => h y (by simp [hy])) hr
      | row w =>
        have hx := h _ List.mem_cons_self
        have hw := hr w.content (by simp [rows])
        have : stoneLine num relPermCurve jFunctionCurve a (Item.chars (.row w)) = ⟨a.sw ++ [(w.content.map value).getD 0 0],
            a.kr ++ [(w.content.map value).getD (relPermCurve - 1) 0], a.j ++ [(w.content.map value).getD (jFunctionCurve - 1) 0]⟩ := by
          unfold stoneLine
          change (if w.chars.take 1 = ['#'] then a else stoneColumns num relPermCurve jFunctionCurve 1 (words [] w.chars) a) = _
          rw [if_neg (row_start w hx.1 hx.2), words_row w hx.1 hx.2, stone_row num value _ _ h2 h2' hne _ hw.2.2 1 (le_refl _),
            if_pos rfl, if_pos (by omega), if_pos (by omega)]
          have e0 := take_drop_one (w.content.map value) 0 0 (by rw [List.length_map]; omega)
          rw [List.drop_zero] at e0
          rw [e0, take_drop_one _ _ 0 (by rw [List.length_map]; omega), take_drop_one _ _ 0 (by rw [List.length_map]; omega)]
        rw [this]
        rw [ih _ (fun y hy => h y (by simp [hy])) fun r hrr => hr r (by
          simp only [rows, List.filterMap_cons, List.mem_cons]
          exact Or.inr hrr)]
        simp [rows, column]
  simpa using key l ⟨[], [], []⟩ h hr

end reading

section verdict

variable {K : Type} [Field K] [LinearOrder K] [IsStrictOrderedRing K]

theorem exceeds_iff (tol a : K) (b : Dbl K) : exceeds tol a b = false ↔ b = .nan ∨ Close tol a b := by
  unfold exceeds Close
  cases b with
  | fin y => simp [Dbl.sub, Dbl.abs, Dbl.lt]
  | inf n => simp [Dbl.sub, Dbl.abs, Dbl.lt]
  | nan => simp [Dbl.sub, Dbl.abs, Dbl.lt]

theorem curves_spec (tol : K) (r : Reference K) (c : Computed K) (h1 : r.s.length = c.points) (h2 : r.p.length = c.points)
    (h3 : c.s.length = c.points) (h4 : c.p.length = c.points) (n : Nat) : ∀ i, i + n = c.points →
    ∃ f, curves tol r c i n = some f ∧ ((f.2 && f.1) = true ↔ ∀ j, i ≤ j → j < c.points →
      (∀ a b, r.s[j]? = some a → c.s[j]? = some b → exceeds tol a b = false) ∧
      ∀ a b, r.p[j]? = some a → c.p[j]? = some b → exceeds (tol * 100) a b = false) := by
  induction n with
  | zero =>
    intro i hi
    exact ⟨_, rfl, iff_of_true rfl fun j hj hj' => by omega⟩
  | succ n ih =>
    intro i hi
    unfold curves
    obtain ⟨f, hf, hf'⟩ := ih (i + 1) (by omega)
    have e1 : r.s[i]? = some (r.s[i]'(by omega)) := List.getElem?_eq_getElem _
    have e2 : c.s[i]? = some (c.s[i]'(by omega)) := List.getElem?_eq_getElem _
    have e3 : r.p[i]? = some (r.p[i]'(by omega)) := List.getElem?_eq_getElem _
    have e4 : c.p[i]? = some (c.p[i]'(by omega)) := List.getElem?_eq_getElem _
    simp only [e1, e2, e3, e4, Option.bind_eq_bind, Option.bind_some]
    by_cases ha : exceeds tol (r.s[i]'(by omega)) (c.s[i]'(by omega)) = true
    · rw [if_pos ha]
      refine ⟨_, rfl, iff_of_false (by decide) fun hh => ?_⟩
      have := (hh i (le_refl _) (by omega)).1 _ _ e1 e2
      rw [ha] at this
      cases this
    · rw [if_neg ha]
      by_cases hb : exceeds (tol * 100) (r.p[i]'(by omega)) (c.p[i]'(by omega)) = true
      · rw [if_pos hb]
        refine ⟨_, rfl, iff_of_false (by decide) fun hh => ?_⟩
        have := (hh i (le_refl _) (by omega)).2 _ _ e3 e4
        rw [hb] at this
        cases this
      · rw [if_neg hb]
        refine ⟨f, hf, hf'.trans ⟨fun hh j hj hj' => ?_, fun hh j hj hj' => hh j (by omega) hj'⟩⟩
        by_cases he : j = i
        · subst he
          refine ⟨fun a b ea eb => ?_, fun a b ea eb => ?_⟩
          · rw [e1] at ea; rw [e2] at eb
            obtain rfl := Option.some.inj ea
            obtain rfl := Option.some.inj eb
            simpa using ha
          · rw [e3] at ea; rw [e4] at eb
            obtain rfl := Option.some.inj ea
            obtain rfl := Option.some.inj eb
            simpa using hb
        · exact hh j (by omega) hj'

theorem element_spec (tol : K) (a : List K) (b : List (Dbl K)) (m : Nat) (ha : a.length = m) (hb : b.length = m) (n : Nat) : ∀ i, i + n = m →
    ∃ f, element tol a b i n = some f ∧ (f = true ↔ ∀ j, i ≤ j → ∀ x y, a[j]? = some x → b[j]? = some y → exceeds tol x y = false) := by
  induction n with
  | zero =>
    intro i hi
    refine ⟨_, rfl, iff_of_true rfl fun j hj x y hx _ => ?_⟩
    have := (List.getElem?_eq_some_iff.mp hx).1
    omega
  | succ n ih =>
    intro i hi
    unfold element
    obtain ⟨f, hf, hf'⟩ := ih (i + 1) (by omega)
    have e1 : a[i]? = some (a[i]'(by omega)) := List.getElem?_eq_getElem _
    have e2 : b[i]? = some (b[i]'(by omega)) := List.getElem?_eq_getElem _
    simp only [e1, e2, Option.bind_eq_bind, Option.bind_some]
    by_cases h : exceeds tol (a[i]'(by omega)) (b[i]'(by omega)) = true
    · rw [if_pos h]
      refine ⟨_, rfl, iff_of_false (by decide) fun hh => ?_⟩
      have := hh i (le_refl _) _ _ e1 e2
      rw [h] at this
      cases this
    · rw [if_neg h]
      refine ⟨f, hf, hf'.trans ⟨fun hh j hj x y ex ey => ?_, fun hh j hj => hh j (by omega)⟩⟩
      by_cases he : j = i
      · subst he
        rw [e1] at ex; rw [e2] at ey
        obtain rfl := Option.some.inj ex
        obtain rfl := Option.some.inj ey
        simpa using h
      · exact hh j (by omega) x y ex ey

theorem elements_spec (tol : K) (a : List (List K)) (b : List (List (Dbl K))) (m N : Nat) (hN : N ≤ a.length) (hN' : N ≤ b.length)
    (ha : ∀ x ∈ a, x.length = m) (hb : ∀ x ∈ b, x.length = m) (n : Nat) : ∀ v, v + n = N →
    ∃ f, elements tol a b m v n = some f ∧ (f = true ↔ ∀ w, v ≤ w → w < N → ∀ x y, a[w]? = some x → b[w]? = some y →
      ∀ (j : Nat) p q, x[j]? = some p → y[j]? = some q → exceeds tol p q = false) := by
  induction n with
  | zero =>
    intro v hv
    exact ⟨_, rfl, iff_of_true rfl fun w h1 h2 => by omega⟩
  | succ n ih =>
    intro v hv
    unfold elements
    obtain ⟨f, hf, hf'⟩ := ih (v + 1) (by omega)
    have e1 : a[v]? = some (a[v]'(by omega)) := List.getElem?_eq_getElem _
    have e2 : b[v]? = some (b[v]'(by omega)) := List.getElem?_eq_getElem _
    obtain ⟨g, hg, hg'⟩ := element_spec tol (a[v]'(by omega)) (b[v]'(by omega)) m (ha _ (List.getElem_mem _)) (hb _ (List.getElem_mem _)) m 0 (by omega)
    simp only [e1, e2, Option.bind_eq_bind, Option.bind_some, hg, hf]
    refine ⟨_, rfl, ?_⟩
    rw [Bool.and_eq_true, hg', hf']
    constructor
    · rintro ⟨h1, h2⟩ w hw hw' x y ex ey j p q ep eq
      by_cases he : w = v
      · subst he
        rw [e1] at ex; rw [e2] at ey
        obtain rfl := Option.some.inj ex
        obtain rfl := Option.some.inj ey
        exact h1 j (Nat.zero_le _) p q ep eq
      · exact h2 w (by omega) hw' x y ex ey j p q ep eq
    · intro hh
      exact ⟨fun j _ p q ep eq => hh v (le_refl _) (by omega) _ _ e1 e2 j p q ep eq, fun w hw => hh w (by omega)⟩

theorem verify_spec (tol : K) (r : Reference K) (c : Computed K) (hc : Complete c) :
    ∃ v, verify tol r c = some v ∧
      (v = .count ↔ ¬ (r.s.length = c.points ∧ r.p.length = c.points ∧ r.k0.length = c.points ∧ r.k1.length = c.points ∧ r.k2.length = c.points)) ∧
      (Numbers c → (v = .equal ↔ Agrees tol (100 * tol) r c)) := by
  unfold verify
  by_cases h : r.s.length = c.points ∧ r.p.length = c.points ∧ r.k0.length = c.points ∧ r.k1.length = c.points ∧ r.k2.length = c.points
  · rw [if_pos h]
    obtain ⟨c1, c2, c3, c4, c5⟩ := hc
    obtain ⟨f, hf, hf'⟩ := curves_spec tol r c h.1 h.2.1 c3 c4 c.points 0 (by omega)
    obtain ⟨k, hk, hk'⟩ := elements_spec tol [r.k0, r.k1, r.k2] c.kr c.points c.elements c1 c2 (by
      intro x hx
      simp at hx
      rcases hx with rfl | rfl | rfl
      · exact h.2.2.1
      · exact h.2.2.2.1
      · exact h.2.2.2.2) c5 c.elements 0 (by omega)
    simp only [hf, hk, Option.bind_eq_bind, Option.bind_some]
    refine ⟨_, rfl, iff_of_false ?_ (not_not.mpr h), fun hn => ?_⟩
    · split <;> simp
    · have hne : ∀ {x : Dbl K} {l : List (Dbl K)} {i : Nat}, .nan ∉ l → l[i]? = some x → x ≠ .nan := by
        rintro x l i hl hx rfl
        exact hl (List.mem_of_getElem? hx)
      have hkr : ∀ (v : Nat) (x : List K), v < c.elements → ([r.k0, r.k1, r.k2][v]? = some x ↔ (if v = 0 then r.k0 else if v = 1 then r.k1 else r.k2) = x) := by
        intro v x hv
        have : v = 0 ∨ v = 1 ∨ v = 2 := by omega
        rcases this with rfl | rfl | rfl <;> simp
      have : (if (f.2 && f.1 && k) = true then Verdict.equal else .different) = .equal ↔ ((f.2 && f.1) = true ∧ k = true) := by
        rw [← Bool.and_eq_true]
        by_cases hb : (f.2 && f.1 && k) = true
        · rw [if_pos hb]
          exact iff_of_true rfl hb
        · rw [if_neg hb]
          exact iff_of_false (by decide) hb
      rw [this, hf', hk']
      constructor
      · rintro ⟨h1, h2⟩
        refine ⟨h, fun i a b ea eb => ?_, fun i a b ea eb => ?_, fun v i kk a b hv ek ea eb => ?_⟩
        · have hi := (List.getElem?_eq_some_iff.mp ea).1
          exact ((exceeds_iff _ _ _).mp ((h1 i (Nat.zero_le _) (by omega)).1 a b ea eb)).resolve_left (hne hn.1 eb)
        · have hi := (List.getElem?_eq_some_iff.mp ea).1
          rw [mul_comm]
          exact ((exceeds_iff _ _ _).mp ((h1 i (Nat.zero_le _) (by omega)).2 a b ea eb)).resolve_left (hne hn.2.1 eb)
        · exact ((exceeds_iff _ _ _).mp (h2 v (Nat.zero_le _) hv _ kk ((hkr v _ hv).mpr rfl) ek i a b ea eb)).resolve_left
            (hne (hn.2.2 kk (List.mem_of_getElem? ek)) eb)
      · rintro ⟨-, h1, h2, h3⟩
        refine ⟨fun j _ hj => ⟨fun a b ea eb => (exceeds_iff _ _ _).mpr (.inr (h1 j a b ea eb)), fun a b ea eb => ?_⟩, ?_⟩
        · rw [mul_comm]
          exact (exceeds_iff _ _ _).mpr (.inr (h2 j a b ea eb))
        · intro w _ hw x y ex ey j p q ep eq
          rw [hkr w x hw] at ex
          subst ex
          exact (exceeds_iff _ _ _).mpr (.inr (h3 w j y p q hw ey ep eq))
  · rw [if_neg h]
    exact ⟨_, rfl, iff_of_true rfl h, fun _ => iff_of_false (by simp) fun ha => h ha.1⟩

/-- The verdict on curves without `nan`: the program ends with a report; the report says "equal" if and only if the reference has the same number of
points, saturations and relative permeabilities are within the tolerance and pressures within a hundred times the tolerance, and it says that the
numbers of points do not match if and only if they do not. -/
theorem C135_verdict_partial (num : List Char → Option K) (tol : K) (file : List Char) (r : Reference K) (hr : readReference num file = some r)
    (c : Computed K) (hc : Complete c) :
    ∃ v, main num tol 0 0 file (some c) = .exit 0 [.start, .report v] [] ∧
      (v = .count ↔ ¬ (r.s.length = c.points ∧ r.p.length = c.points ∧ r.k0.length = c.points ∧ r.k1.length = c.points ∧ r.k2.length = c.points)) ∧
      (Numbers c → (v = .equal ↔ Agrees tol (100 * tol) r c)) := by
  obtain ⟨v, hv, h1, h2⟩ := verify_spec tol r c hc
  refine ⟨v, ?_, h1, h2⟩
  simp [main, hr, hv, Console.cout, Console.return]

end verdict

/-- The reading of numbers of the examples. -/
def exNum (w : List Char) : Option Rat := if w = ['1'] then some 1 else if w = ['2'] then some 2 else none

/-- A reference with one point. -/
def exFile : List Char := "#c\n2 1 1 1 1\n".toList

example : readReference exNum exFile = some ⟨[2], [1], [1], [1], [1]⟩ := by decide +kernel

example : readReference exNum "2 1\n".toList = some ⟨[2], [1], [1], [1], [1]⟩ ∧
    readReference exNum "2 1 x 1 1\n".toList = some ⟨[2], [1], [0], [0], [0]⟩ := by
  decide +kernel

example : readStone exNum 2 3 "# Sw Krw J\n1\t2\t1\n2 1 2\n".toList = ⟨[1, 2], [2, 1], [1, 2]⟩ := by decide +kernel

example : main exNum (1/10000) 0 0 exFile (some ⟨1, 3, [.fin 1], [.fin 2], [[.fin 1], [.fin 1], [.fin 1]]⟩) = .exit 0 [.start, .report .equal] [] ∧
    main exNum (1/10000) 0 0 exFile (some ⟨1, 3, [.fin 1], [.fin 2], [[.fin 1], [.fin 1], [.fin 2]]⟩) = .exit 0 [.start, .report .different] [] ∧
    main exNum (1/10000) 0 0 exFile (some ⟨2, 3, [.fin 1, .fin 1], [.fin 2, .fin 2], [[.fin 1, .fin 1], [.fin 1, .fin 1], [.fin 2, .fin 2]]⟩) =
      .exit 0 [.start, .report .count] [] := by
  decide +kernel

/-- The report names the tolerance `tol`, but pressures that deviate by much more are accepted. -/
theorem C135_violated_pressure : ∃ (r : Reference Rat) (c : Computed Rat), readReference exNum exFile = some r ∧ Complete c ∧ Numbers c ∧
    main exNum (1/10000) 0 0 exFile (some c) = .exit 0 [.start, .report .equal] [] ∧ ¬ Agrees (1/10000) (1/10000) r c := by
  refine ⟨⟨[2], [1], [1], [1], [1]⟩, ⟨1, 3, [.fin 1], [.fin (2 + 1/100)], [[.fin 1], [.fin 1], [.fin 1]]⟩, by decide +kernel,
    ⟨by decide, by decide, rfl, rfl, by decide⟩, ⟨by decide, by decide, by decide⟩, by decide +kernel, ?_⟩
  rintro ⟨-, -, h, -⟩
  obtain ⟨y, e, hy⟩ := h 0 2 (.fin (2 + 1/100)) rfl rfl
  obtain rfl := Dbl.fin.inj e
  rw [abs_le] at hy
  linarith [hy.1]

/-- Curves that are not numbers are "verified to be equal to the reference". -/
theorem C135_violated_nan : ∃ (r : Reference Rat) (c : Computed Rat), readReference exNum exFile = some r ∧ Complete c ∧
    main exNum (1/10000) 0 0 exFile (some c) = .exit 0 [.start, .report .equal] [] ∧ ∀ t, ¬ Agrees t t r c := by
  refine ⟨⟨[2], [1], [1], [1], [1]⟩, ⟨1, 3, [.nan], [.nan], [[.nan], [.nan], [.nan]]⟩, by decide +kernel, ⟨by decide, by decide, rfl, rfl, by decide⟩,
    by decide +kernel, ?_⟩
  rintro t ⟨-, h, -⟩
  obtain ⟨y, e, -⟩ := h 0 1 .nan rfl rfl
  cases e

/-- The exit code does not depend on the verdict: curves that differ from the reference give the exit code of success. -/
theorem C135_violated_exit : ∃ (r : Reference Rat) (c : Computed Rat), readReference exNum exFile = some r ∧ Complete c ∧
    (∀ t, t < 1 → ¬ Agrees t t r c) ∧ ∃ out, main exNum (1/10000) 0 0 exFile (some c) = .exit 0 out [] := by
  refine ⟨⟨[2], [1], [1], [1], [1]⟩, ⟨1, 3, [.fin 2], [.fin 2], [[.fin 1], [.fin 1], [.fin 1]]⟩, by decide +kernel,
    ⟨by decide, by decide, rfl, rfl, by decide⟩, ?_, [.start, .report .different], by decide +kernel⟩
  rintro t ht ⟨-, h, -⟩
  obtain ⟨y, e, hy⟩ := h 0 1 (.fin 2) rfl rfl
  obtain rfl := Dbl.fin.inj e
  rw [abs_le] at hy
  linarith [hy.1]

/-- The usage is never shown: a call with arguments ends with exit code one and nothing on the error stream, because both streams are redirected. -/
theorem C135_violated_usage {K : Type} [Field K] [LinearOrder K] (num : List Char → Option K) (tol : K) (rank args : Nat) (h : 0 < args)
    (file : List Char) (c : Option (Computed K)) :
    main num tol rank args file c = .exit 1 (if rank = 0 then [.start] else []) [] := by
  by_cases hr : rank = 0 <;> simp [main, h, hr, Console.cout, Console.cerr, Console.exit]

/-- A failed computation is not reported: the handler writes to a stream whose buffer is gone. -/
theorem C135_violated_error {K : Type} [Field K] [LinearOrder K] (num : List Char → Option K) (tol : K) (rank : Nat) (file : List Char) :
    main num tol rank 0 file none = .undefined := by
  simp [main, Console.handler]

/-- On the other processes of a parallel run the streams are never restored, and are flushed after their buffer is gone. -/
theorem C135_violated_rank {K : Type} [Field K] [LinearOrder K] (num : List Char → Option K) (tol : K) (rank : Nat) (h : rank ≠ 0) (file : List Char)
    (c : Option (Computed K)) : main num tol rank 0 file c = .undefined := by
  cases c <;> simp [main, h, Console.handler, Console.return]

/-- An empty line in the reference makes the reader use a value that was never set. -/
theorem C135_violated_blank {K : Type} [Field K] [LinearOrder K] (num : List Char → Option K) : readReference num ['\n'] = none := by
  simp [readReference, getlines, referenceLine, words, In.extract]

/-- The time is shown as minutes and seconds: their sum is the time, and there are less than sixty seconds. -/
theorem C135_time {K : Type} [Field K] [LinearOrder K] [IsStrictOrderedRing K] [FloorRing K] (t : K) :
    60 * (minSec t).1 + (minSec t).2 = t ∧ 0 ≤ (minSec t).2 ∧ (minSec t).2 < 60 ∧ ∃ n : Int, (minSec t).1 = n := by
  unfold minSec
  have h1 := Int.floor_le (t / 60)
  have h2 := Int.lt_floor_add_one (t / 60)
  have h3 : t / 60 * 60 = t := div_mul_cancel₀ t (by norm_num)
  refine ⟨by ring, ?_, ?_, _, rfl⟩
  · have := mul_le_mul_of_nonneg_right h1 (show (0 : K) ≤ 60 by norm_num)
    rw [h3] at this
    exact sub_nonneg.mpr this
  · have := mul_lt_mul_of_pos_right h2 (show (0 : K) < 60 by norm_num)
    rw [h3] at this
    dsimp only
    linarith

example : minSec (150 : Rat) = (2, 30) := by decide +kernel

end Verif.Bench
