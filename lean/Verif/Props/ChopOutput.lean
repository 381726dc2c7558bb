import Mathlib.Tactic.Ring
import Mathlib.Tactic.Linarith
import Mathlib.Tactic.Tauto
import Verif.Spec.ChopOutput
import Verif.Spec.Chopper
import Verif.Props.Compare
import Verif.Props.Chopper

/-!
C133: the chopped grid as deck and as file.
-/

namespace Verif.ChopOutput

open Spec Verif.Chopper

variable {K : Type}

theorem addKeyword_entries (metric : Units K) (d : SubDeck K) (name : String) (dim : Dim) (data : List K) :
    addKeyword metric d name dim data = { d with entries := d.entries ++
      ((([⟨name, dim, data⟩] : List (Datum K)).filter fun f => decide (f.data.length ≠ 0)).map fun f =>
        (⟨f.name, f.dim, metric, f.data⟩ : Entry K)) } := by
  unfold addKeyword
  cases data <;> simp

/-- **C133.** The deck holds the dimensions of the chopped grid and exactly the fields that have data, with the values of the chopped grid. -/
theorem C133_deck (metric : Units K) (o : Out K) :
    subDeck metric o = ⟨o.nx, o.ny, o.nz, 1, "F",
      (present o).map fun f => ⟨f.name, f.dim, metric, f.data⟩⟩ := by
  unfold subDeck present all
  simp only [addKeyword_entries]
  simp only [← List.map_append, ← List.filter_append, List.nil_append, List.append_assoc, List.cons_append]

theorem line_text (shown : K → List Char) (e : Nat → Char) (l : List K) (s : Nat) (hl : l ≠ [])
    (he : ∀ i, i + 1 < l.length → e (s + i) = ' ') :
    (l.zipIdx s).flatMap (fun p => shown p.1 ++ [e p.2]) = joined (l.map shown) ++ [e (s + l.length - 1)] := by
  induction l generalizing s with
  | nil => exact absurd rfl hl
  | cons x l ih =>
    rw [List.zipIdx_cons, List.flatMap_cons]
    cases l with
    | nil => simp [joined]
    | cons y l =>
      rw [ih (s + 1) (by simp) (fun i hi => by
        have := he (i + 1) (by simp at hi ⊢; omega)
        rw [← this]
        congr 1
        omega)]
      have h0 := he 0 (by simp)
      simp only [Nat.add_zero] at h0
      simp only [h0, List.map_cons, joined, List.length_cons]
      rw [show s + 1 + (l.length + 1) - 1 = s + (l.length + 1 + 1) - 1 by omega]
      simp

theorem loop_text (shown : K → List Char) (nl : Nat) (h0 : 0 < nl) (n : Nat) : ∀ (l : List K) (s : Nat), l.length ≤ n → s % nl = 0 →
    ∃ ls, Lines nl (l.map shown) ls ∧
      (l.zipIdx s).flatMap (fun p => shown p.1 ++ [if (p.2 + 1) % nl = 0 then '\n' else ' ']) ++ (if l.length % nl ≠ 0 then ['\n'] else []) = text ls := by
  induction n with
  | zero =>
    intro l s hl hs
    have : l = [] := List.length_eq_zero_iff.mp (by omega)
    subst this
    exact ⟨[], .nil, by simp [text]⟩
  | succ n ih =>
    intro l s hl hs
    have key : ∀ i, i < nl → ((s + i + 1) % nl = 0 ↔ i + 1 = nl) := by
      intro i hi
      obtain ⟨q, rfl⟩ := Nat.dvd_of_mod_eq_zero hs
      rw [show nl * q + i + 1 = nl * q + (i + 1) by omega, Nat.mul_add_mod]
      constructor
      · intro h
        by_contra hne
        rw [Nat.mod_eq_of_lt (by omega)] at h
        omega
      · intro h
        rw [h, Nat.mod_self]
    by_cases hnil : l = []
    · subst hnil
      exact ⟨[], .nil, by simp [text]⟩
    by_cases hlt : l.length < nl
    · refine ⟨[joined (l.map shown) ++ [' ']], ?_, ?_⟩
      · have := Lines.cons (width := nl) (l.map shown) [] (joined (l.map shown) ++ [' ']) [] (by simpa using hnil) (by simpa using hlt.le) (.inr rfl) .nil
        simpa using this
      · have hpos : 0 < l.length := List.length_pos_iff.mpr hnil
        rw [line_text shown (fun k => if (k + 1) % nl = 0 then '\n' else ' ') l s hnil (fun i hi => by
          rw [if_neg]
          rw [key i (by omega)]
          omega)]
        rw [if_neg (by
          rw [show s + l.length - 1 = s + (l.length - 1) by omega, key _ (by omega)]
          omega), if_pos (by rw [Nat.mod_eq_of_lt hlt]; omega)]
        simp [text]
    · have hlen : (l.take nl).length = nl := by rw [List.length_take]; omega
      obtain ⟨ls, h1, h2⟩ := ih (l.drop nl) (s + nl) (by rw [List.length_drop]; omega) (by rw [Nat.add_mod_right, hs])
      refine ⟨joined ((l.take nl).map shown) :: ls, ?_, ?_⟩
      · have := Lines.cons (width := nl) ((l.take nl).map shown) _ (joined ((l.take nl).map shown)) ls
          (by intro e; have := congrArg List.length e; simp only [List.length_map, List.length_nil] at this; omega)
          (by rw [List.length_map, hlen]) (.inl rfl) h1
        rwa [← List.map_append, List.take_append_drop] at this
      · conv_lhs => rw [← List.take_append_drop nl l]
        rw [List.zipIdx_append, List.flatMap_append, hlen, List.append_assoc]
        rw [line_text shown (fun k => if (k + 1) % nl = 0 then '\n' else ' ') (l.take nl) s
          (by intro e; rw [e] at hlen; simp at hlen; omega) (fun i hi => by
          rw [if_neg]
          rw [key i (by omega)]
          omega)]
        rw [if_pos (by
          rw [hlen, show s + nl - 1 = s + (nl - 1) by omega, key _ (by omega)]
          omega)]
        rw [List.length_append, hlen, Nat.add_mod_left, h2]
        simp [text]

theorem field_text (shown : K → List Char) (os : List Char) (field : List K) (kw : String) (nl : Nat) (h0 : 0 < nl) :
    (field = [] → outputField shown os field kw nl = os) ∧
    (field ≠ [] → ∃ ls, Lines nl (field.map shown) ls ∧
      outputField shown os field kw nl = os ++ text (kw.toList :: (ls ++ [['/'], []]))) := by
  constructor
  · rintro rfl
    rfl
  · intro h
    obtain ⟨ls, h1, h2⟩ := loop_text shown nl h0 field.length field 0 le_rfl (Nat.zero_mod _)
    refine ⟨ls, h1, ?_⟩
    unfold outputField
    rw [if_neg (by simpa using h)]
    have : text (kw.toList :: (ls ++ [['/'], []])) = kw.toList ++ ['\n'] ++ text ls ++ ['/', '\n', '\n'] := by
      simp [text]
    rw [this, ← h2]
    simp

/-- One field added to a file. -/
theorem step_text (P : Printer K) (os : List Char) (f : Datum K) (fs : List (Datum K)) (lines : List (List Char)) (head : List (List Char))
    (hs : Sections P fs lines) (ht : os = text (head ++ lines)) :
    ∃ lines', Sections P (fs ++ [f].filter fun f => decide (f.data.length ≠ 0)) lines' ∧
      outputField (if f.dim = .integer then P.int else P.dbl) os f.data f.name
        (if f.name = "COORD" then 3 else if f.dim = .integer then 20 else 4) = text (head ++ lines') := by
  obtain ⟨h1, h2⟩ := field_text (if f.dim = .integer then P.int else P.dbl) os f.data f.name
    (if f.name = "COORD" then 3 else if f.dim = .integer then 20 else 4) (by split_ifs <;> omega)
  by_cases hd : f.data = []
  · refine ⟨lines, ?_, ?_⟩
    · simpa [hd] using hs
    · rw [h1 hd, ht]
  · obtain ⟨ls, hl, e⟩ := h2 hd
    have hw : f.words P = f.data.map (if f.dim = .integer then P.int else P.dbl) := by
      unfold Datum.words
      cases f.dim <;> rfl
    refine ⟨lines ++ f.name.toList :: (ls ++ [['/'], []]), ?_, ?_⟩
    · have hf : ([f].filter fun f => decide (f.data.length ≠ 0)) = [f] := by simp [hd]
      rw [hf]
      clear ht e
      induction hs with
      | nil =>
        have := Sections.cons (P := P) f [] ls [] (by rw [hw]; exact hl) .nil
        simpa using this
      | cons g gs values rest hg _ ih =>
        have := Sections.cons g (gs ++ [f]) values _ hg ih
        simpa using this
    · rw [e, ht]
      simp [text]

/-- **C133.** The file consists of the dimensions and, for exactly the fields that have data, of a section with the
values of the field: the keyword and the closing slash stand alone on their lines, and a line holds at most 3 numbers
of COORD, 4 numbers of another field or 20 integers. -/
theorem C133_file (P : Printer K) (o : Out K) :
    ∃ lines, Sections P (present o) lines ∧
      writeGrdecl P o = text ("SPECGRID".toList :: joined [P.nat o.nx, P.nat o.ny, P.nat o.nz, ['1'], ['F']] :: ['/'] :: [] :: lines) := by
  have hh : ∀ (kw : String) (os : List Char), (if has o kw then outputField P.dbl os (o.field kw) kw 4 else os) =
      outputField P.dbl os (o.field kw) kw 4 := by
    intro kw os
    unfold has
    cases h : o.field kw with
    | nil => rfl
    | cons x l => rfl
  have key : ∀ (fs : List (Datum K)) (os : List Char) (done : List (Datum K)) (lines head : List (List Char)),
      Sections P done lines → os = text (head ++ lines) → ∃ lines', Sections P (done ++ fs.filter fun f => decide (f.data.length ≠ 0)) lines' ∧
      fs.foldl (fun os f => outputField (if f.dim = .integer then P.int else P.dbl) os f.data f.name
        (if f.name = "COORD" then 3 else if f.dim = .integer then 20 else 4)) os = text (head ++ lines') := by
    intro fs
    induction fs with
    | nil => intro os done lines head h1 h2; exact ⟨lines, by simpa using h1, h2⟩
    | cons f fs ih =>
      intro os done lines head h1 h2
      obtain ⟨l1, h3, h4⟩ := step_text P os f done lines head h1 h2
      obtain ⟨l2, h5, h6⟩ := ih _ _ _ _ h3 h4
      refine ⟨l2, ?_, h6⟩
      rwa [List.append_assoc, ← List.filter_append] at h5
  obtain ⟨lines, h1, h2⟩ := key (all o) ("SPECGRID\n".toList ++ P.nat o.nx ++ [' '] ++ P.nat o.ny ++ [' '] ++ P.nat o.nz ++ " 1 F\n/\n\n".toList)
    [] [] ("SPECGRID".toList :: joined [P.nat o.nx, P.nat o.ny, P.nat o.nz, ['1'], ['F']] :: ['/'] :: [[]]) .nil (by
      simp [text, joined])
  refine ⟨lines, h1, ?_⟩
  unfold writeGrdecl
  simp only [hh]
  rw [show ("SPECGRID".toList :: joined [P.nat o.nx, P.nat o.ny, P.nat o.nz, ['1'], ['F']] :: ['/'] :: [] :: lines) =
    ("SPECGRID".toList :: joined [P.nat o.nx, P.nat o.ny, P.nat o.nz, ['1'], ['F']] :: ['/'] :: [[]]) ++ lines from rfl, ← h2]
  rfl

theorem words_word' (w : List Char) (c : Char) (rest : List Char) (hw : Word w) (hc : Compare.isSpace c = true) :
    Compare.words [] (w ++ c :: rest) = w :: Compare.words [] rest := by
  have : ∀ (w acc : List Char), (∀ c ∈ w, Compare.isSpace c = false) → Compare.words acc (w ++ c :: rest) = Compare.words (w.reverse ++ acc) (c :: rest) := by
    intro w
    induction w with
    | nil => intros; rfl
    | cons x w ih =>
      intro acc h
      rw [List.cons_append, Compare.words, if_neg (by rw [h x (by simp)]; decide), ih _ fun y hy => h y (by simp [hy])]
      simp
  rw [this w [] hw.2.1, Compare.words, if_pos hc, if_neg (by simpa using hw.1)]
  simp

theorem words_joined (ws : List (List Char)) (rest : List Char) (hne : ws ≠ []) (h : ∀ w ∈ ws, Word w) :
    Compare.words [] (joined ws ++ '\n' :: rest) = ws ++ Compare.words [] rest ∧
    Compare.words [] (joined ws ++ ' ' :: rest) = ws ++ Compare.words [] rest := by
  induction ws with
  | nil => exact absurd rfl hne
  | cons w ws ih =>
    cases ws with
    | nil => exact ⟨words_word' w _ _ (h w (by simp)) (by decide), words_word' w _ _ (h w (by simp)) (by decide)⟩
    | cons v ws =>
      obtain ⟨a, b⟩ := ih (by simp) fun x hx => h x (by simp [hx])
      constructor
      · rw [joined, List.append_assoc, List.cons_append, words_word' w _ _ (h w (by simp)) (by decide), a]
        rfl
        simp
      · rw [joined, List.append_assoc, List.cons_append, words_word' w _ _ (h w (by simp)) (by decide), b]
        rfl
        simp

theorem words_newline (rest : List Char) : Compare.words [] ('\n' :: rest) = Compare.words [] rest := by
  rw [Compare.words, if_pos (by decide), if_pos rfl]

theorem words_lines (nl : Nat) (ws : List (List Char)) (ls : List (List Char)) (rest : List Char) (hl : Lines nl ws ls) (h : ∀ w ∈ ws, Word w) :
    Compare.words [] (text ls ++ rest) = ws ++ Compare.words [] rest := by
  induction hl with
  | nil => rfl
  | cons ws tl line ls hne _ hline _ ih =>
    have ih := ih fun w hw => h w (by simp [hw])
    obtain ⟨a, b⟩ := words_joined ws (text ls ++ rest) hne fun w hw => h w (by simp [hw])
    have b' := (words_joined ws ('\n' :: (text ls ++ rest)) hne fun w hw => h w (by simp [hw])).2
    have e : text (line :: ls) ++ rest = line ++ '\n' :: (text ls ++ rest) := by simp [text]
    rw [e]
    rcases hline with rfl | rfl
    · rw [a, ih, List.append_assoc]
    · rw [List.append_assoc, List.singleton_append, b', words_newline, ih, List.append_assoc]

theorem records_words (ws acc : List (List Char)) (rest : List (List Char)) (h : ∀ w ∈ ws, Word w) :
    records acc (ws ++ ['/'] :: rest) = (acc.reverse ++ ws) :: records [] rest := by
  induction ws generalizing acc with
  | nil => simp [records]
  | cons w ws ih =>
    rw [List.cons_append, records, if_neg (h w (by simp)).2.2, ih _ fun x hx => h x (by simp [hx])]
    simp

theorem words_slash (rest : List Char) : Compare.words [] ('/' :: '\n' :: '\n' :: rest) = ['/'] :: Compare.words [] rest := by
  rw [Compare.words, if_neg (by decide), Compare.words, if_pos (by decide), if_neg (by simp), words_newline]
  rfl

theorem name_word {o : Out K} {f : Datum K} (h : f ∈ present o) : Word f.name.toList := by
  have : f ∈ all o := (List.mem_filter.mp h).1
  unfold all at this
  simp only [List.mem_cons, List.not_mem_nil, or_false] at this
  rcases this with rfl | rfl | rfl | rfl | rfl | rfl | rfl | rfl | rfl | rfl | rfl <;> dsimp only <;> exact ⟨by decide, by decide, by decide⟩

theorem records_sections (P : Printer K) (hP : Printer.Ok P) (fs : List (Datum K)) (lines : List (List Char)) (h : Sections P fs lines)
    (hn : ∀ f ∈ fs, Word f.name.toList) :
    records [] (Compare.words [] (text lines)) = fs.map fun f => f.name.toList :: f.words P := by
  induction h with
  | nil => rfl
  | cons f fs values rest hv _ ih =>
    have hw : ∀ w ∈ f.words P, Word w := by
      intro w hw
      unfold Datum.words at hw
      cases hd : f.dim <;> rw [hd] at hw <;> obtain ⟨x, _, rfl⟩ := List.mem_map.mp hw
      · exact hP.1 x
      · exact hP.1 x
      · exact hP.1 x
      · exact hP.2.1 x
    have e : text (f.name.toList :: (values ++ ['/'] :: [] :: rest)) =
        f.name.toList ++ '\n' :: (text values ++ '/' :: '\n' :: '\n' :: text rest) := by simp [text]
    rw [e, words_word' _ _ _ (hn f (by simp)) (by decide), words_lines _ _ _ _ hv hw, words_slash]
    have := records_words (f.name.toList :: f.words P) [] (Compare.words [] (text rest)) (by
      intro w h
      rcases List.mem_cons.mp h with rfl | h
      · exact hn f (by simp)
      · exact hw w h)
    rw [List.cons_append] at this
    rw [this, ih fun g hg => hn g (by simp [hg])]
    simp

/-- **C133.** Reading the file gives back the dimensions and the fields of the deck: its records are the keyword
SPECGRID with the dimensions, and the keywords of the deck in the same order with their values as written. -/
theorem C133_read (P : Printer K) (hP : Printer.Ok P) (metric : Units K) (o : Out K) :
    records [] (Compare.words [] (writeGrdecl P o)) =
      ["SPECGRID".toList, P.nat (subDeck metric o).nx, P.nat (subDeck metric o).ny, P.nat (subDeck metric o).nz, ['1'], ['F']] ::
      (subDeck metric o).entries.map fun e => e.name.toList :: e.data.map (if e.dim = .integer then P.int else P.dbl) := by
  obtain ⟨lines, h1, h2⟩ := C133_file P o
  rw [h2, C133_deck]
  have hw : ∀ w ∈ [P.nat o.nx, P.nat o.ny, P.nat o.nz, ['1'], ['F']], Word w := by
    intro w hw
    simp only [List.mem_cons, List.not_mem_nil, or_false] at hw
    rcases hw with rfl | rfl | rfl | rfl | rfl
    · exact hP.2.2 _
    · exact hP.2.2 _
    · exact hP.2.2 _
    · exact ⟨by decide, by decide, by decide⟩
    · exact ⟨by decide, by decide, by decide⟩
  have hs : Word "SPECGRID".toList := ⟨by decide, by decide, by decide⟩
  have e : ∀ (a b : List Char), text (a :: b :: ['/'] :: [] :: lines) = a ++ '\n' :: (b ++ '\n' :: ('/' :: '\n' :: '\n' :: text lines)) := by
    intro a b
    simp [text]
  rw [e, words_word' _ _ _ hs (by decide), (words_joined _ _ (by simp) hw).1, words_slash]
  have := records_words ("SPECGRID".toList :: [P.nat o.nx, P.nat o.ny, P.nat o.nz, ['1'], ['F']]) [] (Compare.words [] (text lines)) (by
    intro w h
    rcases List.mem_cons.mp h with rfl | h
    · exact hs
    · exact hw w h)
  rw [List.cons_append] at this
  rw [this, records_sections P hP _ _ h1 fun f hf => name_word hf]
  simp only [List.reverse_nil, List.nil_append, List.map_map]
  congr 1
  apply List.map_congr_left
  intro f _
  obtain ⟨n, d, l⟩ := f
  cases d <;> rfl

/-- The keywords whose values have a name in the deck. -/
theorem back_of (metric : Units K) (o : Out K) (f : Datum K) (h : f ∈ present o) :
    (subDeck metric o).back f.name = some ⟨f.name, f.dim, metric, f.data⟩ := by
  rw [C133_deck]
  unfold SubDeck.back
  simp only
  have hf := (List.mem_filter.mp h).1
  have huniq : ∀ g ∈ present o, g.name = f.name → g = f := by
    intro g hg e
    have hg := (List.mem_filter.mp hg).1
    unfold all at hf hg
    simp only [List.mem_cons, List.not_mem_nil, or_false] at hf hg
    rcases hf with rfl | rfl | rfl | rfl | rfl | rfl | rfl | rfl | rfl | rfl | rfl <;>
      rcases hg with rfl | rfl | rfl | rfl | rfl | rfl | rfl | rfl | rfl | rfl | rfl <;>
      first | rfl | exact absurd e (by simp)
  rw [← List.map_reverse, List.find?_map]
  have : ((present o).reverse.find? ((fun e : Entry K => decide (e.name = f.name)) ∘ fun f => ⟨f.name, f.dim, metric, f.data⟩)) = some f := by
    cases hx : (present o).reverse.find? ((fun e : Entry K => decide (e.name = f.name)) ∘ fun f => ⟨f.name, f.dim, metric, f.data⟩) with
    | none =>
      have := List.find?_eq_none.mp hx f (List.mem_reverse.mpr h)
      simp at this
    | some g =>
      have h1 := List.find?_some hx
      have h2 := List.mem_of_find?_eq_some hx
      rw [huniq g (List.mem_reverse.mp h2) (by simpa using h1)]
  rw [this]
  rfl

theorem cellNo_lt {nx ny nz i j k : Nat} (hi : i < nx) (hj : j < ny) (hk : k < nz) : Spec.Chop.cellNo nx ny i j k < nx * ny * nz := by
  unfold Spec.Chop.cellNo
  have h1 : j + ny * k + 1 ≤ ny * nz := by nlinarith
  nlinarith

/-- **C133 (input in metric units).** A double field of the sub-deck in SI units: the value in a cell is the SI value
of the input in the corresponding cell. -/
theorem C133_si_partial [_root_.Field K] [LinearOrder K] (metric U : Units K) (hU : U = metric) (D : Deck K) (R : Req K) (zlo zhi : K) (kmin kmax : Nat) (o : Out K)
    (h : Spec.Chop.IsSubBox D R zlo zhi kmin kmax o) (kw : String)
    (hkw : kw ∈ ["PORO", "NTG", "SWCR", "SOWCR", "PERMX", "PERMY", "PERMZ"]) (f : List K) (hf : D.field kw = some f) (x : K)
    (i j k : Nat) (hi : i < o.nx) (hj : j < o.ny) (hk : k < o.nz)
    (hx : f[Spec.Chop.cellNo D.nx D.ny (R.imin + i) (R.jmin + j) (kmin + k)]? = some x) :
    ∃ e, (subDeck metric o).back kw = some e ∧ e.si[Spec.Chop.cellNo o.nx o.ny i j k]? = some (x * Spec.factor U kw) := by
  subst hU
  obtain ⟨hlen, hv⟩ := h.field kw (by
    simp only [List.mem_cons, List.not_mem_nil, or_false] at hkw ⊢
    tauto) f hf
  have hv := hv i j k hi hj hk
  have hpos : (o.field kw).length ≠ 0 := by
    rw [hlen]
    have := cellNo_lt hi hj hk
    omega
  have key : ∀ d, (⟨kw, d, o.field kw⟩ : Datum K) ∈ all o → (match d with | .length => U.length | .permeability => U.permeability | _ => 1) = Spec.factor U kw →
      ∃ e, (subDeck U o).back kw = some e ∧ e.si[Spec.Chop.cellNo o.nx o.ny i j k]? = some (x * Spec.factor U kw) := by
    intro d hm hd
    refine ⟨_, back_of U o ⟨kw, d, o.field kw⟩ (List.mem_filter.mpr ⟨hm, by simpa using hpos⟩), ?_⟩
    unfold Entry.si
    rw [List.getElem?_map, hv, hx, Option.map_some]
    rw [← hd]
    cases d <;> rfl
  simp only [List.mem_cons, List.not_mem_nil, or_false] at hkw
  rcases hkw with rfl | rfl | rfl | rfl | rfl | rfl | rfl
  · exact key .one (by simp [all]) (by simp [Spec.factor])
  · exact key .one (by simp [all]) (by simp [Spec.factor])
  · exact key .one (by simp [all]) (by simp [Spec.factor])
  · exact key .one (by simp [all]) (by simp [Spec.factor])
  · exact key .permeability (by simp [all]) (by simp [Spec.factor])
  · exact key .permeability (by simp [all]) (by simp [Spec.factor])
  · exact key .permeability (by simp [all]) (by simp [Spec.factor])

/-- **C133 (input in metric units).** The depth of a corner of the sub-deck in SI units is the SI depth of the
corresponding corner of the input, restricted to the depths kept and counted from the new origin. -/
theorem C133_depth_partial [_root_.Field K] [LinearOrder K] (metric U : Units K) (hU : U = metric) (D : Deck K) (R : Req K) (zlo zhi : K) (kmin kmax : Nat) (o : Out K)
    (h : Spec.Chop.IsSubBox D R zlo zhi kmin kmax o) (i j k a b c : Nat) (hi : i < o.nx) (hj : j < o.ny) (hk : k < o.nz)
    (ha : a < 2) (hb : b < 2) (hc : c < 2) (z : K) (hz : Spec.Chop.depth D (R.imin + i) (R.jmin + j) (kmin + k) a b c = some z) :
    ∃ e, (subDeck metric o).back "ZCORN" = some e ∧ e.si[Spec.Chop.zcornNo o.nx o.ny i j k a b c]? =
      some ((min zhi (max zlo z) - if R.reset then zlo else 0) * Spec.factor U "ZCORN") := by
  subst hU
  obtain ⟨z', e1, e2⟩ := h.corner i j k a b c hi hj hk ha hb hc
  rw [hz] at e1
  cases e1
  refine ⟨_, back_of U o ⟨"ZCORN", .length, o.zcorn⟩ (List.mem_filter.mpr ⟨by simp [all], ?_⟩), ?_⟩
  · simp only [ne_eq, decide_not, Bool.not_eq_true', decide_eq_false_iff_not]
    intro e0
    rw [List.length_eq_zero_iff.mp e0] at e2
    simp at e2
  · unfold Entry.si
    rw [List.getElem?_map, e2]
    simp [Spec.factor]

/-- Small numbers printed as digits. -/
def exPrinter : Printer ℚ :=
  ⟨fun x => if x = 0 then ['0'] else if x = 1 then ['1'] else ['0', '.', '5'], fun _ => ['1'], fun n => if n = 2 then ['2'] else ['1']⟩

/-- The hypothesis of `C133_read` can be met. -/
example : Printer.Ok exPrinter := by
  refine ⟨fun x => ?_, fun x => (show Word ['1'] from ⟨by decide, by decide, by decide⟩), fun n => ?_⟩
  · unfold exPrinter
    dsimp only
    split_ifs <;> exact ⟨by decide, by decide, by decide⟩
  · unfold exPrinter
    dsimp only
    split_ifs <;> exact ⟨by decide, by decide, by decide⟩

/-- The example of the chopper: one column, two half layers; the file has COORD, ZCORN and PORO, the latter on one
unfinished line. -/
example : (limits exDeck).map (fun L => agrees (chop exDeck L Out.init exReq) fun o =>
    decide ((records [] (Compare.words [] (writeGrdecl exPrinter o))).map (fun r => (r.take 1, r.length)) =
      [(["SPECGRID".toList], 6), (["COORD".toList], 25), (["ZCORN".toList], 17), (["PORO".toList], 3)])) = some true := by
  decide +kernel

/-- The metric system, with a round value for the millidarcy, and the field system. -/
def exMetric : Units ℚ := ⟨1, 1 / 10 ^ 15⟩

def exField : Units ℚ := ⟨3048 / 10000, 1 / 10 ^ 15⟩

/-- **C133 (deviation).** For input in field units the sub-deck has other depths than the input: the corner at 2 feet
(0.6096 m) is at 2 m in the sub-deck. -/
theorem C133_violated_units :
    exField ≠ exMetric ∧
    (limits exDeck).map (fun L => agrees (chop exDeck L Out.init ⟨0, 2, 0, 1, 0, 2, false⟩) fun o =>
      match (subDeck exMetric o).back "ZCORN" with
      | some e => decide (e.si[Spec.Chop.zcornNo 2 1 0 0 1 0 0 1]? = some 2)
      | none => false) = some true ∧
    (Spec.Chop.depth exDeck 0 0 1 0 0 1).map (· * Spec.factor exField "ZCORN") = some (6096 / 10000) := by
  refine ⟨by decide +kernel, by decide +kernel, by decide +kernel⟩

end Verif.ChopOutput
