import Verif.Spec.RockTables
import Mathlib.Algebra.Order.Ring.Unbundled.Rat
import Mathlib.Data.List.Sort

/-!
C107: reading of rock tables and lists of rocks.
-/

namespace Verif.RockTables

open Verif.RockTables.Spec

variable {K : Type}

/-! ### Headers and rows -/

theorem skipHeader_spec (newline : Bool) (head : List (Line K)) (hh : ∀ l ∈ head, l.lead = some '#' ∨ l.lead = some '-')
    (first : Line K) (more : List (Line K)) (hf : first.lead ≠ some '#') (hf' : first.lead ≠ some '-') :
    skipHeader newline (head ++ first :: more) = .ok (first :: more) := by
  induction head with
  | nil =>
    rw [List.nil_append, skipHeader, if_neg]
    rintro (h | h)
    · exact hf h
    · exact hf' h
  | cons l head ih =>
    rw [List.cons_append, skipHeader, if_pos (hh l List.mem_cons_self), if_neg (by simp)]
    exact ih fun l h => hh l (List.mem_cons_of_mem _ h)

theorem skipComments_spec (head : List (Line K)) (hh : ∀ l ∈ head, l.lead = some '#')
    (first : Line K) (more : List (Line K)) (hf : first.lead ≠ some '#') :
    skipComments (head ++ first :: more) = first :: more := by
  induction head with
  | nil => rw [List.nil_append, skipComments, if_neg hf]
  | cons l head ih =>
    rw [List.cons_append, skipComments, if_pos (hh l List.mem_cons_self)]
    exact ih fun l h => hh l (List.mem_cons_of_mem _ h)

theorem readRows_row (n : Nat) (r cur : List K) (t : List (Tok K)) (hr : r ≠ []) (hl : cur.length + r.length = n) :
    readRows n cur (r.map .num ++ t) = (readRows n [] t).map ((cur ++ r) :: ·) := by
  induction r generalizing cur with
  | nil => exact absurd rfl hr
  | cons x r ih =>
    rw [List.map_cons, List.cons_append, readRows]
    cases r with
    | nil =>
      rw [if_pos (by simpa using hl)]
      rfl
    | cons y r =>
      rw [if_neg (by simp at hl; omega), ih (cur ++ [x]) (by simp) (by simp at hl ⊢; omega)]
      simp

theorem readRows_part (n : Nat) (r cur : List K) (t : List (Tok K)) (hl : cur.length + r.length < n) :
    readRows n cur (r.map .num ++ t) = readRows n (cur ++ r) t := by
  induction r generalizing cur with
  | nil => simp
  | cons x r ih =>
    rw [List.map_cons, List.cons_append, readRows, if_neg (by simp at hl; omega), ih (cur ++ [x]) (by simp at hl ⊢; omega)]
    simp

theorem readRows_rows (n : Nat) (hn : 0 < n) (rows : List (List K)) (h : ∀ r ∈ rows, r.length = n) (rest : List K) (hrest : rest.length < n) :
    readRows n [] (numbers rows ++ rest.map .num) = .ok rows := by
  induction rows with
  | nil =>
    have := readRows_part n rest [] ([] : List (Tok K)) (by simpa using hrest)
    rw [List.append_nil] at this
    change readRows n [] (rest.map .num) = _
    rw [this]
    rfl
  | cons r rows ih =>
    have hr := h r List.mem_cons_self
    unfold numbers at ih ⊢
    rw [List.flatten_cons, List.map_append, List.append_assoc,
      readRows_row n r [] _ (by intro h0; rw [h0] at hr; simp at hr; omega) (by simpa using hr),
      ih fun r h' => h r (List.mem_cons_of_mem _ h')]
    rfl

/-- **C107** Text that is no number makes the reading of rows throw, wherever it stands. -/
theorem readRows_bad (n : Nat) (hn : 0 < n) (toks : List (Tok K)) (h : Tok.bad ∈ toks) (cur : List K) : readRows n cur toks = .error .notEof := by
  induction toks generalizing cur with
  | nil => cases h
  | cons t toks ih =>
    cases t with
    | bad => rfl
    | num x =>
      have h' : Tok.bad ∈ toks := by
        rcases List.mem_cons.1 h with h | h
        · cases h
        · exact h
      rw [readRows]
      split
      · rw [ih h']; rfl
      · exact ih h' _

/-! ### Tables -/

section
variable [LinearOrder K]

theorem nondecreasing_iff (l : List K) : nondecreasing l = true ↔ l.Pairwise (· ≤ ·) := by
  rw [← List.isChain_iff_pairwise]
  induction l with
  | nil => simp [nondecreasing]
  | cons x l ih =>
    cases l with
    | nil => simp [nondecreasing]
    | cons y l => rw [nondecreasing, Bool.and_eq_true, ih, decide_eq_true_eq, List.isChain_cons_cons]

theorem zeroFront_ok [Zero K] (l : List K) (h : l ≠ []) : zeroFront l = .ok (withFirst 0 l) := by
  cases l with
  | nil => exact absurd rfl h
  | cons x l => rfl

theorem zeroBack_ok [Zero K] (l : List K) (h : l ≠ []) : zeroBack l = .ok (withLast 0 l) := by
  cases l with
  | nil => exact absurd rfl h
  | cons x l =>
    unfold zeroBack withLast
    have : ∀ (l : List K), l ≠ [] → l.dropLast ++ [0] = l.set (l.length - 1) 0 := by
      intro l hl
      induction l with
      | nil => exact absurd rfl hl
      | cons a l ih =>
        cases l with
        | nil => rfl
        | cons b l =>
          rw [List.dropLast_cons_of_ne_nil (by simp), List.cons_append, ih (by simp)]
          simp
    exact congrArg Except.ok (this (x :: l) (List.cons_ne_nil _ _))

/-- **C107** (partial: see the violations) A rock file with comment lines and then `n ≥ 1` rows of four numbers, broken into lines in any way, with
saturations in nondecreasing and the last column in nonincreasing order, is read, and its tables hold the columns in order, with the relative
permeability of water set to zero in the first and that of oil in the last row. -/
theorem C107_table_partial [Zero K] (file : File K) (rows : List (K × K × K × K)) (hne : rows ≠ [])
    (hfile : Holds file true (numbers (rows.map fun r => [r.1, r.2.1, r.2.2.1, r.2.2.2])))
    (hs : (rows.map (·.1)).Pairwise (· ≤ ·)) (hj : (rows.map (·.2.2.2)).Pairwise (· ≥ ·)) :
    readStatoil file = .ok
      { krw := ⟨rows.map (·.1), withFirst 0 (rows.map (·.2.1))⟩
        kro := ⟨rows.map (·.1), withLast 0 (rows.map (·.2.2.1))⟩
        jfunc := ⟨rows.map (·.1), rows.map (·.2.2.2)⟩
        invJ := ⟨(rows.map (·.2.2.2)).reverse, (rows.map (·.1)).reverse⟩
        sMin := (rows.head hne).1
        sMax := (rows.getLast hne).1 } := by
  obtain ⟨head, body, e1, e2, ⟨first, more, e3, e4, e5⟩, e6⟩ := hfile.split
  have h1 : skipHeader file.newline file.lines = .ok body := by
    rw [e1, e3]
    exact skipHeader_spec _ _ (fun l hl => (e2 l hl).imp_right (·.2)) _ _ e4 (e5 rfl)
  have h2 : readRows 4 [] (body.flatMap (·.toks)) = .ok (rows.map fun r => [r.1, r.2.1, r.2.2.1, r.2.2.2]) := by
    have := readRows_rows 4 (by omega) (rows.map fun r => [r.1, r.2.1, r.2.2.1, r.2.2.2]) (by rintro r hr; obtain ⟨a, _, rfl⟩ := List.mem_map.1 hr; rfl) [] (by simp)
    rw [List.map_nil, List.append_nil] at this
    rw [e6, this]
  have hne' : ∀ {α : Type} (g : K × K × K × K → α), rows.map g ≠ [] := fun g h => hne (List.map_eq_nil_iff.1 h)
  have hc0 : column 0 (rows.map fun r => [r.1, r.2.1, r.2.2.1, r.2.2.2]) = rows.map (·.1) := by
    unfold column; rw [List.map_map]; rfl
  have hc1 : column 1 (rows.map fun r => [r.1, r.2.1, r.2.2.1, r.2.2.2]) = rows.map (·.2.1) := by
    unfold column; rw [List.map_map]; rfl
  have hc2 : column 2 (rows.map fun r => [r.1, r.2.1, r.2.2.1, r.2.2.2]) = rows.map (·.2.2.1) := by
    unfold column; rw [List.map_map]; rfl
  have hc3 : column 3 (rows.map fun r => [r.1, r.2.1, r.2.2.1, r.2.2.2]) = rows.map (·.2.2.2) := by
    unfold column; rw [List.map_map]; rfl
  have h3 : front (rows.map (·.1)) = .ok (rows.head hne).1 := by
    cases rows with
    | nil => exact absurd rfl hne
    | cons r rows => rfl
  have h4 : back (rows.map (·.1)) = .ok (rows.getLast hne).1 := by
    cases rows with
    | nil => exact absurd rfl hne
    | cons r rows =>
      change Except.ok (List.getLast (List.map (·.1) (r :: rows)) _) = _
      rw [List.getLast_map]
  have h5 : ∀ ys : List K, mkTable (rows.map (·.1)) ys = .ok ⟨rows.map (·.1), ys⟩ := by
    intro ys
    unfold mkTable
    rw [if_pos ((nondecreasing_iff _).2 hs)]
  have h6 : mkTable (rows.map (·.2.2.2)).reverse (rows.map (·.1)).reverse = .ok ⟨(rows.map (·.2.2.2)).reverse, (rows.map (·.1)).reverse⟩ := by
    unfold mkTable
    rw [if_pos ((nondecreasing_iff _).2 (List.pairwise_reverse.2 hj))]
  unfold readStatoil
  rw [h1]
  simp only [bind, Except.bind]
  rw [h2]
  simp only [hc0, hc1, hc2, hc3, zeroFront_ok _ (hne' _), zeroBack_ok _ (hne' _), h3, h4, h5, h6]
  rfl

/-- What a successful run of `do`-blocks implies, step by step. -/
theorem bind_ok {α β : Type} {x : Except Err α} {f : α → Except Err β} {y : β} (h : x >>= f = .ok y) : ∃ a, x = .ok a ∧ f a = .ok y := by
  cases x with
  | error e => cases h
  | ok a => exact ⟨a, rfl, h⟩

theorem mkTable_ok {xs ys : List K} {t : Table K} (h : mkTable xs ys = .ok t) : t = ⟨xs, ys⟩ ∧ xs.Pairwise (· ≤ ·) := by
  unfold mkTable at h
  split at h
  · rename_i h'
    exact ⟨(Except.ok.inj h).symm, (nondecreasing_iff _).1 h'⟩
  · cases h

theorem zeroFront_some [Zero K] {l l' : List K} (h : zeroFront l = .ok l') : l ≠ [] ∧ l' = withFirst 0 l := by
  cases l with
  | nil => cases h
  | cons x l => exact ⟨by simp, (Except.ok.inj h).symm⟩

theorem zeroBack_some [Zero K] {l l' : List K} (h : zeroBack l = .ok l') : l ≠ [] ∧ l' = withLast 0 l := by
  have hne : l ≠ [] := by rintro rfl; cases h
  rw [zeroBack_ok l hne] at h
  exact ⟨hne, (Except.ok.inj h).symm⟩

/-- **C107** Whatever the file: a rock that is read has at least one row; all tables have as many entries; the saturations do not decrease and are
the same in all tables; the last column does not increase and the inverse table is its reversal; water starts and oil ends at zero; the saturation
limits are the first and the last entry. -/
theorem C107_result [Zero K] (file : File K) (r : JRock K) (h : readStatoil file = .ok r) :
    r.krw.xs ≠ [] ∧ r.kro.xs = r.krw.xs ∧ r.jfunc.xs = r.krw.xs ∧
    r.krw.ys.length = r.krw.xs.length ∧ r.kro.ys.length = r.krw.xs.length ∧ r.jfunc.ys.length = r.krw.xs.length ∧
    r.krw.xs.Pairwise (· ≤ ·) ∧ r.jfunc.ys.Pairwise (· ≥ ·) ∧
    r.invJ = ⟨r.jfunc.ys.reverse, r.jfunc.xs.reverse⟩ ∧
    r.krw.ys.head? = some 0 ∧ r.kro.ys.getLast? = some 0 ∧
    r.krw.xs.head? = some r.sMin ∧ r.krw.xs.getLast? = some r.sMax := by
  unfold readStatoil at h
  obtain ⟨body, _, h⟩ := bind_ok h
  obtain ⟨data, _, h⟩ := bind_ok h
  obtain ⟨w, hw, h⟩ := bind_ok h
  obtain ⟨o, ho, h⟩ := bind_ok h
  obtain ⟨smin, hmin, h⟩ := bind_ok h
  obtain ⟨smax, hmax, h⟩ := bind_ok h
  obtain ⟨tw, htw, h⟩ := bind_ok h
  obtain ⟨tn, htn, h⟩ := bind_ok h
  obtain ⟨tj, htj, h⟩ := bind_ok h
  obtain ⟨ti, hti, h⟩ := bind_ok h
  have hr := (Except.ok.inj h).symm
  obtain ⟨w1, w2⟩ := zeroFront_some hw
  obtain ⟨o1, o2⟩ := zeroBack_some ho
  obtain ⟨rfl, p1⟩ := mkTable_ok htw
  obtain ⟨rfl, _⟩ := mkTable_ok htn
  obtain ⟨rfl, _⟩ := mkTable_ok htj
  obtain ⟨rfl, p4⟩ := mkTable_ok hti
  have hd : data ≠ [] := by rintro rfl; exact w1 rfl
  obtain ⟨x, l, rfl⟩ := List.exists_cons_of_ne_nil hd
  subst hr
  subst w2 o2
  refine ⟨by simp [column], rfl, rfl, by simp [withFirst, column], by simp [withLast, column], by simp [column], p1, ?_, rfl, by simp [withFirst, column],
    ?_, ?_, ?_⟩
  · rw [List.pairwise_reverse] at p4
    exact p4
  · unfold withLast
    rw [List.getLast?_eq_getElem?]
    simp [column]
  · change Except.ok _ = _ at hmin
    rw [← Except.ok.inj hmin]
    rfl
  · change Except.ok _ = _ at hmax
    rw [← Except.ok.inj hmax]
    exact List.getLast?_eq_some_getLast _

/-- **C107** A file whose content, after the comments, contains text that is no number is rejected. -/
theorem C107_garbage [Zero K] (file : File K) (content : List (Tok K)) (hfile : Holds file true content) (hb : Tok.bad ∈ content) :
    readStatoil file = .error .notEof := by
  obtain ⟨head, body, e1, e2, ⟨first, more, e3, e4, e5⟩, e6⟩ := hfile.split
  unfold readStatoil
  rw [e1, e3, skipHeader_spec _ _ (fun l hl => (e2 l hl).imp_right (·.2)) _ _ e4 (e5 rfl), ← e3]
  simp only [bind, Except.bind]
  rw [e6, readRows_bad 4 (by omega) _ hb]

/-- **C107** (partial) The same for files of direction-dependent relative permeabilities, with five columns: capillary pressure, saturation and the
relative permeabilities along the axes, which are set to zero in the first row for water and in the last for oil. -/
theorem C107_aniso_partial [Zero K] (file : File K) (oil : Bool) (rows : List (K × K × K × K × K)) (hne : rows ≠ [])
    (hfile : Holds file false (numbers (rows.map fun r => [r.1, r.2.1, r.2.2.1, r.2.2.2.1, r.2.2.2.2])))
    (hs : (rows.map (·.2.1)).Pairwise (· ≤ ·)) :
    readAniso oil file = .ok
      { krx := ⟨rows.map (·.2.1), (if oil then withLast 0 else withFirst 0) (rows.map (·.2.2.1))⟩
        kry := ⟨rows.map (·.2.1), (if oil then withLast 0 else withFirst 0) (rows.map (·.2.2.2.1))⟩
        krz := ⟨rows.map (·.2.1), (if oil then withLast 0 else withFirst 0) (rows.map (·.2.2.2.2))⟩
        pc := ⟨rows.map (·.2.1), rows.map (·.1)⟩ } := by
  obtain ⟨head, body, e1, e2, ⟨first, more, e3, e4, _⟩, e6⟩ := hfile.split
  have h1 : skipComments file.lines = body := by
    rw [e1, e3]
    exact skipComments_spec _ (fun l hl => (e2 l hl).resolve_right (by simp)) _ _ e4
  have h2 : readRows 5 [] (body.flatMap (·.toks)) = .ok (rows.map fun r => [r.1, r.2.1, r.2.2.1, r.2.2.2.1, r.2.2.2.2]) := by
    have := readRows_rows 5 (by omega) (rows.map fun r => [r.1, r.2.1, r.2.2.1, r.2.2.2.1, r.2.2.2.2]) (by rintro r hr; obtain ⟨a, _, rfl⟩ := List.mem_map.1 hr; rfl) [] (by simp)
    rw [List.map_nil, List.append_nil] at this
    rw [e6, this]
  have hne' : ∀ {α : Type} (g : K × K × K × K × K → α), rows.map g ≠ [] := fun g h => hne (List.map_eq_nil_iff.1 h)
  have hc : ∀ (i : Nat) (g : K × K × K × K × K → K),
      (∀ r : K × K × K × K × K, [r.1, r.2.1, r.2.2.1, r.2.2.2.1, r.2.2.2.2].getD i 0 = g r) →
      column i (rows.map fun r => [r.1, r.2.1, r.2.2.1, r.2.2.2.1, r.2.2.2.2]) = rows.map g := by
    intro i g hg
    unfold column
    rw [List.map_map]
    exact List.map_congr_left fun r _ => hg r
  have h5 : ∀ ys : List K, mkTable (rows.map (·.2.1)) ys = .ok ⟨rows.map (·.2.1), ys⟩ := by
    intro ys
    unfold mkTable
    rw [if_pos ((nondecreasing_iff _).2 hs)]
  have hz : ∀ l : List K, l ≠ [] → (if oil then zeroBack else zeroFront) l = .ok ((if oil then withLast 0 else withFirst 0) l) := by
    intro l hl
    cases oil
    · exact zeroFront_ok l hl
    · exact zeroBack_ok l hl
  unfold readAniso
  rw [h1, h2]
  simp only [bind, Except.bind]
  rw [hc 0 (·.1) (fun _ => rfl), hc 1 (·.2.1) (fun _ => rfl), hc 2 (·.2.2.1) (fun _ => rfl), hc 3 (·.2.2.2.1) (fun _ => rfl),
    hc 4 (·.2.2.2.2) (fun _ => rfl)]
  simp only [hz _ (hne' _), h5]
  rfl

/-- **C107** A pair of files is accepted only when both give the same capillary pressure, and the tables are those of the files named by the first
two words of the line. -/
theorem C107_pair [Zero K] (fs : List Char → Option (File K)) (dir spec : List Char) (p : PhaseTables K × PhaseTables K)
    (h : readA fs dir spec = .ok p) :
    p.1.pc = p.2.pc ∧ ∃ f0 f1, fs (dir ++ (nextWord spec).1) = some f0 ∧ fs (dir ++ (nextWord (nextWord spec).2).1) = some f1 ∧
      readAniso false f0 = .ok p.1 ∧ readAniso true f1 = .ok p.2 := by
  unfold readA at h
  simp only at h
  cases h0 : fs (dir ++ (nextWord spec).1) with
  | none => rw [h0] at h; cases h
  | some f0 =>
    rw [h0] at h
    simp only at h
    cases h1 : readAniso false f0 with
    | error e => rw [h1] at h; cases h
    | ok p0 =>
      rw [h1] at h
      simp only at h
      cases h2 : fs (dir ++ (nextWord (nextWord spec).2).1) with
      | none => rw [h2] at h; cases h
      | some f1 =>
        rw [h2] at h
        simp only at h
        cases h3 : readAniso true f1 with
        | error e => rw [h3] at h; cases h
        | ok p1 =>
          rw [h3] at h
          simp only at h
          split at h
          · rename_i e
            have := Except.ok.inj h
            subst this
            exact ⟨e, f0, f1, rfl, rfl, h1, h3⟩
          · cases h

end

/-! ### Lists of rocks -/

theorem nextSpec_nonempty (ls : List (List Char)) :
    (nonempty ls = [] → nextSpec ls = none) ∧
    (∀ l more, nonempty ls = l :: more → ∃ rest, nextSpec ls = some (l, rest) ∧ nonempty rest = more) := by
  induction ls with
  | nil => exact ⟨fun _ => rfl, fun l more h => by cases h⟩
  | cons a ls ih =>
    by_cases ha : a = []
    · subst ha
      have : nonempty ([] :: ls) = nonempty ls := by unfold nonempty; rw [List.filter_cons_of_neg (by simp)]
      rw [this]
      exact ih
    · have h1 : nonempty (a :: ls) = a :: nonempty ls := by unfold nonempty; rw [List.filter_cons_of_pos (by simp [ha])]
      have h2 : nextSpec (a :: ls) = some (a, ls) := by rw [nextSpec, if_neg (by simp [ha])]
      rw [h1, h2]
      refine ⟨fun h => absurd h (List.cons_ne_nil _ _), fun l more h => ?_⟩
      obtain ⟨e1, e2⟩ := List.cons.inj h
      subst e1
      exact ⟨ls, rfl, e2⟩

theorem readAll_spec {R : Type} (read : List Char → Except Err R) (n : Nat) (ls : List (List Char)) :
    (n ≤ (nonempty ls).length → readAll read n ls = ((nonempty ls).take n).mapM read) ∧
    ((nonempty ls).length < n → (∀ l ∈ nonempty ls, ∃ r, read l = .ok r) → readAll read n ls = .error .endless) := by
  induction n generalizing ls with
  | zero => exact ⟨fun _ => rfl, fun h => absurd h (Nat.not_lt_zero _)⟩
  | succ n ih =>
    obtain ⟨s1, s2⟩ := nextSpec_nonempty ls
    cases hn : nonempty ls with
    | nil =>
      refine ⟨fun h => by simp at h, fun _ _ => ?_⟩
      rw [readAll, s1 hn]
    | cons l more =>
      obtain ⟨rest, hr, hm⟩ := s2 l more hn
      obtain ⟨i1, i2⟩ := ih rest
      rw [hm] at i1 i2
      rw [readAll, hr]
      simp only [List.take_succ_cons, List.mapM_cons]
      constructor
      · intro h
        have h := i1 (by simp at h; omega)
        cases read l with
        | error e => rfl
        | ok r =>
          simp only [h]
          change Except.map _ _ = Except.bind (Except.ok r) _
          simp only [Except.bind]
          cases List.mapM read (List.take n more) <;> rfl
      · intro h hok
        obtain ⟨r, hr'⟩ := hok l List.mem_cons_self
        rw [hr']
        simp only
        rw [i2 (by simp at h; omega) fun x hx => hok x (List.mem_cons_of_mem _ hx)]
        rfl

/-- **C107** (partial: see the violations) A list that announces `n ≥ 1` rocks and has at least `n` lines that are not empty after the count gives `n`
rocks: rock `i` is read from the `i`-th of these lines, with file names relative to the directory of the list. -/
theorem C107_list_partial {R : Type} (read : List Char → List Char → Except Err R) (path : List Char) (n : Nat) (hn : 1 ≤ n)
    (rest : List (List Char)) (hl : n ≤ (nonempty rest).length) :
    readRocks read path (some n) rest = ((nonempty rest).take n).mapM (read (dirOf path)) := by
  unfold readRocks
  simp only
  rw [if_pos (by exact_mod_cast hn), Int.toNat_natCast]
  exact (readAll_spec _ n rest).1 hl

theorem dropWhile_nil (p : Char → Bool) (l : List Char) (h : ∀ c ∈ l, p c = true) : l.dropWhile p = [] := by
  induction l with
  | nil => rfl
  | cons a l ih => rw [List.dropWhile_cons_of_pos (h a List.mem_cons_self)]; exact ih fun c hc => h c (List.mem_cons_of_mem _ hc)

/-- **C107** The directory of the list: everything up to and including the last slash, nothing without one. -/
theorem C107_directory (dir name : List Char) (h : '/' ∉ name) : dirOf (dir ++ '/' :: name) = dir ++ ['/'] ∧ dirOf name = [] := by
  have hd : ∀ l : List Char, name.reverse.dropWhile (fun c => c ≠ '/') = [] ∧
      (name.reverse ++ '/' :: l).dropWhile (fun c => c ≠ '/') = '/' :: l := by
    intro l
    have h' : ∀ c ∈ name.reverse, decide (c ≠ '/') = true := by
      intro c hc
      rw [List.mem_reverse] at hc
      exact decide_eq_true (fun e => h (e ▸ hc))
    refine ⟨dropWhile_nil _ _ h', ?_⟩
    rw [List.dropWhile_append_of_pos h', List.dropWhile_cons_of_neg (by simp)]
  constructor
  · unfold dirOf
    rw [List.reverse_append, List.reverse_cons, List.append_assoc, List.singleton_append, (hd _).2]
    simp
  · unfold dirOf
    rw [(hd []).1]
    rfl

/-- **C107** The words of a line: for two names without white space, separated by blanks, the files are those of the two names. -/
theorem C107_words (a b blanks : List Char) (ha : ∀ c ∈ a, isBlank c = false) (ha0 : a ≠ []) (hb : ∀ c ∈ b, isBlank c = false) (hb0 : b ≠ [])
    (hs : ∀ c ∈ blanks, isBlank c = true) (hs0 : blanks ≠ []) :
    (nextWord (a ++ (blanks ++ b))).1 = a ∧ (nextWord (nextWord (a ++ (blanks ++ b))).2).1 = b ∧ (nextWord a).1 = a := by
  have tw : ∀ (w r : List Char), (∀ c ∈ w, isBlank c = false) → (∀ c ∈ r.head?, isBlank c = true) → w ≠ [] →
      nextWord (w ++ r) = (w, r) := by
    intro w r hw hr hw0
    have e1 : (w ++ r).dropWhile isBlank = w ++ r := by
      obtain ⟨x, l, rfl⟩ := List.exists_cons_of_ne_nil hw0
      rw [List.cons_append, List.dropWhile_cons_of_neg (by rw [hw x List.mem_cons_self]; decide)]
    have hw' : ∀ c ∈ w, (fun c => !isBlank c) c = true := fun c hc => by simp [hw c hc]
    unfold nextWord
    simp only [e1]
    rw [List.takeWhile_append_of_pos hw', List.dropWhile_append_of_pos hw']
    cases r with
    | nil => simp
    | cons x r =>
      have := hr x rfl
      rw [List.takeWhile_cons_of_neg (by simp [this]), List.dropWhile_cons_of_neg (by simp [this]), List.append_nil]
  have h1 : nextWord (a ++ (blanks ++ b)) = (a, blanks ++ b) := by
    refine tw a _ ha ?_ ha0
    obtain ⟨x, l, rfl⟩ := List.exists_cons_of_ne_nil hs0
    intro c hc
    simp at hc
    exact hs c (hc ▸ List.mem_cons_self)
  have h2 : nextWord (blanks ++ b) = (b, []) := by
    have e : (blanks ++ b).dropWhile isBlank = b.dropWhile isBlank := List.dropWhile_append_of_pos hs
    have := tw b [] hb (by simp) hb0
    rw [List.append_nil] at this
    rw [← this]
    unfold nextWord
    rw [e]
  refine ⟨by rw [h1], by rw [h1, h2], ?_⟩
  have := tw a [] ha (by simp) ha0
  rw [List.append_nil] at this
  rw [this]

/-! ### Examples -/

/-- A line of numbers. -/
def ln (l : List ℚ) : Line ℚ := ⟨some '0', l.map .num⟩

/-- A comment line. -/
def comment (c : Char) : Line ℚ := ⟨some c, [.bad]⟩

/-- Two comment lines and three rows broken into four lines. -/
def exFile : File ℚ := ⟨[comment '#', comment '-', ln [1/10, 1/100, 1, 5, 1/2], ln [3/10, 4/10], ln [2], ln [9/10, 1, 1/1000, -1]], false⟩

example : Holds exFile true (numbers ([(1/10, 1/100, 1, 5), (1/2, 3/10, 4/10, 2), (9/10, 1, 1/1000, -1)].map fun r => [r.1, r.2.1, r.2.2.1, r.2.2.2])) ∧
    (readStatoil exFile).toOption.map (fun r => (r.krw.ys, r.kro.ys, r.sMin, r.sMax)) =
      some ([0, 3/10, 1], [1, 4/10, 0], 1/10, 9/10) := by
  refine ⟨⟨[comment '#', comment '-'], _, rfl, ?_, ⟨_, _, rfl, by decide, by decide⟩, rfl⟩, by decide +kernel⟩
  intro l hl
  simp [comment] at hl
  rcases hl with rfl | rfl
  · exact Or.inl rfl
  · exact Or.inr ⟨rfl, rfl⟩

/-- A list of two rocks with empty lines. -/
example : readRocks (fun d s => .ok (d ++ s)) "a/b/list.txt".toList (some 2) [[], "r1".toList, [], "r2".toList, "r3".toList] =
    .ok ["a/b/r1".toList, "a/b/r2".toList] := by decide +kernel

/-! ### Violations -/

/-- **C107** (violated) The check for `--` compares the wrong character: any first line that starts with a minus sign is skipped, also when it is a row
of data. -/
theorem C107_violated_minus [LinearOrder K] [Zero K] (toks : List (Tok K)) (first : Line K) (more : List (Line K)) (newline : Bool) :
    readStatoil ⟨⟨some '-', toks⟩ :: first :: more, newline⟩ = readStatoil ⟨first :: more, newline⟩ := by
  have : skipHeader newline (⟨some '-', toks⟩ :: first :: more) = skipHeader newline (first :: more) := by
    rw [skipHeader, if_pos (Or.inr rfl), if_neg (by simp)]
  unfold readStatoil
  simp only [this]

/-- **C107** (violated) A file that was cut off within its last row is read as if the row did not exist. -/
theorem C107_violated_cut [LinearOrder K] [Zero K] (file file' : File K) (rows : List (List K)) (h4 : ∀ r ∈ rows, r.length = 4)
    (part : List K) (hp : part.length < 4) (hfile : Holds file true (numbers rows)) (hfile' : Holds file' true (numbers rows ++ part.map .num)) :
    readStatoil file' = readStatoil file := by
  have key : ∀ (f : File K) (c : List (Tok K)), Holds f true c → readRows 4 [] c = .ok rows →
      readStatoil f = readStatoil ⟨[⟨none, numbers rows⟩], true⟩ := by
    intro f c hf hc
    obtain ⟨head, body, e1, e2, ⟨first, more, e3, e4, e5⟩, e6⟩ := hf.split
    have h1 : skipHeader f.newline f.lines = .ok body := by
      rw [e1, e3]
      exact skipHeader_spec _ _ (fun l hl => (e2 l hl).imp_right (·.2)) _ _ e4 (e5 rfl)
    have h2 : readRows 4 [] (numbers rows) = .ok rows := by
      have := readRows_rows 4 (by omega) rows h4 [] (by simp)
      rwa [List.map_nil, List.append_nil] at this
    have h3 : skipHeader true [(⟨none, numbers rows⟩ : Line K)] = .ok [⟨none, numbers rows⟩] := by
      rw [skipHeader, if_neg (by simp)]
    unfold readStatoil
    rw [h1, h3]
    simp only [bind, Except.bind]
    have h4 : [(⟨none, numbers rows⟩ : Line K)].flatMap (·.toks) = numbers rows := by simp
    rw [e6, hc, h4, h2]
  have h2 : readRows 4 [] (numbers rows) = .ok rows := by
    have := readRows_rows 4 (by omega) rows h4 [] (by simp)
    rwa [List.map_nil, List.append_nil] at this
  rw [key file _ hfile h2, key file' _ hfile' (readRows_rows 4 (by omega) rows h4 part hp)]

/-- **C107** (violated) A file without a complete row is not rejected; the first entry of an empty vector is accessed. -/
theorem C107_violated_empty [LinearOrder K] [Zero K] (file : File K) (part : List K) (hp : part.length < 4)
    (hfile : Holds file true (part.map .num)) : readStatoil file = .error .empty := by
  obtain ⟨head, body, e1, e2, ⟨first, more, e3, e4, e5⟩, e6⟩ := hfile.split
  unfold readStatoil
  rw [e1, e3, skipHeader_spec _ _ (fun l hl => (e2 l hl).imp_right (·.2)) _ _ e4 (e5 rfl), ← e3]
  simp only [bind, Except.bind]
  have := readRows_rows 4 (by omega) ([] : List (List K)) (by simp) part hp
  change readRows 4 [] (part.map .num) = _ at this
  rw [e6, this]
  rfl

/-- **C107** (violated) A list with fewer lines than it announces is not rejected: the loop for the missing line does not end. -/
theorem C107_violated_short {R : Type} (read : List Char → List Char → Except Err R) (path : List Char) (n : Nat) (rest : List (List Char))
    (hl : (nonempty rest).length < n) (hok : ∀ l ∈ nonempty rest, ∃ r, read (dirOf path) l = .ok r) :
    readRocks read path (some n) rest = .error .endless := by
  unfold readRocks
  simp only
  rw [if_pos (by omega), Int.toNat_natCast]
  exact (readAll_spec _ n rest).2 hl hok

/-- **C107** (violated) A blank after the count (or the carriage return of a file from Windows) counts as the first line: the file name is empty and
the directory itself is opened. -/
theorem C107_violated_blank [LinearOrder K] [Zero K] (fs : List Char → Option (File K)) (path : List Char) (n : Nat) (hn : 1 ≤ n)
    (blank : List Char) (hb : blank ≠ []) (hb' : ∀ c ∈ blank, c = ' ' ∨ c = '\t' ∨ c = '\r') (rest : List (List Char))
    (hdir : ∀ f, fs (dirOf path) = some f → ∃ e, readStatoil f = .error e) :
    ∃ e, readRocks (readJ fs) path (some n) (blank :: rest) = .error e := by
  unfold readRocks
  simp only
  rw [if_pos (by exact_mod_cast hn), Int.toNat_natCast]
  obtain ⟨m, rfl⟩ : ∃ m, n = m + 1 := ⟨n - 1, by omega⟩
  rw [readAll, nextSpec, if_neg (by simp [hb])]
  simp only
  have hw : (nextWord blank).1 = [] := by
    unfold nextWord
    simp only
    rw [dropWhile_nil]
    · rfl
    · intro c hc
      unfold isBlank
      rcases hb' c hc with rfl | rfl | rfl <;> rfl
  have hrd : ∃ e, readJ fs (dirOf path) blank = .error e := by
    unfold readJ
    rw [hw, List.append_nil]
    cases hf : fs (dirOf path) with
    | none => exact ⟨_, rfl⟩
    | some f => exact hdir f hf
  obtain ⟨e, he⟩ := hrd
  rw [he]
  exact ⟨e, rfl⟩

end Verif.RockTables
