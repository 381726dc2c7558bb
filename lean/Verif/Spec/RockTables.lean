import Verif.Model.RockTables

/-! What C107 talks about: well-formed rock files and what their tables must be. -/

namespace Verif.RockTables.Spec

open Verif.RockTables

variable {K : Type}

/-- The numbers of a list of rows, in reading order. -/
def numbers (rows : List (List K)) : List (Tok K) := rows.flatten.map .num

/-- The file has comment lines that start with `#` (or, if `dashes`, `-`), then a first line that does not, and its content from there on is the
given text, whatever the line breaks. -/
structure Holds (file : File K) (dashes : Bool) (content : List (Tok K)) : Prop where
  split : ∃ head body, file.lines = head ++ body ∧ (∀ l ∈ head, l.lead = some '#' ∨ (dashes = true ∧ l.lead = some '-')) ∧
    (∃ first more, body = first :: more ∧ first.lead ≠ some '#' ∧ (dashes = true → first.lead ≠ some '-')) ∧
    body.flatMap (·.toks) = content

/-- Replace the first or the last entry. -/
def withFirst (x : K) (l : List K) : List K := l.set 0 x
def withLast (x : K) (l : List K) : List K := l.set (l.length - 1) x

/-- The lines of a list that are not empty. -/
def nonempty (ls : List (List Char)) : List (List Char) := ls.filter (· ≠ [])

end Verif.RockTables.Spec
