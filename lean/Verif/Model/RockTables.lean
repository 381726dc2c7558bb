import Mathlib.Order.Defs.LinearOrder
import Mathlib.Data.List.Basic

/-!
Model of reading rock tables: `opm/porsol/common/RockJfunc.hpp:147-219`, `opm/porsol/common/RockAnisotropicRelperm.hpp:88-151`,
`opm/porsol/common/ReservoirPropertyCommon_impl.hpp:799-818`.

Simplifications: a text file is the list of its lines, each with its first character and its content as the stream extraction of numbers sees it;
numbers are those of `K`. That the last line need not end with a newline is a flag. Opening files is a parameter. The constructor of the table class
(opm-common) is its specification: it asserts that the arguments do not decrease.
-/

namespace Verif.RockTables

variable {K : Type}

/-- How reading can fail: an exception of the code, a violated assertion, an access of an empty vector, or a loop that does not end. -/
inductive Err
  | open
  | header
  | notEof
  | assertion
  | empty
  | endless
  deriving DecidableEq, Repr

/-- What number extraction finds next: a number, or text that is none. -/
inductive Tok (K : Type)
  | num (x : K)
  | bad

/-- A line: its first character (none when it is empty) and its content. -/
structure Line (K : Type) where
  lead : Option Char
  toks : List (Tok K)

/-- A text file. -/
structure File (K : Type) where
  lines : List (Line K)
  newline : Bool

/-- The header loop of `readStatoilFormat` (RockJfunc.hpp:166-186). A `-` is extracted with `get` and compared with `-`, so the line is skipped whatever
follows. Skipping a last line without a newline leaves the stream at its end, and the following `peek` makes it fail. -/
def skipHeader (newline : Bool) : List (Line K) → Except Err (List (Line K))
  | [] => .ok []
  | l :: ls =>
    if l.lead = some '#' ∨ l.lead = some '-' then
      if ls.isEmpty && !newline then .error .header else skipHeader newline ls
    else .ok (l :: ls)

/-- Reading rows of `n` numbers to the end (RockJfunc.hpp:187-193; RockAnisotropicRelperm.hpp:115-121): text that is no number stops before the end of the
file and throws; a row that the end of the file cuts off is dropped. `cur` is the row being read. -/
def readRows (n : Nat) : List K → List (Tok K) → Except Err (List (List K))
  | _, [] => .ok []
  | _, .bad :: _ => .error .notEof
  | cur, .num x :: t =>
    if cur.length + 1 = n then (readRows n [] t).map ((cur ++ [x]) :: ·) else readRows n (cur ++ [x]) t

section Tables
variable [LinearOrder K]

/-- Are the values in nondecreasing order? -/
def nondecreasing : List K → Bool
  | x :: y :: l => decide (x ≤ y) && nondecreasing (y :: l)
  | _ => true

/-- A piecewise linear table (opm-common, by its specification). -/
structure Table (K : Type) where
  xs : List K
  ys : List K
  deriving DecidableEq

/-- `TabFunc(x, y)`. -/
def mkTable (xs ys : List K) : Except Err (Table K) := if nondecreasing xs then .ok ⟨xs, ys⟩ else .error .assertion

/-- `v[0] = 0` (an access of an empty vector is undefined). -/
def zeroFront [Zero K] : List K → Except Err (List K)
  | [] => .error .empty
  | _ :: l => .ok (0 :: l)

/-- `v.back() = 0`. -/
def zeroBack [Zero K] : List K → Except Err (List K)
  | [] => .error .empty
  | x :: l => .ok ((x :: l).dropLast ++ [0])

/-- `front()` and `back()`. -/
def front : List K → Except Err K
  | [] => .error .empty
  | x :: _ => .ok x
def back : List K → Except Err K
  | [] => .error .empty
  | x :: l => .ok ((x :: l).getLast (List.cons_ne_nil x l))

/-- Column `i` of the rows. -/
def column [Zero K] (i : Nat) (rows : List (List K)) : List K := rows.map fun r => r.getD i 0

/-- The tables of a `RockJfunc` (RockJfunc.hpp:221-229). -/
structure JRock (K : Type) where
  krw : Table K
  kro : Table K
  jfunc : Table K
  invJ : Table K
  sMin : K
  sMax : K

/-- `readStatoilFormat` (RockJfunc.hpp:164-219). -/
def readStatoil [Zero K] (file : File K) : Except Err (JRock K) := do
  let body ← skipHeader file.newline file.lines
  let data ← readRows 4 [] (body.flatMap (·.toks))
  let svals := column 0 data
  let krw ← zeroFront (column 1 data)
  let kro ← zeroBack (column 2 data)
  let jf := column 3 data
  let sMin ← front svals
  let sMax ← back svals
  let tw ← mkTable svals krw
  let tn ← mkTable svals kro
  let tj ← mkTable svals jf
  let ti ← mkTable jf.reverse svals.reverse
  return ⟨tw, tn, tj, ti, sMin, sMax⟩

/-- The tables of one phase of a `RockAnisotropicRelperm`: relative permeabilities along the axes and capillary pressure. -/
structure PhaseTables (K : Type) where
  krx : Table K
  kry : Table K
  krz : Table K
  pc : Table K

/-- The header loop of `readAnisoFormat` (RockAnisotropicRelperm.hpp:110-113). -/
def skipComments : List (Line K) → List (Line K)
  | [] => []
  | l :: ls => if l.lead = some '#' then skipComments ls else l :: ls

/-- `readAnisoFormat` (RockAnisotropicRelperm.hpp:107-151): `oil` is the phase; the relative permeabilities are set to zero at the first row for water and
at the last row for oil. The capillary pressure of the second phase is compared by the caller. -/
def readAniso [Zero K] (oil : Bool) (file : File K) : Except Err (PhaseTables K) := do
  let data ← readRows 5 [] ((skipComments file.lines).flatMap (·.toks))
  let zero := if oil then zeroBack else zeroFront
  let kx ← zero (column 2 data)
  let ky ← zero (column 3 data)
  let kz ← zero (column 4 data)
  let svals := column 1 data
  let tx ← mkTable svals kx
  let ty ← mkTable svals ky
  let tz ← mkTable svals kz
  let tp ← mkTable svals (column 0 data)
  return ⟨tx, ty, tz, tp⟩

end Tables

/-! ### The list of rocks -/

/-- White space for stream extraction of words. -/
def isBlank (c : Char) : Bool := c = ' ' || c = '\t' || c = '\r' || c = '\n'

/-- `stream >> word`: the next word and what remains. -/
def nextWord (l : List Char) : List Char × List Char :=
  let l := l.dropWhile isBlank
  (l.takeWhile fun c => !isBlank c, l.dropWhile fun c => !isBlank c)

/-- `RockJfunc::read` (RockJfunc.hpp:147-160): the first word of the line names the file. -/
def readJ [LinearOrder K] [Zero K] (fs : List Char → Option (File K)) (dir spec : List Char) : Except Err (JRock K) :=
  match fs (dir ++ (nextWord spec).1) with
  | none => .error .open
  | some file => readStatoil file

/-- `RockAnisotropicRelperm::read` (RockAnisotropicRelperm.hpp:88-104) with the assertion that both files have the same capillary pressure (147). -/
def readA [LinearOrder K] [Zero K] (fs : List Char → Option (File K)) (dir spec : List Char) :
    Except Err (PhaseTables K × PhaseTables K) :=
  let w0 := nextWord spec
  let w1 := nextWord w0.2
  match fs (dir ++ w0.1) with
  | none => .error .open
  | some f0 =>
    match readAniso false f0 with
    | .error e => .error e
    | .ok p0 =>
      match fs (dir ++ w1.1) with
      | none => .error .open
      | some f1 =>
        match readAniso true f1 with
        | .error e => .error e
        | .ok p1 => if p0.pc = p1.pc then .ok (p0, p1) else .error .assertion

/-- `dir`: the part of the path up to and including the last `/` (ReservoirPropertyCommon_impl.hpp:809). -/
def dirOf (path : List Char) : List Char := (path.reverse.dropWhile fun c => c ≠ '/').reverse

/-- The inner loop of `readRocks` (ReservoirPropertyCommon_impl.hpp:811-814): lines are read until one is not empty; at the end of the file the line
stays empty for ever (`none`). -/
def nextSpec : List (List Char) → Option (List Char × List (List Char))
  | [] => none
  | l :: ls => if l.isEmpty then nextSpec ls else some (l, ls)

/-- The outer loop (ReservoirPropertyCommon_impl.hpp:810-816). -/
def readAll {R : Type} (read : List Char → Except Err R) : Nat → List (List Char) → Except Err (List R)
  | 0, _ => .ok []
  | n + 1, ls =>
    match nextSpec ls with
    | none => .error .endless
    | some (spec, rest) =>
      match read spec with
      | .error e => .error e
      | .ok r => (readAll read n rest).map (r :: ·)

/-- `readRocks` (ReservoirPropertyCommon_impl.hpp:799-818) for an existing list file: `count` is the number at its start (`none`: no number, which
leaves a value below one), `rest` are the lines after it, the first one being the remainder of the line of the count. -/
def readRocks {R : Type} (read : List Char → List Char → Except Err R) (path : List Char) (count : Option Int) (rest : List (List Char)) :
    Except Err (List R) :=
  match count with
  | none => .error .assertion
  | some n => if 1 ≤ n then readAll (read (dirOf path)) n.toNat rest else .error .assertion

end Verif.RockTables
