import Mathlib.Algebra.Order.Field.Basic
import Mathlib.Algebra.Order.Group.Abs
import Mathlib.Data.List.Basic

/-!
Model of `tests/compareUpscaling.cpp`, the program that decides whether the result of an upscaling agrees with a reference.

Files are lists of characters. Since results can be infinite or not a number, `double` is an ordered field together with
infinities and `nan`; rounding and signed zeros are left out. `atof` is a parameter.
-/

namespace Verif.Compare

/-- A `double`. -/
inductive Dbl (K : Type) where
  | fin (x : K)
  | inf (neg : Bool)
  | nan
deriving DecidableEq

section

variable {K : Type} [Field K] [LinearOrder K]

/-- `std::abs`. -/
def Dbl.abs : Dbl K → Dbl K
  | .fin x => .fin |x|
  | .inf _ => .inf false
  | .nan => .nan

/-- Subtraction. -/
def Dbl.sub : Dbl K → Dbl K → Dbl K
  | .fin x, .fin y => .fin (x - y)
  | .fin _, .inf b => .inf (!b)
  | .inf a, .fin _ => .inf a
  | .inf a, .inf b => if a = b then .nan else .inf a
  | _, _ => .nan

/-- Division by a number that is not negative (zero counts as `+0`). -/
def Dbl.div : Dbl K → Dbl K → Dbl K
  | .fin x, .fin y => if y = 0 then (if x = 0 then .nan else .inf (decide (x < 0))) else .fin (x / y)
  | .fin _, .inf _ => .fin 0
  | .inf a, .fin _ => .inf a
  | _, _ => .nan

/-- `a < b`. -/
def Dbl.lt : Dbl K → Dbl K → Bool
  | .fin x, .fin y => decide (x < y)
  | .fin _, .inf b => !b
  | .inf a, .fin _ => a
  | .inf a, .inf b => a && !b
  | _, _ => false

/-- `std::max`. -/
def Dbl.max (a b : Dbl K) : Dbl K := if a.lt b then b else a

end

/-- `isspace` in the classic locale. -/
def isSpace (c : Char) : Bool := c = ' ' || (9 ≤ c.toNat && c.toNat ≤ 13)

/-- The words that `ss >> value` extracts (compareUpscaling.cpp:40-41); `acc` is the word so far, reversed. -/
def words (acc : List Char) : List Char → List (List Char)
  | [] => if acc = [] then [] else [acc.reverse]
  | c :: l => if isSpace c then (if acc = [] then words [] l else acc.reverse :: words [] l) else words (c :: acc) l

/-- The lines that `std::getline` extracts (compareUpscaling.cpp:39); `acc` is the line so far, reversed. -/
def getlines (acc : List Char) : List Char → List (List Char)
  | [] => if acc = [] then [] else [acc.reverse]
  | c :: l => if c = '\n' then acc.reverse :: getlines [] l else getlines (c :: acc) l

variable {K : Type}

/-- The values of a line (compareUpscaling.cpp:40-44). -/
def readLine (atof : List Char → Dbl K) (line : List Char) : List (Dbl K) :=
  ((words [] line).takeWhile fun w => decide (w.take 1 ≠ ['#'])).map atof

/-- `readData` (compareUpscaling.cpp:31-47); `none` is a file that cannot be opened. -/
def readData (atof : List Char → Dbl K) (file : Option (List Char)) : Option (List (Dbl K)) :=
  file.map fun s => (getlines [] s).flatMap (readLine atof)

variable [Field K] [LinearOrder K]

/-- Two values deviate too much (compareUpscaling.cpp:59-62). -/
def deviates (absTol relTol a b : Dbl K) : Bool :=
  let absDev := (a.sub b).abs
  let relDev := absDev.div (a.abs.max b.abs)
  relTol.lt relDev && absTol.lt absDev

/-- How `startTest` ends. -/
inductive End (K : Type) where
  | pass
  | unreadable
  | sizes
  | deviation (printed : Dbl K)
deriving DecidableEq

/-- The loop over the values (compareUpscaling.cpp:58-68): `front` is the first value of the first file, which is the one that is printed
before the exception. -/
def compareAll (absTol relTol : Dbl K) (front : Option (Dbl K)) : List (Dbl K × Dbl K) → End K
  | [] => .pass
  | p :: l =>
    if deviates absTol relTol p.1 p.2 then
      match front with
      | some v => .deviation v
      | none => compareAll absTol relTol front l
    else compareAll absTol relTol front l

/-- `startTest` (compareUpscaling.cpp:49-69). -/
def startTest (atof : List Char → Dbl K) (testFile compareFile : Option (List Char)) (absTol relTol : Dbl K) : End K :=
  match readData atof testFile, readData atof compareFile with
  | some a, some b => if a.length ≠ b.length then .sizes else compareAll absTol relTol a.head? (a.zip b)
  | _, _ => .unreadable

/-- `main` (compareUpscaling.cpp:77-94): the program succeeds. `files` opens a file. -/
def main (atof : List Char → Dbl K) (files : List Char → Option (List Char)) (args : List (List Char)) : Bool :=
  match args with
  | [t, c, a, r] => match startTest atof (files t) (files c) (atof a) (atof r) with | .pass => true | _ => false
  | _ => false

end Verif.Compare
