import Verif.Model.ChopOutput
import Verif.Model.Compare

/-!
Specification of the output of the chopper: the GRDECL format.
-/

namespace Verif.ChopOutput.Spec

open Verif.Chopper

variable {K : Type}

/-- What a keyword holds. -/
structure Datum (K : Type) where
  name : String
  dim : Dim
  data : List K

/-- The fields of a chopped grid in the order in which they are given. -/
def all (o : Out K) : List (Datum K) :=
  [⟨"COORD", .length, o.coord⟩, ⟨"ZCORN", .length, o.zcorn⟩, ⟨"ACTNUM", .integer, o.field "ACTNUM"⟩,
   ⟨"PORO", .one, o.field "PORO"⟩, ⟨"NTG", .one, o.field "NTG"⟩, ⟨"SWCR", .one, o.field "SWCR"⟩,
   ⟨"SOWCR", .one, o.field "SOWCR"⟩, ⟨"PERMX", .permeability, o.field "PERMX"⟩,
   ⟨"PERMY", .permeability, o.field "PERMY"⟩, ⟨"PERMZ", .permeability, o.field "PERMZ"⟩,
   ⟨"SATNUM", .integer, o.field "SATNUM"⟩]

/-- Those that have data. -/
def present (o : Out K) : List (Datum K) := (all o).filter fun f => decide (f.data.length ≠ 0)

/-- The values of a field as they are written. -/
def Datum.words (P : Printer K) (f : Datum K) : List (List Char) :=
  match f.dim with
  | .integer => f.data.map P.int
  | _ => f.data.map P.dbl

/-- Words with one blank between them. -/
def joined : List (List Char) → List Char
  | [] => []
  | [w] => w
  | w :: ws => w ++ ' ' :: joined ws

/-- The words are written on lines, at most `width` on a line; a line may end with a blank. -/
inductive Lines (width : Nat) : List (List Char) → List (List Char) → Prop
  | nil : Lines width [] []
  | cons (ws rest : List (List Char)) (line : List Char) (ls : List (List Char)) : ws ≠ [] → ws.length ≤ width →
      (line = joined ws ∨ line = joined ws ++ [' ']) → Lines width rest ls → Lines width (ws ++ rest) (line :: ls)

/-- The sections of a file: the keyword alone on a line, the values, a slash alone on a line, an empty line. -/
inductive Sections (P : Printer K) : List (Datum K) → List (List Char) → Prop
  | nil : Sections P [] []
  | cons (f : Datum K) (fs : List (Datum K)) (values rest : List (List Char)) :
      Lines (if f.name = "COORD" then 3 else if f.dim = .integer then 20 else 4) (f.words P) values → Sections P fs rest →
      Sections P (f :: fs) (f.name.toList :: (values ++ ['/'] :: [] :: rest))

/-- The text with given lines. -/
def text (ls : List (List Char)) : List Char := ls.flatMap (· ++ ['\n'])

/-- A word: not empty, without white space, and not the slash that ends a record. -/
def Word (w : List Char) : Prop := w ≠ [] ∧ (∀ c ∈ w, Compare.isSpace c = false) ∧ w ≠ ['/']

/-- Numbers are written as words. -/
def Printer.Ok (P : Printer K) : Prop := (∀ x, Word (P.dbl x)) ∧ (∀ x, Word (P.int x)) ∧ ∀ n, Word (P.nat n)

/-- How a file is read: its words up to each slash; `acc` holds the words so far, reversed. -/
def records (acc : List (List Char)) : List (List Char) → List (List (List Char))
  | [] => []
  | w :: l => if w = ['/'] then acc.reverse :: records [] l else records (w :: acc) l

/-- The factor with which a value in the file is turned into an SI value. -/
def factor [One K] (U : Units K) (name : String) : K :=
  if name = "COORD" ∨ name = "ZCORN" then U.length
  else if name = "PERMX" ∨ name = "PERMY" ∨ name = "PERMZ" then U.permeability else 1

end Verif.ChopOutput.Spec
