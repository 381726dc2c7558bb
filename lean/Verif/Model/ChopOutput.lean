import Verif.Model.Chopper

/-!
Model of the two ways in which the chopper hands out the sub-grid it cut: the deck returned by `subDeck` and the file
written by `writeGrdecl` (`CornerpointChopper.hpp`).

Text is a list of characters. Formatting of numbers by the stream is a parameter (`Printer`). As in `Verif.Chopper`,
integer fields are kept in the same type as the others.
-/

namespace Verif.ChopOutput

open Verif.Chopper

/-- The dimension strings given to `addDoubleKeyword_` (CornerpointChopper.hpp:282-291); `integer` is `addIntKeyword_`. -/
inductive Dim
  | length
  | one
  | permeability
  | integer
deriving DecidableEq

/-- A unit system: the SI value of one unit of length and of one unit of permeability (`Opm::UnitSystem`). -/
structure Units (K : Type) where
  length : K
  permeability : K
deriving DecidableEq

/-- A keyword with one record with the item `DATA`; a double item carries the dimensions with which raw values are made
SI values. -/
structure Entry (K : Type) where
  name : String
  dim : Dim
  units : Units K
  data : List K
deriving DecidableEq

/-- The returned deck: the `SPECGRID` record and the other keywords in order. -/
structure SubDeck (K : Type) where
  nx : Nat
  ny : Nat
  nz : Nat
  numres : Nat
  coordType : String
  entries : List (Entry K)
deriving DecidableEq

variable {K : Type}

/-- `addDoubleKeyword_` and `addIntKeyword_` (CornerpointChopper.hpp:351-396): nothing is added for a field without data. -/
def addKeyword (metric : Units K) (d : SubDeck K) (name : String) (dim : Dim) (data : List K) : SubDeck K :=
  if data.isEmpty then d else { d with entries := d.entries ++ [⟨name, dim, metric, data⟩] }

/-- `subDeck` (CornerpointChopper.hpp:255-294). -/
def subDeck (metric : Units K) (o : Out K) : SubDeck K :=
  let d : SubDeck K := ⟨o.nx, o.ny, o.nz, 1, "F", []⟩
  let d := addKeyword metric d "COORD" .length o.coord
  let d := addKeyword metric d "ZCORN" .length o.zcorn
  let d := addKeyword metric d "ACTNUM" .integer (o.field "ACTNUM")
  let d := addKeyword metric d "PORO" .one (o.field "PORO")
  let d := addKeyword metric d "NTG" .one (o.field "NTG")
  let d := addKeyword metric d "SWCR" .one (o.field "SWCR")
  let d := addKeyword metric d "SOWCR" .one (o.field "SOWCR")
  let d := addKeyword metric d "PERMX" .permeability (o.field "PERMX")
  let d := addKeyword metric d "PERMY" .permeability (o.field "PERMY")
  let d := addKeyword metric d "PERMZ" .permeability (o.field "PERMZ")
  addKeyword metric d "SATNUM" .integer (o.field "SATNUM")

/-- `deck[name].back()` of the parser library. -/
def SubDeck.back (d : SubDeck K) (name : String) : Option (Entry K) := d.entries.reverse.find? fun e => decide (e.name = name)

/-- How the stream writes a double (`scientific`, precision 15), an integer value of a field, a dimension of the grid. -/
structure Printer (K : Type) where
  dbl : K → List Char
  int : K → List Char
  nat : Nat → List Char

/-- `outputField` (CornerpointChopper.hpp:398-417); `shown` is `os << field[i]`. -/
def outputField (shown : K → List Char) (os : List Char) (field : List K) (keyword : String) (nl : Nat) : List Char :=
  if field.isEmpty then os else
  os ++ keyword.toList ++ ['\n'] ++
    field.zipIdx.flatMap (fun p => shown p.1 ++ [if (p.2 + 1) % nl = 0 then '\n' else ' ']) ++
    (if field.length % nl ≠ 0 then ['\n'] else []) ++ ['/', '\n', '\n']

/-- `hasNTG`, `hasSWCR`, `hasSOWCR` (CornerpointChopper.hpp:322-324). -/
def has (o : Out K) (kw : String) : Bool := !(o.field kw).isEmpty

/-- `writeGrdecl` (CornerpointChopper.hpp:295-321), for a file that can be opened. -/
def writeGrdecl (P : Printer K) (o : Out K) : List Char :=
  let out := "SPECGRID\n".toList ++ P.nat o.nx ++ [' '] ++ P.nat o.ny ++ [' '] ++ P.nat o.nz ++ " 1 F\n/\n\n".toList
  let out := outputField P.dbl out o.coord "COORD" 3
  let out := outputField P.dbl out o.zcorn "ZCORN" 4
  let out := outputField P.int out (o.field "ACTNUM") "ACTNUM" 20
  let out := outputField P.dbl out (o.field "PORO") "PORO" 4
  let out := if has o "NTG" then outputField P.dbl out (o.field "NTG") "NTG" 4 else out
  let out := if has o "SWCR" then outputField P.dbl out (o.field "SWCR") "SWCR" 4 else out
  let out := if has o "SOWCR" then outputField P.dbl out (o.field "SOWCR") "SOWCR" 4 else out
  let out := outputField P.dbl out (o.field "PERMX") "PERMX" 4
  let out := outputField P.dbl out (o.field "PERMY") "PERMY" 4
  let out := outputField P.dbl out (o.field "PERMZ") "PERMZ" 4
  outputField P.int out (o.field "SATNUM") "SATNUM" 20

/-- `getSIDoubleData` of the parser library: raw values times the factor of the dimension of the item. -/
def Entry.si [Mul K] [One K] (e : Entry K) : List K :=
  e.data.map (· * match e.dim with | .length => e.units.length | .permeability => e.units.permeability | _ => 1)

end Verif.ChopOutput
