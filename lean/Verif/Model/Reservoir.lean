import Mathlib.Algebra.Order.Field.Basic

/-!
Model of the reservoir properties (`opm/porsol/common/ReservoirPropertyCommon_impl.hpp`). The deck is the number of cells of the logically
Cartesian grid and the supplied arrays. `none` is a thrown exception, a failed assertion or an access outside of an array. Reading the rock
list and the CFL factors are not modelled here.
-/

namespace Verif.Reservoir

/-- `PermeabilityKind` (ReservoirPropertyCommon.hpp:52-53). -/
inductive Kind where
  | scalar
  | diagonal
  | tensor
  | none
  | invalid
  deriving DecidableEq

/-- A `bool` in a sum. -/
def cnt (b : Bool) : Nat := if b then 1 else 0

/-- `classifyPermeability` (ReservoirPropertyCommon_impl.hpp:70-115). Components are numbered `xx, xy, xz, yx, yy, yz, zx, zy, zz`. -/
def classify (has : Fin 9 → Bool) : Kind :=
  let cross := cnt (has 1) + cnt (has 2) + cnt (has 3) + cnt (has 5) + cnt (has 6) + cnt (has 7)
  let comp := cnt (has 0) + cnt (has 4) + cnt (has 8) + cross
  let retval := if cross > 0 then Kind.tensor else if comp = 1 then Kind.scalar else if comp ≥ 2 then Kind.diagonal else Kind.none
  let ok := if comp > 0 then
      (has 0 || !(has 1 || has 2 || has 3 || has 6)) &&
      (has 4 || !(has 3 || has 5 || has 1 || has 7)) &&
      (has 8 || !(has 6 || has 7 || has 2 || has 5))
    else true
  if !ok then Kind.invalid else retval

/-- `kmap[j] = v`. -/
def upd (kmap : Fin 9 → Nat) (j : Fin 9) (v : Nat) : Fin 9 → Nat := fun p => if p = j then v else kmap p

/-- `setScalarPermIfNeeded` (ReservoirPropertyCommon_impl.hpp:138-143). -/
def setScalar (kmap : Fin 9 → Nat) (i j k : Fin 9) : Fin 9 → Nat :=
  let kmap := if kmap j = 0 then upd kmap j (kmap i) else kmap
  if kmap k = 0 then upd kmap k (kmap i) else kmap

variable {α : Type}

/-- A diagonal component of `fillTensor`, e.g. lines 197-202. -/
def fillDiag (d : Fin 9 → Option α) (i j k : Fin 9) (s : (Fin 9 → Nat) × List α) : (Fin 9 → Nat) × List α :=
  match d i with
  | some a => (setScalar (upd s.1 i s.2.length) i j k, s.2 ++ [a])
  | none => s

/-- An off-diagonal component of `fillTensor`, e.g. lines 203-206. -/
def fillCross (d : Fin 9 → Option α) (i j : Fin 9) (s : (Fin 9 → Nat) × List α) : (Fin 9 → Nat) × List α :=
  match d i with
  | some a => (upd (upd s.1 j s.2.length) i s.2.length, s.2 ++ [a])
  | none => s

/-- The indirection map and the list of fields of `fillTensor` (ReservoirPropertyCommon_impl.hpp:188-243). -/
def fill (zero : α) (d : Fin 9 → Option α) : (Fin 9 → Nat) × List α :=
  fillDiag d 8 0 4 <| fillCross d 7 5 <| fillCross d 6 2 <| fillCross d 5 7 <| fillDiag d 4 8 0 <| fillCross d 3 1 <|
    fillCross d 2 6 <| fillCross d 1 3 <| fillDiag d 0 4 8 (fun _ => 0, [zero])

variable {K : Type} [Field K] [LinearOrder K]

/-- What `assignPermeability` sets: kind, the nine numbers of each cell (row by row), validity flags. -/
structure Perm (K : Type) where
  kind : Kind
  perm : List (List K)
  valid : List Bool

/-- The nine numbers of a cell (ReservoirPropertyCommon_impl.hpp:731-741): `K(i,j)` has position `3 i + j`. -/
def cellPerm (kmap : Fin 9 → Nat) (tensor : List (List K)) (threshold : K) (glob : Nat) : Option (List K) :=
  (List.finRange 9).mapM fun p => (tensor[kmap p]?).bind fun t => (t[glob]?).map fun v =>
    if p.val / 3 = p.val % 3 then (if v < threshold then threshold else v) else v

/-- `assignPermeability` (ReservoirPropertyCommon_impl.hpp:690-747) with `fillTensor`. -/
def assignPermeability (ncell : Nat) (d : Fin 9 → Option (List K)) (globalCell : List Nat) (threshold : K) : Option (Perm K) :=
  if ncell = 0 then none
  else if classify (fun p => (d p).isSome) = Kind.invalid then none
  else
    let f := fill (List.replicate ncell 0) d
    if ∃ t ∈ f.2.tail, t.length ≠ ncell then none
    else if f.2.length > 1 then
      (globalCell.mapM (cellPerm f.1 f.2 threshold)).map fun l =>
        ⟨classify fun p => (d p).isSome, l, List.replicate globalCell.length true⟩
    else some ⟨classify fun p => (d p).isSome, List.replicate globalCell.length (List.replicate 9 0),
      List.replicate globalCell.length false⟩

/-- `assignPorosity`, `assignNTG`, `assignSWCR`, `assignSOWCR` (ReservoirPropertyCommon_impl.hpp:592-688): `dflt` is the default. -/
def assignField (ncell : Nat) (dflt : α) (field : Option (List α)) (globalCell : List Nat) : Option (List α) :=
  match field with
  | none => some (List.replicate globalCell.length dflt)
  | some l => if l.length ≠ ncell then none else globalCell.mapM fun g => l[g]?

/-- `assignRockTable` (ReservoirPropertyCommon_impl.hpp:752-794). -/
def assignRock (ncell : Nat) (satnum rocktype : Option (List Int)) (globalCell : List Nat) : Option (List Int) :=
  match satnum with
  | some l => if l.length ≠ ncell then none else globalCell.mapM fun g => (l[g]?).map (· - 1)
  | none =>
    match rocktype with
    | some l => if l.length ≠ ncell then none else globalCell.mapM fun g => (l[g]?).map (· - 1)
    | none => some (List.replicate globalCell.length 0)

/-- The part of the deck that is read. -/
structure Deck (K : Type) where
  ncell : Nat
  poro : Option (List K)
  ntg : Option (List K)
  swcr : Option (List K)
  sowcr : Option (List K)
  perm : Fin 9 → Option (List K)
  satnum : Option (List Int)
  rocktype : Option (List Int)

/-- The data members of `ReservoirPropertyCommon`. -/
structure State (K : Type) where
  porosity : List K
  ntg : List K
  swcr : List K
  sowcr : List K
  perm : List (List K)
  valid : List Bool
  rock : List Int
  kind : Kind

/-- The constructor (ReservoirPropertyCommon_impl.hpp:255-271). -/
def State.fresh : State K := ⟨[], [], [], [], [], [], [], Kind.invalid⟩

/-- `init` from a deck (ReservoirPropertyCommon_impl.hpp:275-315) without rocks: every member is assigned. -/
def initDeck (d : Deck K) (globalCell : List Nat) (threshold : K) : Option (State K) :=
  (assignField d.ncell 1 d.poro globalCell).bind fun porosity =>
  (assignField d.ncell 1 d.ntg globalCell).bind fun ntg =>
  (assignField d.ncell 0 d.swcr globalCell).bind fun swcr =>
  (assignField d.ncell 0 d.sowcr globalCell).bind fun sowcr =>
  (assignPermeability d.ncell d.perm globalCell threshold).bind fun p =>
  (assignRock d.ncell d.satnum d.rocktype globalCell).map fun rock =>
    ⟨porosity, ntg, swcr, sowcr, p.perm, p.valid, rock, p.kind⟩

/-- `init` with uniform values (ReservoirPropertyCommon_impl.hpp:319-335): net-to-gross, critical saturations and the kind keep their
previous values. -/
def State.initUniform (s : State K) (n : Nat) (poro perm : K) : State K :=
  { s with
    porosity := List.replicate n poro
    perm := List.replicate n ((List.range 9).map fun p => if p / 3 = p % 3 then perm else 0)
    valid := List.replicate n true
    rock := List.replicate n 0 }

/-- `permeability(c)` (ReservoirPropertyCommon_impl.hpp:405-414) with its assertion. -/
def State.permeability (s : State K) (c : Nat) : Option (List K) :=
  (s.valid[c]?).bind fun v => if v then s.perm[c]? else none

/-- The permeability numbers of `writeSintefLegacyFormat` (ReservoirPropertyCommon_impl.hpp:546-576), in the order of output. -/
def State.writePerm (s : State K) : Option (List K) :=
  match s.kind with
  | Kind.tensor => some s.perm.flatten
  | Kind.diagonal =>
    ((List.range s.porosity.length).mapM fun c => (List.range 3).mapM fun dd => (s.perm[c]?).bind fun l => l[(3 + 1) * dd]?).map List.flatten
  | Kind.scalar => (List.range s.porosity.length).mapM fun c => (s.perm[c]?).bind fun l => l[0]?
  | Kind.none => (List.range s.porosity.length).mapM fun c => (s.perm[c]?).bind fun l => l[0]?
  | Kind.invalid => none

end Verif.Reservoir
