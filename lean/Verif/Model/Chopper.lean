import Mathlib.Algebra.Order.Field.Basic

/-!
Model of `opm/upscaling/CornerpointChopper.hpp`.

Simplifications: the parsed deck is its SPECGRID dimensions, COORD and ZCORN arrays and a partial map from keywords to
cell fields (integer fields are embedded in the same value type); `double` is a linearly ordered field; deck and file
output are represented by the arrays that are written. Requests are natural numbers: negative indices are rejected by
`verifyInscribedShoebox`, which callers run first. A read or write outside an array is undefined behaviour (`ub`).
-/

namespace Verif.Chopper

variable {K : Type} [Field K] [LinearOrder K]

/-- Failures: the two size errors, the empty z-interval (CornerpointChopper.hpp:148, 178, 187), a negative array size,
undefined behaviour. -/
inductive Err
  | coordSize | zcornSize | emptyInterval | negativeSize | ub
deriving DecidableEq

/-- The parsed input deck (CornerpointChopper.hpp:42-50). -/
structure Deck (K : Type) where
  nx : Nat
  ny : Nat
  nz : Nat
  coord : List K
  zcorn : List K
  field : String → Option (List K)

/-- `std::max_element` dereferenced; `none` (undefined) for an empty range. -/
def maxElt : List K → Option K
  | [] => none
  | x :: xs => some (xs.foldl max x)

/-- `std::min_element` dereferenced. -/
def minElt : List K → Option K
  | [] => none
  | x :: xs => some (xs.foldl min x)

/-- `layersz` (CornerpointChopper.hpp:52, 175). -/
def Deck.layersz (D : Deck K) : Nat := 8 * D.nx * D.ny

/-- The constructor's `botmax_`, `topmin_`, `abszmin_`, `abszmax_` (CornerpointChopper.hpp:52-59). -/
structure Limits (K : Type) where
  botmax : K
  topmin : K
  abszmin : K
  abszmax : K

/-- The constructor (CornerpointChopper.hpp:42-63); `none` when a range is empty or leaves the array. -/
def limits (D : Deck K) : Option (Limits K) :=
  if D.zcorn.length < D.nz * D.layersz ∨ D.zcorn.length < D.layersz / 2 ∨ D.nz * D.layersz < D.layersz / 2 then none
  else
    match maxElt (D.zcorn.take (D.layersz / 2)),
      minElt ((D.zcorn.drop (D.nz * D.layersz - D.layersz / 2)).take (D.layersz / 2)),
      minElt D.zcorn, maxElt D.zcorn with
    | some b, some t, some mn, some mx => some ⟨b, t, mn, mx⟩
    | _, _, _, _ => none

/-- `verifyInscribedShoebox` (CornerpointChopper.hpp:95-135): `true` when nothing is thrown. -/
def verifyInscribedShoebox (D : Deck K) (L : Limits K) (imin ilen imax jmin jlen jmax : Int) (zmin zlen zmax : K) :
    Bool :=
  if imin < 0 then false
  else if ilen > D.nx then false
  else if imax > D.nx then false
  else if jmin < 0 then false
  else if jlen > D.ny then false
  else if jmax > D.ny then false
  else if zmin < L.abszmin then false
  else if zmax > L.abszmax then false
  else if zlen > L.abszmax - L.abszmin then false
  else true

/-- A chop request: the arguments of `chop` (CornerpointChopper.hpp:137). -/
structure Req (K : Type) where
  imin : Nat
  imax : Nat
  jmin : Nat
  jmax : Nat
  zmin : K
  zmax : K
  reset : Bool

/-- The output members `new_dims_`, `new_COORD_`, `new_ZCORN_`, `new_to_old_cell_` and the filtered fields. -/
structure Out (K : Type) where
  nx : Nat
  ny : Nat
  nz : Nat
  coord : List K
  zcorn : List K
  newToOld : List Nat
  field : String → List K

/-- A new chopper: empty vectors; `new_dims_` is uninitialised in the code, here 0. -/
def Out.init : Out K := ⟨0, 0, 0, [], [], [], fun _ => []⟩

/-- `std::vector::resize(n, d)`. -/
def resizeTo {α : Type} (l : List α) (n : Nat) (d : α) : List α := l.take n ++ List.replicate (n - l.length) d

/-- Array writes in program order; a value that could not be read, or a position outside, is undefined. -/
def applyWrites {α : Type} : List (Nat × Option α) → List α → Option (List α)
  | [], l => some l
  | w :: ws, l =>
    match w.2 with
    | some v => if w.1 < l.length then applyWrites ws (l.set w.1 v) else none
    | none => none

/-- The values `a, a+1, …, b-1` of a loop index. -/
def loop (a b : Nat) : List Nat := (List.range (b - a)).map (a + ·)

/-- The six coordinates of a pillar after the optional shift of the origin (CornerpointChopper.hpp:160-168); `c` is the
offset in the pillar. -/
def coordValue (D : Deck K) (R : Req K) (xc yc : K) (pos c : Nat) : Option K :=
  (D.coord[6 * pos + c]?).map fun v =>
    if R.reset then
      match c with
      | 0 => v - xc
      | 1 => v - yc
      | 2 => 0
      | 3 => v - xc
      | 4 => v - yc
      | _ => R.zmax - R.zmin
    else v

/-- The writes of the COORD loop (CornerpointChopper.hpp:154-172): pillar `(i, j)` of the old grid goes to pillar
`(i - imin, j - jmin)`. -/
def coordWrites (D : Deck K) (R : Req K) (xc yc : K) : List (Nat × Option K) :=
  (loop R.jmin (R.jmax + 1)).flatMap fun j =>
    (loop R.imin (R.imax + 1)).flatMap fun i =>
      (List.range 6).map fun c =>
        (6 * ((R.imax - R.imin + 1) * (j - R.jmin) + (i - R.imin)) + c,
          coordValue D R xc yc ((D.nx + 1) * j + i) c)

/-- The corner depths of layer `k` (CornerpointChopper.hpp:195, 204). -/
def layer (D : Deck K) (k : Nat) : List K := (D.zcorn.drop (k * D.layersz)).take D.layersz

/-- The loop for `kmin` (CornerpointChopper.hpp:193-200): the first layer with a corner above `zmin`. -/
def findKmin (D : Deck K) (zmin : K) : Option Nat :=
  (List.range D.nz).find? fun k =>
    match maxElt (layer D k) with
    | some m => decide (m > zmin)
    | none => false

/-- The loop for `kmax` (CornerpointChopper.hpp:202-209): one past the last layer with a corner below `zmax`. -/
def findKmax (D : Deck K) (zmax : K) : Option Nat :=
  ((List.range D.nz).reverse.find? fun k =>
    match minElt (layer D k) with
    | some m => decide (m < zmax)
    | none => false).map (· + 1)

/-- Position of corner `cc` of cell `(i, j, k)` in a ZCORN array (CornerpointChopper.hpp:218-237): `old_ix` plus the
`delta` combination of the eight entries of `old_indices` / `new_indices`. -/
def cornerIndex (nx ny i j k cc : Nat) : Nat :=
  let d0 := 1
  let d1 := 2 * nx
  let d2 := 4 * nx * ny
  let ix := 2 * (i * d0 + j * d1 + k * d2)
  match cc with
  | 0 => ix
  | 1 => ix + d0
  | 2 => ix + d1
  | 3 => ix + d1 + d0
  | 4 => ix + d2
  | 5 => ix + d2 + d0
  | 6 => ix + d2 + d1
  | _ => ix + d2 + d1 + d0

/-- The cells visited by the triple loop (CornerpointChopper.hpp:220-222). -/
def cellLoop (R : Req K) (kmin kmax : Nat) : List (Nat × Nat × Nat) :=
  (loop kmin kmax).flatMap fun k => (loop R.jmin R.jmax).flatMap fun j => (loop R.imin R.imax).map fun i => (i, j, k)

/-- The writes to `new_to_old_cell_` (CornerpointChopper.hpp:223): `cellcount` counts the visited cells. -/
def oldCellWrites (D : Deck K) (R : Req K) (kmin kmax : Nat) : List (Nat × Option Nat) :=
  (cellLoop R kmin kmax).zipIdx.map fun c =>
    (c.2, some (D.nx * D.ny * c.1.2.2 + D.nx * c.1.2.1 + c.1.1))

/-- The writes to `new_ZCORN_` (CornerpointChopper.hpp:224-238). -/
def zcornWrites (D : Deck K) (R : Req K) (zmin zmax corr : K) (kmin kmax : Nat) : List (Nat × Option K) :=
  (cellLoop R kmin kmax).flatMap fun c =>
    (List.range 8).map fun cc =>
      (cornerIndex (R.imax - R.imin) (R.jmax - R.jmin) (c.1 - R.imin) (c.2.1 - R.jmin) (c.2.2 - kmin) cc,
        (D.zcorn[cornerIndex D.nx D.ny c.1 c.2.1 c.2.2 cc]?).map fun z => min zmax (max zmin z) - corr)

/-- `filterField` (CornerpointChopper.hpp:418-426). -/
def filterField (field : List K) (newToOld : List Nat) : Option (List K) := newToOld.mapM fun i => field[i]?

/-- The keywords filtered at the end of `chop` (CornerpointChopper.hpp:243-251). -/
def keywords : List String := ["ACTNUM", "PORO", "NTG", "SWCR", "SOWCR", "PERMX", "PERMY", "PERMZ", "SATNUM"]

/-- `filterDoubleField` / `filterIntegerField` for one keyword (CornerpointChopper.hpp:428-442). -/
def filterKeyword (D : Deck K) (n2o : List Nat) (acc : Option (String → List K)) (kw : String) :
    Option (String → List K) :=
  match acc with
  | none => none
  | some g =>
    match D.field kw with
    | none => some g
    | some f =>
      match filterField f n2o with
      | some l => some fun k => if k = kw then l else g k
      | none => none

/-- The part of `chop` after the limits are known (CornerpointChopper.hpp:211-251). -/
def fill (D : Deck K) (o : Out K) (R : Req K) (zmin zmax : K) (kmin kmax : Nat) : Except (Err × Out K) (Out K) :=
  if kmax < kmin then .error (.negativeSize, o) else
  let corr := if R.reset then zmin else 0
  let n := (R.imax - R.imin) * (R.jmax - R.jmin) * (kmax - kmin)
  match applyWrites (zcornWrites D R zmin zmax corr kmin kmax) (resizeTo o.zcorn (8 * n) (10 ^ 100)),
    applyWrites (oldCellWrites D R kmin kmax) (resizeTo o.newToOld n 0) with
  | some z, some n2o =>
    match keywords.foldl (filterKeyword D n2o) (some o.field) with
    | some f => .ok { o with nz := kmax - kmin, zcorn := z, newToOld := n2o, field := f }
    | none => .error (.ub, o)
  | _, _ => .error (.ub, o)

/-- `chop` (CornerpointChopper.hpp:137-252). An error carries the members as the exception leaves them. Negative new
dimensions (`imax < imin` or `jmax < jmin`) are reported as `negativeSize`. -/
def chop (D : Deck K) (L : Limits K) (o : Out K) (R : Req K) : Except (Err × Out K) (Out K) :=
  if R.imax < R.imin ∨ R.jmax < R.jmin then .error (.negativeSize, o) else
  let o := { o with nx := R.imax - R.imin, ny := R.jmax - R.jmin }
  if D.coord.length ≠ 6 * (D.nx + 1) * (D.ny + 1) then .error (.coordSize, o) else
  match D.coord[6 * ((D.nx + 1) * R.jmin + R.imin)]?, D.coord[6 * ((D.nx + 1) * R.jmin + R.imin) + 1]? with
  | some xc, some yc =>
    match applyWrites (coordWrites D R xc yc)
        (resizeTo o.coord (6 * (R.imax - R.imin + 1) * (R.jmax - R.jmin + 1)) (10 ^ 100)) with
    | none => .error (.ub, o)
    | some crd =>
      let o := { o with coord := crd }
      if D.zcorn.length ≠ D.layersz * D.nz then .error (.zcornSize, o) else
      let zmin := max R.zmin L.botmax
      let zmax := min R.zmax L.topmin
      if zmin ≥ zmax then .error (.emptyInterval, o) else
      match findKmin D zmin, findKmax D zmax with
      | some kmin, some kmax => fill D o R zmin zmax kmin kmax
      | _, _ => .error (.ub, o)
  | _, _ => .error (.ub, o)

/-- The members after a sequence of requests, exceptions being caught by the caller. -/
def run (D : Deck K) (L : Limits K) (o : Out K) (reqs : List (Req K)) : Out K :=
  reqs.foldl (fun o R => match chop D L o R with | .ok o' => o' | .error e => e.2) o

end Verif.Chopper
