import Verif.Model.Control
import Verif.Model.Upscale

/-!
Model of `opm/upscaling/RelPermUtils.cpp` apart from the MPI part (`Model/Collect.lean`) and the Voigt access
(`Model/Control.lean`).

Simplifications: `double` is a linearly ordered field; `std::sqrt` is a parameter; a rock curve
(`MonotCubicInterpolator`, another library) is its list of points in increasing `x` together with its evaluation
function; the flow solver is a parameter; unit conversion factors are parameters. Output to the terminal is left out.
A read or write outside a vector is undefined behaviour (`none`).
-/

namespace Verif.RelPerm

open Verif.Dense Verif.Control Verif.Upscale

variable {K : Type} [Field K] [LinearOrder K]

/-! ### input checks -/

/-- Reasons for rejecting the input; `ub` is undefined behaviour. -/
inductive SErr
  | missing | satnum | poro | perm | ub
deriving DecidableEq

/-- The keywords read from the deck (RelPermUtils.cpp:405-446). -/
structure DeckIn (K : Type) where
  poro : Option (List K)
  permx : Option (List K)
  permy : Option (List K)
  permz : Option (List K)
  satnum : Option (List Int)

/-- The cell data held by the helper: `poros`, `perms`, `satnums`, `anisotropic_input`. -/
structure Cells (K : Type) where
  poros : List K
  permx : List K
  permy : List K
  permz : List K
  satnums : List Int
  aniso : Bool

/-- Loading (RelPermUtils.cpp:405-446). -/
def load (d : DeckIn K) : Except SErr (Cells K) :=
  match d.poro, d.permx with
  | some po, some kx =>
    let sat := match d.satnum with
      | some s => s
      | none => List.replicate po.length 1
    match d.permy, d.permz with
    | some ky, some kz => .ok ⟨po, kx, ky, kz, sat, true⟩
    | _, _ => .ok ⟨po, kx, [], [], sat, false⟩
  | _, _ => .error .missing

/-- Raising small porosities (RelPermUtils.cpp:525-534). -/
def truncPoro (minPoro p : K) : K := if ¬ p < 0 ∧ p < minPoro then minPoro else p

/-- Limiting x-permeabilities (RelPermUtils.cpp:545-557). -/
def truncPerm (low high k : K) : K := if ¬ k < 0 ∧ k < low then low else if k > high then high else k

/-- The assignments to cells of rock type 0 (RelPermUtils.cpp:559-577), for one array. -/
def noRock (v : K) : List Int → List K → Option (List K)
  | [], l => some l
  | s :: ss, [] => if s = 0 then none else noRock v ss []
  | s :: ss, x :: l => (noRock v ss l).map ((if s = 0 then v else x) :: ·)

/-- `sanityCheckInput` (RelPermUtils.cpp:392-591) after loading. -/
def sanity (minPoro low high : K) (c : Cells K) : Except SErr (Cells K) :=
  if c.satnums.any (fun s => s < 0) || c.satnums.any (fun s => s > 1000) then .error .satnum
  else if c.poros.any (fun p => p < 0 || p > 1) then .error .poro
  else if c.permx.any (fun k => k < 0) then .error .perm
  else if c.aniso && c.permy.any (fun k => k < 0) then .error .perm
  else if c.aniso && c.permz.any (fun k => k < 0) then .error .perm
  else
    let po := c.poros.map (truncPoro minPoro)
    let kx := c.permx.map (truncPerm low high)
    match noRock low c.satnums kx, noRock 0 c.satnums po with
    | some kx, some po =>
      if c.aniso then
        match noRock low c.satnums c.permy, noRock low c.satnums c.permz with
        | some ky, some kz => .ok ⟨po, kx, ky, kz, c.satnums, true⟩
        | _, _ => .error .ub
      else .ok ⟨po, kx, c.permy, c.permz, c.satnums, false⟩
    | _, _ => .error .ub

/-! ### curves -/

/-- A tabulated curve: points in increasing `x` and the interpolating function. -/
structure Curve (K : Type) where
  pts : List (K × K)
  eval : K → K

/-- The least function value (`getMinimumF().second`). -/
def Curve.minF (c : Curve K) : Option K :=
  match c.pts with
  | [] => none
  | p :: ps => some (ps.foldl (fun m q => min m q.2) p.2)

/-- The greatest function value (`getMaximumF().second`). -/
def Curve.maxF (c : Curve K) : Option K :=
  match c.pts with
  | [] => none
  | p :: ps => some (ps.foldl (fun m q => max m q.2) p.2)

/-- The least `x` (`getMinimumX().first`). -/
def Curve.minX (c : Curve K) : Option K := c.pts.head?.map (·.1)

/-- The greatest `x` (`getMaximumX().first`). -/
def Curve.maxX (c : Curve K) : Option K := c.pts.getLast?.map (·.1)

/-- `checkCurve` (RelPermUtils.cpp:593-613) on the list of points: `none` is undefined (empty curve), otherwise the
verdict and the possibly changed points. -/
def checkCurve (thresh : K) (c : Curve K) : Option (Bool × List (K × K)) :=
  match c.minF, c.pts.head?, c.pts.getLast? with
  | some m, some first, some last =>
    if m = 0 then some (true, c.pts)
    else if m < thresh then
      if first.2 < thresh then some (true, (first.1, 0) :: c.pts.tail)
      else if last.2 < thresh then some (true, c.pts.dropLast ++ [(last.1, 0)])
      else some (true, c.pts)
    else some (false, c.pts)
  | _, _, _ => none

/-! ### depth of cells and the pressure head -/

/-- `ArithmeticAverage` (RelPermUtils.cpp:95-116). -/
structure Avg (K : Type) where
  x : K
  n : K

def Avg.zero : Avg K := ⟨0, 0⟩

def Avg.add (a : Avg K) (v : K) : Avg K := ⟨a.x + v, a.n + 1⟩

/-- The mean; `none` is 0/0. -/
def Avg.value (a : Avg K) : Option K := quot a.x a.n

/-- `sub2ind` (RelPermUtils.cpp:54-59). -/
def sub2ind (n0 n1 i j k : Nat) : Nat := i + n0 * (j + n1 * k)

/-- `zcorn_offset` (RelPermUtils.cpp:61-79). -/
def zcornOffset (nx ny : Nat) : List Nat :=
  (List.range 2).flatMap fun k => (List.range 2).flatMap fun j => (List.range 2).map fun i =>
    sub2ind (2 * nx) (2 * ny) i j k

/-- `zcorn_start` (RelPermUtils.cpp:81-92). -/
def zcornStart (nx ny i j k : Nat) : Nat := sub2ind (2 * nx) (2 * ny) (2 * i) (2 * j) (2 * k)

/-- One corner of `activateCell` (RelPermUtils.cpp:155-158): corner number `q` goes to horizon `2k + q/4`. -/
def addCorner (nx ny : Nat) (zcorn : List K) (i j k : Nat) (acc : Option (List (Avg K))) (q : Nat × Nat) :
    Option (List (Avg K)) :=
  match acc, zcorn[zcornStart nx ny i j k + q.1]? with
  | some h, some z =>
    match h[2 * k + q.2 / 4]? with
    | some a => some (h.set (2 * k + q.2 / 4) (a.add z))
    | none => none
  | _, _ => none

/-- `activateCell` (RelPermUtils.cpp:145-159). -/
def activateCell (nx ny : Nat) (zcorn : List K) (acc : Option (List (Avg K))) (c : Nat × Nat × Nat) :
    Option (List (Avg K)) :=
  (zcornOffset nx ny).zipIdx.foldl (addCorner nx ny zcorn c.1 c.2.1 c.2.2) acc

/-- `ModelThickness` after all cells were activated (RelPermUtils.cpp:137-168). -/
def thickness (nx ny nz : Nat) (zcorn : List K) (cells : List (Nat × Nat × Nat)) : Option K :=
  match cells.foldl (activateCell nx ny zcorn) (some (List.replicate (2 * nz) Avg.zero)) with
  | some h =>
    match h.head?, h.getLast? with
    | some t, some b =>
      match t.value, b.value with
      | some t, some b => some (b - t)
      | _, _ => none
    | _, _ => none
  | none => none

/-- `calculateCellPressureGradients` (RelPermUtils.cpp:687-728): `dP` in the order of the grid's cells. -/
def cellHeads (dRho gravity thick : K) (depths : List K) : List K :=
  depths.map fun d => dRho * gravity * (d - thick / 2)

/-! ### capillary pressure range and the saturation of the system -/

/-- The system to be upscaled. `globalCell` lists, for every cell of the grid in its own order, the number of the cell in
the Eclipse deck; all cell data are addressed by that number, and so is `dP` (RelPermUtils.cpp:919, 1075). -/
structure Sys (K : Type) where
  globalCell : List Nat
  satnum : Nat → Int
  poro : Nat → K
  permx : Nat → K
  volume : Nat → K
  dP : List K
  aniso : Bool
  invJ : Nat → Curve K
  swpc : Nat → Curve K
  sqrt : K → K

/-- The rock number of a cell, counted from 0. -/
def Sys.rock (S : Sys K) (c : Nat) : Nat := (S.satnum c - 1).toNat

/-- The saturation curve of a cell. -/
def Sys.curve (S : Sys K) (c : Nat) : Curve K := if S.aniso then S.swpc (S.rock c) else S.invJ (S.rock c)

/-- The factor of J-function scaling, 1 for anisotropic input (RelPermUtils.cpp:786, 923). -/
def Sys.jfac (S : Sys K) (c : Nat) : K := if S.aniso then 1 else S.sqrt (S.permx c / S.poro c)

/-- `cellPoreVolumes` (RelPermUtils.cpp:778-779): 0 without rock. -/
def Sys.porev (S : Sys K) (c : Nat) : K := if S.satnum c > 0 then S.volume c * S.poro c else 0

/-- The accumulators of the loop of `calculateMinMaxCapillaryPressure`; the initial `±DBL_MAX` are `none`. -/
structure MM (K : Type) where
  pcmin : Option K
  pcmax : Option K
  swir : K
  swor : K

def optMin (a : Option K) (x : K) : Option K :=
  match a with
  | none => some x
  | some y => some (min x y)

def optMax (a : Option K) (x : K) : Option K :=
  match a with
  | none => some x
  | some y => some (max x y)

/-- One cell of the loop (RelPermUtils.cpp:771-823). -/
def mmStep (S : Sys K) (acc : Option (MM K)) (c : Nat) : Option (MM K) :=
  match acc with
  | none => none
  | some m =>
    if S.satnum c > 0 then
      match (S.curve c).minX, (S.curve c).maxX, (S.curve c).minF, (S.curve c).maxF with
      | some x0, some x1, some f0, some f1 =>
        match quot x0 (S.jfac c), quot x1 (S.jfac c) with
        | some lo, some hi =>
          some ⟨optMin m.pcmin lo, optMax m.pcmax hi, m.swir + f0 * S.porev c, m.swor + f1 * S.porev c⟩
        | _, _ => none
      | _, _, _, _ => none
    else some m

/-- Sum of the pore volumes over all cells (RelPermUtils.cpp:847). -/
def Sys.totalPorev (S : Sys K) : K := S.globalCell.foldl (fun a c => a + S.porev c) 0

/-- What `calculateMinMaxCapillaryPressure` computes. -/
structure Range (K : Type) where
  pcmin : K
  pcmax : K
  swir : K
  swor : K
deriving DecidableEq

/-- Rounding the end saturations into [0,1] (RelPermUtils.cpp:866-872). -/
def snapHi (tol s : K) : K := if s > 1 ∧ s - tol < 1 then 1 else s

def snapLo (tol s : K) : K := if s < 0 ∧ s + tol > 0 then 0 else s

/-- `calculateMinMaxCapillaryPressure` (RelPermUtils.cpp:730-883); `none` when an error is thrown or a division by zero
occurs. The comparison of |gravity| with the smallest positive double is a comparison with 0. -/
def minMaxPc (S : Sys K) (gravity tol : K) : Option (Range K) :=
  match S.globalCell.foldl (mmStep S) (some ⟨none, none, 0, 0⟩) with
  | some ⟨some lo, some hi, swirv, sworv⟩ =>
    let dmin := S.dP.foldl optMin none
    let dmax := S.dP.foldl optMax none
    let shift : Option (K × K) :=
      if gravity ≠ 0 then
        match dmin, dmax with
        | some a, some b => some (lo - b, hi - a)
        | _, _ => none
      else some (lo, hi)
    match shift, quot swirv S.totalPorev, quot sworv S.totalPorev with
    | some (lo, hi), some swir, some swor =>
      if lo > hi then none
      else
        let swor := snapHi tol swor
        let swir := snapLo tol swir
        if swir < 0 ∨ swir > 1 ∨ swor < 0 ∨ swor > 1 then none
        else some ⟨lo, hi, swir, swor⟩
    | _, _, _ => none
  | _ => none

/-- The capillary pressure seen by a cell (RelPermUtils.cpp:916-920, 1073-1076). -/
def Sys.cellPc (S : Sys K) (p : K) (c : Nat) : Option K :=
  if S.dP.isEmpty then some p else (S.dP[c]?).map (p - ·)

/-- The water saturation of a cell (RelPermUtils.cpp:912-934): 0 without rock. -/
def Sys.cellSw (S : Sys K) (p : K) (c : Nat) : Option K :=
  if S.satnum c > 0 then (S.cellPc p c).map fun pc => (S.curve c).eval (S.jfac c * pc) else some 0

/-- One cell of the water volume loop (RelPermUtils.cpp:936). -/
def waterStep (S : Sys K) (p : K) (acc : Option K) (c : Nat) : Option K :=
  match acc, S.cellSw p c with
  | some a, some s => some (a + s * S.porev c)
  | _, _ => none

/-- The upscaled saturation at a pressure (RelPermUtils.cpp:905-939). -/
def upscaledSw (S : Sys K) (p : K) : Option K :=
  match S.globalCell.foldl (waterStep S p) (some 0) with
  | some w => quot w S.totalPorev
  | none => none

/-- The pressures at which permeability is upscaled (RelPermUtils.cpp:1007-1025): `inv` evaluates the inverted curve.
`none` for a single point (division of 0 by 0 in the saturation) and for no point (`front()` of an empty vector). -/
def pressurePoints (inv : K → K) (R : Range K) (points : Nat) : Option (List K) :=
  if points ≤ 1 then none
  else
    let l := (List.range points).map fun (q : Nat) => inv (R.swir + (R.swor - R.swir) / ((points : K) - 1) * (q : K))
    some ((l.set 0 R.pcmax).set (points - 1) R.pcmin)

/-! ### phase permeabilities -/

/-- The phase permeability of an isotropic cell with rock (RelPermUtils.cpp:1078-1093). -/
def phasePerm (S : Sys K) (kr : Nat → K → K) (p : K) (c : Nat) : Option K :=
  (S.cellSw p c).map fun s => kr (S.rock c) s * S.permx c

/-- The maximum over the cells (RelPermUtils.cpp:1059-1116); the diagonal initialised with `minPerm` also takes part. -/
def maxStep (S : Sys K) (kr : Nat → K → K) (minPerm p : K) (acc : Option K) (c : Nat) : Option K :=
  match acc with
  | none => none
  | some m => if S.satnum c > 0 then (phasePerm S kr p c).map fun k => max (max m k) minPerm else some m

/-- `minPhasePerm` (RelPermUtils.cpp:1122-1123). -/
def floorPerm (maxPhase contrast minPerm : K) : K := max (maxPhase / contrast) minPerm

/-- The permeabilities handed to the solver, isotropic input (RelPermUtils.cpp:1059-1145). Cells without rock keep the
initial 0 in `phasePermValues`. -/
def cellPerms (S : Sys K) (kr : Nat → K → K) (contrast minPerm p : K) : Option (List K) :=
  match S.globalCell.foldl (maxStep S kr minPerm p) (some 0) with
  | some m =>
    S.globalCell.mapM fun c =>
      if S.satnum c > 0 then (phasePerm S kr p c).map fun k => max (floorPerm m contrast minPerm) k
      else some (max (floorPerm m contrast minPerm) 0)
  | none => none

/-- The diagonal of an anisotropic cell (RelPermUtils.cpp:1095-1111): `none` stands for the empty vector of a cell
without rock. -/
def phasePermDiag (S : Sys K) (kr : Fin 3 → Nat → K → K) (perm : Fin 3 → Nat → K) (p : K) (c : Nat) :
    Option (Fin 3 → K) :=
  (S.cellSw p c).map fun s d => kr d (S.rock c) s * perm d c

/-- The maximum, anisotropic input (the scalar keeps `minPerm`, RelPermUtils.cpp:1066, 1113-1115). -/
def maxStepDiag (S : Sys K) (kr : Fin 3 → Nat → K → K) (perm : Fin 3 → Nat → K) (minPerm p : K) (acc : Option K)
    (c : Nat) : Option K :=
  match acc with
  | none => none
  | some m =>
    if S.satnum c > 0 then
      (phasePermDiag S kr perm p c).map fun k => max (max m minPerm) (max (max (k 0) (k 1)) (k 2))
    else some m

/-- The diagonal tensors handed to the solver, anisotropic input (RelPermUtils.cpp:1147-1155). A cell without rock has an
empty vector in `phasePermValuesDiag`: reading its entries is undefined. -/
def cellPermsDiag (S : Sys K) (kr : Fin 3 → Nat → K → K) (perm : Fin 3 → Nat → K) (contrast minPerm p : K) :
    Option (List (Fin 3 → K)) :=
  match S.globalCell.foldl (maxStepDiag S kr perm minPerm p) (some 0) with
  | some m =>
    S.globalCell.mapM fun c =>
      if S.satnum c > 0 then
        (phasePermDiag S kr perm p c).map fun k d => max (floorPerm m contrast minPerm) (k d)
      else none
  | none => none

/-- One cell of the maximum of the x-permeabilities (RelPermUtils.cpp:811). -/
def maxSingle (S : Sys K) (m : K) (c : Nat) : K := if S.satnum c > 0 then max m (S.permx c) else m

/-- `minSinglePhasePerm` (RelPermUtils.cpp:821-823). -/
def singleFloor (S : Sys K) (contrast minPerm : K) : K :=
  max (S.globalCell.foldl (maxSingle S) 0 / contrast) minPerm

/-- The diagonals handed to the solver for the single phase permeability (RelPermUtils.cpp:355-384); `permy` and `permz`
are used for anisotropic input only. -/
def singlePerms (S : Sys K) (permy permz : Nat → K) (contrast minPerm : K) : List (Fin 3 → K) :=
  S.globalCell.map fun c d =>
    if S.aniso then
      max (singleFloor S contrast minPerm) (if d = 0 then S.permx c else if d = 1 then permy c else permz c)
    else max (S.permx c) (singleFloor S contrast minPerm)

/-! ### relative permeability from phase permeability -/

/-- Filling a tensor from its first `n` Voigt entries (RelPermUtils.cpp:321-324). -/
def fillVoigt (T : FullMatrix K) (vals : List K) : Option (FullMatrix K) :=
  vals.zipIdx.foldl (fun acc e => match acc with
    | some t => setVoigtValue t (e.2 : Int) e.1
    | none => none) (some T)

/-- The relative permeability values of one point (RelPermUtils.cpp:318-329). -/
def relPermRow (zero inv : FullMatrix K) (t : Nat) (phase : List K) : Option (List K) :=
  match fillVoigt zero phase with
  | some P =>
    match FullMatrix.prod P inv zero with
    | some R => (List.range t).mapM fun (v : Nat) => getVoigtValue R (v : Int)
    | none => none
  | none => none

/-- The check of the end points for one tensor element (RelPermUtils.cpp:335-349): `none` is a thrown error. -/
def eclipseCheck (thresh : K) (vals : List K) : Option (List K) :=
  match vals.head?, vals.getLast? with
  | some a, some b =>
    let m := if a < b then 0 else vals.length - 1
    let v := if a < b then a else b
    if v < thresh then some (vals.set m 0) else none
  | _, _ => none

end Verif.RelPerm
