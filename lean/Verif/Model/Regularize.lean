import Mathlib.Algebra.Order.Field.Basic
import Verif.Model.Chopper

/-!
Model of `examples/cpregularize.cpp`: replacing a corner-point grid by a coarse regular grid.

Simplifications: `double` is a linearly ordered field and `int` has no bounds; the limits of the grid in x and y come from the grid inspector of opm-common and are
parameters. What stands behind the exception that is thrown for every coarse cell is left out, and so are the properties in the file, which are
empty whenever the file is written.
-/

namespace Verif.Regularize

open Verif.Chopper

variable {K : Type} [Field K] [LinearOrder K]

/-- The first fine column of each coarse column and the endpoint (cpregularize.cpp:134-144, and 146-154 for the rows); `none`: division by zero. `/` rounds towards
zero. The lower limit `imin` is not used. -/
def indexMap (dims res imax : Int) : Option (List Int) :=
  if res = 0 then none
  else
    let q := dims.tdiv res
    let rem := dims - res * q
    some ((List.range (rem + 1).toNat).map (fun (c : Nat) => (c : Int) * (q + 1)) ++
      (List.range' (rem + 1).toNat (res - (rem + 1)).toNat).map (fun (c : Nat) => (c : Int) * q + rem) ++ [imax])

/-- The depths between the coarse layers (cpregularize.cpp:157-161). -/
def layers (zmin zmax : K) (zres : Int) : List K :=
  (List.range zres.toNat).map (fun (c : Nat) => zmin + (c : K) * (zmax - zmin) / zres) ++ [zmax]

structure Opts (K : Type) where
  imin : Int
  imax : Int
  jmin : Int
  jmax : Int
  zmin : K
  zmax : K
  ires : Int
  jres : Int
  zres : Int

/-- `getGridLimits` of the inspector: `xmin`, `xmax`, `ymin`, `ymax`. -/
structure Area (K : Type) where
  xmin : K
  xmax : K
  ymin : K
  ymax : K

/-- What is written: the dimensions, the pillars, the depths of corners. -/
structure File (K : Type) where
  spec : Int × Int × Int
  coord : List K
  zcorn : List K
deriving DecidableEq

inductive Result (K : Type) where
  | refused
  | ub
  | aborted
  | written (f : File K)

/-- The arguments of `chop` for a coarse cell (cpregularize.cpp:169-172); `none`: a vector is read past its end. -/
def request (is js : List Int) (zs : List K) (i j k : Nat) : Option (Req K) := do
  let i0 ← is[i]?
  let i1 ← is[i + 1]?
  let j0 ← js[j]?
  let j1 ← js[j + 1]?
  let z0 ← zs[k]?
  let z1 ← zs[k + 1]?
  return ⟨i0.toNat, i1.toNat, j0.toNat, j1.toNat, z0, z1, false⟩

/-- The loops over the coarse cells (cpregularize.cpp:166-200). For the first cell `chop` throws, or the exception after it is thrown, outside
any `try` block (cpregularize.cpp:174): the loops end normally only if there is no cell. -/
def cells (D : Deck K) (L : Limits K) (o : Opts K) (is js : List Int) (zs : List K) : Option (Result K) :=
  if 0 < o.zres ∧ 0 < o.jres ∧ 0 < o.ires then
    match request is js zs 0 0 0 with
    | none => some .ub
    | some R =>
      match chop D L Out.init R with
      | .error _ => some .aborted
      | .ok _ => some .aborted
  else none

/-- `COORD` (cpregularize.cpp:129-130, 214-219). -/
def coord (D : Deck K) (A : Area K) (o : Opts K) (is js : List Int) : Option (List K) := do
  let dx := (A.xmax - A.xmin) / D.nx
  let dy := (A.ymax - A.ymin) / D.ny
  let rows ← (List.range (o.jres + 1).toNat).mapM fun (j : Nat) => do
    let pillars ← (List.range (o.ires + 1).toNat).mapM fun (i : Nat) => do
      let x ← is[i]?
      let y ← js[j]?
      return [dx * x, dy * y, o.zmin, dx * x, dy * y, o.zmax]
    return pillars.flatten
  return rows.flatten

/-- `ZCORN` (cpregularize.cpp:233-253). -/
def zcorn (o : Opts K) : List K :=
  let zlen := o.zmax - o.zmin
  (List.range o.zres.toNat).flatMap fun (k : Nat) =>
    List.replicate (4 * o.ires.toNat * o.jres.toNat) (zlen / o.zres * k) ++ List.replicate (4 * o.ires.toNat * o.jres.toNat) (zlen / o.zres * (k + 1))

/-- `main` after the options are read (cpregularize.cpp:112-280). -/
def run (D : Deck K) (L : Limits K) (A : Area K) (o : Opts K) : Result K :=
  if verifyInscribedShoebox D L o.imin 0 o.imax o.jmin 0 o.jmax o.zmin 0 o.zmax then
    match indexMap D.nx o.ires o.imax, indexMap D.ny o.jres o.jmax with
    | some is, some js =>
      match cells D L o is js (layers o.zmin o.zmax o.zres) with
      | some r => r
      | none =>
        match coord D A o is js with
        | none => .ub
        | some c => .written ⟨(o.ires, o.jres, o.zres), c, zcorn o⟩
    | _, _ => .ub
  else .refused

end Verif.Regularize
