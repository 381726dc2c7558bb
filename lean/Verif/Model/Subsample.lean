import Mathlib.Analysis.SpecialFunctions.Trigonometric.Inverse
import Mathlib.Analysis.SpecialFunctions.Trigonometric.Arctan
import Verif.Model.Chopper
import Verif.Model.PcSampling
import Verif.Model.Upscale

/-!
Model of `examples/cpchop.cpp`: cutting subsamples out of a grid, upscaling each of them, and the table of results.

Simplifications: `double` is a linearly ordered field, a quotient that is not a number has the value `none`; what the single-phase
upscaler, the grid inspector and the reading of the sub-deck give for a subsample is part of the description of the subsample, with `none`
or `false` where they throw; the random generator is a source of draws. Reading past the end of a vector, and a division by zero when
the permeability is scaled, give `none` for the whole run. The files of the chopped grids, the rock file reader and the formatting
of numbers are left out.
-/

namespace Verif.Subsample

open Verif.Upscale Verif.RelPerm

/-! ### where the subsamples are cut -/

section Box

variable {K : Type} [Field K] [LinearOrder K]

/-- The values on the command line; `none`: not given. -/
structure Given (K : Type) where
  imin : Option Int
  imax : Option Int
  jmin : Option Int
  jmax : Option Int
  zmin : Option K
  zmax : Option K
  ilen : Option Int
  jlen : Option Int
  zlen : Option K
  random : Option Bool

structure Opts (K : Type) where
  imin : Int
  imax : Int
  jmin : Int
  jmax : Int
  zmin : K
  zmax : K
  ilen : Int
  jlen : Int
  zlen : K
  random : Bool

/-- The defaults (cpchop.cpp:74-89); `zlo`, `zhi` are `zLimits` of the chopper. -/
def options (nx ny : Nat) (zlo zhi : K) (g : Given K) : Opts K :=
  let imin := g.imin.getD 0
  let imax := g.imax.getD nx
  let jmin := g.jmin.getD 0
  let jmax := g.jmax.getD ny
  let zmin := g.zmin.getD zlo
  let zmax := g.zmax.getD zhi
  ⟨imin, imax, jmin, jmax, zmin, zmax, g.ilen.getD (imax - imin), g.jlen.getD (jmax - jmin), g.zlen.getD (zmax - zmin),
    g.random.getD true⟩

/-- The options are accepted: the check of the chopper (cpchop.cpp:233-235) and the precondition `a <= b` of the two integer distributions
(cpchop.cpp:275-276). The first failure is an exception, the second has undefined behaviour. -/
inductive Verdict where
  | refused
  | ub
  | accepted
deriving DecidableEq

def verdict (D : Chopper.Deck K) (L : Chopper.Limits K) (o : Opts K) : Verdict :=
  if Chopper.verifyInscribedShoebox D L o.imin o.ilen o.imax o.jmin o.jlen o.jmax o.zmin o.zlen o.zmax then
    if o.imin ≤ o.imax - o.ilen ∧ o.jmin ≤ o.jmax - o.jlen then .accepted else .ub
  else .refused

/-- Where a subsample begins. -/
structure Start (K : Type) where
  i : Int
  j : Int
  z : K

/-- What the three distributions can give (cpchop.cpp:275-277): the end is included for the whole numbers and excluded for the depth. -/
def Possible (o : Opts K) (d : Start K) : Prop :=
  (o.imin ≤ d.i ∧ d.i ≤ o.imax - o.ilen) ∧ (o.jmin ≤ d.j ∧ d.j ≤ o.jmax - o.jlen) ∧
  (o.zmin ≤ d.z ∧ d.z < max (o.zmax - o.zlen) (o.zmin + 1 / 1000000))

/-- The start of a subsample (cpchop.cpp:305-307); `draw` is what the three distributions give. -/
def start (o : Opts K) (draw : Start K) : Start K := if o.random then draw else ⟨0, 0, o.zmin⟩

/-- The arguments of `chop`. -/
structure Box (K : Type) where
  i0 : Int
  i1 : Int
  j0 : Int
  j1 : Int
  z0 : K
  z1 : K

/-- The box that is cut out (cpchop.cpp:308). -/
def box (o : Opts K) (s : Start K) : Box K := ⟨s.i, s.i + o.ilen, s.j, s.j + o.jlen, s.z, s.z + o.zlen⟩

end Box

/-! ### the results of a subsample -/

section Results

variable {K : Type} [Field K] [LinearOrder K]

/-- A rock: saturations at the ends of its curve, the values of the J-function there, and the ends of the capillary pressure
(cpchop.cpp:119-120, 182-185, 207, 214-215, 389-390). -/
structure Rock (K : Type) where
  swLo : K
  swHi : K
  jLo : K
  jHi : K
  pcLo : K
  pcHi : K

/-- The options and the parts of the library they need. `angles` turns the averages of the dips into dip and azimuth. -/
structure Env (K : Type) where
  upscale : Bool
  endpoints : Bool
  cappres : Bool
  dips : Bool
  volumes : Bool
  periodic : Bool
  ntg : Bool
  swcr : Bool
  sowcr : Bool
  aniso : Bool
  milli : K
  sigma : K
  sqrt : K → K
  rocks : List (Rock K)
  mincell : K
  angles : K → K → Option K × Option K

/-- `endpoints` after `if (cappres) { endpoints = true; }` (cpchop.cpp:114-116). -/
def Env.ends (E : Env K) : Bool := E.endpoints || E.cappres

/-- A cell of the grid of a subsample. -/
structure Cell (K : Type) where
  satnum : Int
  vol : K
  poro : K
  perm : K

/-- A subsample: upscaled permeability (`none`: upscaling throws), upscaled porosity, net porosity, net-to-gross and critical
saturations, whether the endpoints can be prepared, the cells, the upscaled capillary pressure curve as a function of the pressure range
and the end saturations (`none`: throws), volumes and dips of the cells, rock types and volumes of the cells. -/
structure Sample (K : Type) where
  tensor : Option (Fin 3 → Fin 3 → K)
  poro : K
  net : K
  ntg : K
  swcr : K
  sowcr : K
  endOk : Bool
  cells : List (Cell K)
  pcs : Option K → Option K → Option K → Option K → Option (Fin 5 → Option K)
  dipCells : Option (List (K × K × K))
  rockCells : Option (List (Int × K))

/-- The vectors of results (cpchop.cpp:283-300). -/
inductive Col where
  | poro | net | ntg | swcr | sowcr | kx | ky | kz | kyz | kxz | kxy | swir | swor | pc | dip | azim | rock
deriving DecidableEq

/-- What lives across subsamples: the vectors (a number is a list of length one), `Pcmin`, `Pcmax`, `maxSatnum`, `finished_subsamples`
(cpchop.cpp:228, 283-303). -/
structure Store (K : Type) where
  col : Col → List (List (Option K))
  lo : Option K
  hi : Option K
  maxSat : Nat
  finished : Nat

def Store.init : Store K := ⟨fun _ => [], none, none, 0, 0⟩

/-- `push_back`. -/
def push (c : Col) (v : List (Option K)) (s : Store K) : Store K :=
  { s with col := fun d => if d = c then s.col d ++ [v] else s.col d }

def pushIf (b : Bool) (c : Col) (v : List (Option K)) (s : Store K) : Store K := if b then push c v s else s

/-- An entry of the upscaled tensor in milli darcy (cpchop.cpp:331). -/
def mD (E : Env K) (k : Fin 3 → Fin 3 → K) (i j : Fin 3) : List (Option K) := [some (k i j * (1 / E.milli))]

/-- Upscaling of porosity and permeability (cpchop.cpp:323-351); the flag is `false` after an exception. -/
def upStage (E : Env K) (x : Sample K) (s : Store K) : Store K × Bool :=
  if E.upscale then
    match x.tensor with
    | none => (s, false)
    | some k =>
      let s := push .poro [some x.poro] s
      let s := pushIf E.ntg .ntg [some x.ntg] (pushIf E.ntg .net [some x.net] s)
      let s := pushIf E.sowcr .sowcr [some x.sowcr] (pushIf E.swcr .swcr [some x.swcr] s)
      let s := push .kz (mD E k 2 2) (push .ky (mD E k 1 1) (push .kx (mD E k 0 0) s))
      (push .kxy (mD E k 0 1) (push .kxz (mD E k 0 2) (push .kyz (mD E k 1 2) s)), true)
  else (s, true)

/-- Capillary pressures of a cell at the ends of its curve (cpchop.cpp:377-394). -/
def candidates (E : Env K) (c : Cell K) (r : Rock K) : Option (K × K) :=
  if E.aniso then some (r.pcLo, r.pcHi)
  else do
    let q ← quot (c.perm * E.milli) c.poro
    let a ← quot r.jHi (E.sqrt q)
    let b ← quot r.jLo (E.sqrt q)
    some (a * E.sigma, b * E.sigma)

/-- The variables of the loop over the cells. -/
structure Ends (K : Type) where
  lo : Option K
  hi : Option K
  swir : K
  swor : K
  pv : K

/-- `Pcmin`, `Pcmax` after a cell (cpchop.cpp:395-398). -/
def pcRange (E : Env K) (c : Cell K) (r : Rock K) (lo hi : Option K) : Option (Option K × Option K) :=
  if E.cappres then (candidates E c r).map fun p => (optMin lo p.1, optMax hi p.2) else some (lo, hi)

/-- One cell of the loop (cpchop.cpp:371-402); the pore volumes are added up on the way instead of afterwards (410-412). -/
def endStep (E : Env K) (a : Ends K) (c : Cell K) : Option (Ends K) :=
  if c.satnum > 0 then
    (E.rocks[c.satnum.toNat - 1]?).bind fun r => (pcRange E c r a.lo a.hi).map fun p =>
      ⟨p.1, p.2, a.swir + r.swLo * (c.vol * c.poro), a.swor + r.swHi * (c.vol * c.poro), a.pv + c.vol * c.poro⟩
  else some a

/-- The capillary pressure curve (cpchop.cpp:417-486). -/
def pcStage (E : Env K) (x : Sample K) (swir swor : Option K) (s : Store K) : Store K × Bool :=
  if E.cappres then
    match x.pcs s.lo s.hi swir swor with
    | none => (s, false)
    | some v => (push .pc (List.ofFn v) s, true)
  else (s, true)

/-- Endpoints of a subsample (cpchop.cpp:353-488). -/
def endStage (E : Env K) (x : Sample K) (s : Store K) : Option (Store K × Bool) :=
  if E.ends then
    if x.endOk then
      (x.cells.foldlM (endStep E) ⟨s.lo, s.hi, 0, 0, 0⟩).map fun a =>
        let s : Store K := { s with lo := a.lo, hi := a.hi }
        let s := pushIf (!E.upscale) .poro [some x.poro] s
        let s := push .swor [quot a.swor a.pv] (push .swir [quot a.swir a.pv] s)
        pcStage E x (quot a.swir a.pv) (quot a.swor a.pv) s
    else some (s, false)
  else some (s, true)

/-- The averages of the dips over the cells that are not too small (cpchop.cpp:499-522). -/
def dipAverages (E : Env K) (cells : List (K × K × K)) : Option K × Option K :=
  let kept := cells.filter fun c => decide (c.1 > E.mincell)
  (quot (kept.foldl (fun a c => a + c.2.1) 0) (kept.length : K), quot (kept.foldl (fun a c => a + c.2.2) 0) (kept.length : K))

/-- Dip and azimuth of the averages; not a number if there is no cell (cpchop.cpp:525-526). -/
def dipAngles (E : Env K) (a : Option K × Option K) : Option K × Option K :=
  match a with
  | (some x, some y) => E.angles x y
  | _ => (none, none)

/-- Dips of a subsample (cpchop.cpp:491-529). -/
def dipStage (E : Env K) (x : Sample K) (s : Store K) : Store K × Bool :=
  if E.dips then
    match x.dipCells with
    | none => (s, false)
    | some cells =>
      let d := dipAngles E (dipAverages E cells)
      (push .azim [d.2] (push .dip [d.1] s), true)
  else (s, true)

/-- One cell of the loop over the rock types (cpchop.cpp:546-550): `maxSatnum`, the resized vector, the added volume. -/
def volStep (a : Nat × List K) (c : Int × K) : Option (Nat × List K) :=
  let m := max a.1 c.1.toNat
  let v := a.2 ++ List.replicate (m - a.2.length) 0
  if c.1 ≤ 0 then none
  else match v[c.1.toNat - 1]? with
    | none => none
    | some w => some (m, v.set (c.1.toNat - 1) (w + c.2))

/-- Volumes of the rock types of a subsample (cpchop.cpp:531-560). -/
def volStage (E : Env K) (x : Sample K) (s : Store K) : Option (Store K × Bool) :=
  if E.volumes then
    match x.rockCells with
    | none => some (s, false)
    | some cells =>
      (cells.foldlM volStep (s.maxSat, [])).map fun a =>
        let total := a.2.foldl (· + ·) 0
        (push .rock (a.2.map fun w => quot w total) { s with maxSat := a.1 }, true)
  else some (s, true)

/-- A stage is left out after an exception. -/
def andThen (r : Store K × Bool) (f : Store K → Option (Store K × Bool)) : Option (Store K × Bool) :=
  if r.2 then f r.1 else some r

/-- The body of the `try` block and the handler (cpchop.cpp:322-566). -/
def sample (E : Env K) (s : Store K) (x : Sample K) : Option (Store K) := do
  let r ← andThen (upStage E x s) (endStage E x)
  let r ← andThen r fun s => some (dipStage E x s)
  let r ← andThen r (volStage E x)
  some (if r.2 then { r.1 with finished := r.1.finished + 1 } else r.1)

/-- The loop over the subsamples (cpchop.cpp:304-567), given what each of them yields. -/
def run (E : Env K) (xs : List (Sample K)) : Option (Store K) := xs.foldlM (sample E) Store.init

/-! ### the table -/

/-- The names of the columns (cpchop.cpp:595-642). -/
def header (E : Env K) (maxSat : Nat) : List String :=
  (if E.upscale then
    (if E.periodic then
      if E.ntg then ["porosity", "netporosity", "ntg", "permx", "permy", "permz", "permyz", "permxz", "permxy", "netpermh"]
      else ["porosity", "permx", "permy", "permz", "permyz", "permxz", "permxy"]
    else if E.ntg then ["porosity", "netporosity", "ntg", "permx", "permy", "permz", "netpermh"]
    else ["porosity", "permx", "permy", "permz"]) ++
    (if E.swcr then ["swcr"] else []) ++ if E.sowcr then ["sowcr"] else []
  else []) ++
  (if E.ends then
    (if E.upscale then [] else if E.ntg then ["porosity", "netporosity", "ntg"] else ["porosity"]) ++ ["Swir", "Swor"] ++
    if E.cappres then ["Pc(Swir)", "Pc2", "Pc3", "Pc4", "Pc(Swor)"] else []
  else []) ++
  (if E.dips then ["dip", "azim"] else []) ++
  if E.volumes then (List.range maxSat).map fun t => s!"satnum_{t + 1}" else []

/-- `v[sample-1]`. -/
def cellOf (s : Store K) (k : Nat) (c : Col) : Option (List (Option K)) := (s.col c)[k]?

def cellIf (b : Bool) (s : Store K) (k : Nat) (c : Col) : Option (List (Option K)) := if b then cellOf s k c else some []

/-- `(permxs + permys)/(2.0*ntgs)` (cpchop.cpp:664-667). -/
def netOf : List (Option K) → List (Option K) → List (Option K) → List (Option K)
  | [some a], [some b], [some c] => [quot (a + b) (2 * c)]
  | _, _, _ => [none]

def netpermh (E : Env K) (s : Store K) (k : Nat) : Option (List (Option K)) :=
  if E.ntg then (cellOf s k .kx).bind fun a => (cellOf s k .ky).bind fun b => (cellOf s k .ntg).map (netOf a b) else some []

/-- `resize(maxSatnum, 0.0)`. -/
def resize (l : List (Option K)) (n : Nat) : List (Option K) := l.take n ++ List.replicate (n - l.length) (some 0)

def joined (l : List (Option (List (Option K)))) : Option (List (Option K)) := (l.mapM id).map List.flatten

/-- One line of the table, without the number (cpchop.cpp:646-713). -/
def row (E : Env K) (s : Store K) (k : Nat) : Option (List (Option K)) :=
  joined [
    cellIf E.upscale s k .poro,
    cellIf (E.upscale && E.ntg) s k .net,
    cellIf (E.upscale && E.ntg) s k .ntg,
    cellIf E.upscale s k .kx,
    cellIf E.upscale s k .ky,
    cellIf E.upscale s k .kz,
    cellIf (E.upscale && E.periodic) s k .kyz,
    cellIf (E.upscale && E.periodic) s k .kxz,
    cellIf (E.upscale && E.periodic) s k .kxy,
    (if E.upscale then netpermh E s k else some []),
    cellIf (E.upscale && E.swcr) s k .swcr,
    cellIf (E.upscale && E.sowcr) s k .sowcr,
    cellIf (E.ends && !E.upscale) s k .poro,
    cellIf (E.ends && !E.upscale && E.ntg) s k .net,
    cellIf (E.ends && !E.upscale && E.ntg) s k .ntg,
    cellIf E.ends s k .swir,
    cellIf E.ends s k .swor,
    cellIf (E.ends && E.cappres) s k .pc,
    cellIf E.dips s k .dip,
    cellIf E.dips s k .azim,
    (if E.volumes then (cellOf s k .rock).map fun l => resize l s.maxSat else some [])]

/-- The lines of the table (cpchop.cpp:645-714). -/
def table (E : Env K) (s : Store K) : Option (List (List (Option K))) := (List.range s.finished).mapM fun (k : Nat) => row E s k

/-! ### the capillary pressure curve -/

/-- The curve of a subsample (cpchop.cpp:419-485): sampling with five parts, then the pressures at five saturations. `sw` is the upscaled
saturation, `missing` is `getMissingX`, `inverse` chops the flat ends and inverts the table. At most `n` tests of the condition. -/
def capCurve (sw : K → Option K) (missing : List (K × K) → K × K) (inverse : List (K × K) → K → K) (R : Range K) (n : Nat) :
    Option (Fin 5 → K) :=
  match sampRun 5 sw missing R n (sampInit R) with
  | some (s, true) => some fun i => inverse s.table (R.swir + (R.swor - R.swir) / 4 * (i.val : K))
  | _ => none

end Results

/-! ### angles -/

/-- The azimuth (cpchop.cpp:525): the quotient by zero is infinite, or not a number if both dips are zero (the zero is taken positive). -/
noncomputable def azimuth (displacement x y : ℝ) : Option ℝ :=
  if y = 0 then if x = 0 then none else some ((if 0 < x then Real.pi / 2 else -(Real.pi / 2)) + displacement)
  else some (Real.arctan (x / y) + displacement)

/-- The dip (cpchop.cpp:526). -/
noncomputable def dip (x y : ℝ) : ℝ := Real.arccos (1 / Real.sqrt (x ^ 2 + y ^ 2 + 1))

end Verif.Subsample
