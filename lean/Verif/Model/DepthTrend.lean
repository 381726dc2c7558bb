import Mathlib.Algebra.Order.Field.Basic
import Verif.Model.Chopper

/-!
Model of `examples/cpchop_depthtrend.cpp`: subsamples at regular depths, and the table of their properties.

Simplifications: `double` is a linearly ordered field. What the single-phase upscaler finds for a chopped grid is a parameter: the tensor is `none`
where `init` or `upscaleSinglePhase` throws, and the porosity is total because `upscalePorosity` does not throw. The random generator is a sequence of
draws. The loop is run with fuel. The files of the chopped grids, the header and the formatting of numbers are left out.
-/

namespace Verif.DepthTrend

open Verif.Chopper

variable {K : Type} [Field K] [LinearOrder K]

/-- The values on the command line; `none`: not given. -/
structure Given (K : Type) where
  imin : Option Int
  imax : Option Int
  jmin : Option Int
  jmax : Option Int
  zmin : Option K
  zmax : Option K
  ilen : Option Int
  jlen : Option Int
  zresolution : Option K
  zlen : Option K
  upscale : Option Bool
  reset : Option Bool

structure Opts (K : Type) where
  imin : Int
  imax : Int
  jmin : Int
  jmax : Int
  zmin : K
  zmax : K
  ilen : Int
  jlen : Int
  zresolution : K
  zlen : K
  upscale : Bool
  reset : Bool

/-- The defaults (cpchop_depthtrend.cpp:80-92); `zlo`, `zhi` are `zLimits` of the chopper. -/
def options (nx ny : Nat) (zlo zhi : K) (g : Given K) : Opts K :=
  let imin := g.imin.getD 0
  let imax := g.imax.getD nx
  let jmin := g.jmin.getD 0
  let jmax := g.jmax.getD ny
  let zresolution := g.zresolution.getD 1
  ⟨imin, imax, jmin, jmax, g.zmin.getD zlo, g.zmax.getD zhi, g.ilen.getD (imax - imin), g.jlen.getD (jmax - jmin),
    zresolution, g.zlen.getD zresolution, g.upscale.getD true, g.reset.getD true⟩

/-- What the two distributions can give (cpchop_depthtrend.cpp:134-138): both ends are included. -/
def Possible (o : Opts K) (d : Int × Int) : Prop :=
  (o.imin ≤ d.1 ∧ d.1 ≤ o.imax - o.ilen) ∧ o.jmin ≤ d.2 ∧ d.2 ≤ o.jmax - o.jlen

/-- The arguments of `chop` (cpchop_depthtrend.cpp:154). -/
def request (o : Opts K) (d : Int × Int) (zstart : K) : Req K :=
  ⟨d.1.toNat, (d.1 + o.ilen).toNat, d.2.toNat, (d.2 + o.jlen).toNat, zstart, min (zstart + o.zlen) o.zmax, o.reset⟩

/-- What the upscaler gives for a chopped grid; `mD` is `milli*darcy`. -/
structure Upscaler (K : Type) where
  tensor : Out K → Option (Nat → Nat → K)
  poro : Out K → K
  mD : K

/-- The five vectors of results (cpchop_depthtrend.cpp:141-145). -/
structure Cols (K : Type) where
  z : List K
  poro : List K
  kx : List K
  ky : List K
  kz : List K

/-- The body of the `try` block (cpchop_depthtrend.cpp:166-187): an exception of the upscaler leaves the vectors as they are. -/
def record (U : Upscaler K) (o : Opts K) (zstart : K) (sub : Out K) (c : Cols K) : Cols K :=
  if o.upscale then
    match U.tensor sub with
    | none => c
    | some T =>
      let s := 1 / U.mD
      ⟨c.z ++ [zstart], c.poro ++ [U.poro sub], c.kx ++ [T 0 0 * s], c.ky ++ [T 1 1 * s], c.kz ++ [T 2 2 * s]⟩
  else c

/-- A line of the table. -/
structure Row (K : Type) where
  z : K
  poro : K
  kx : K
  ky : K
  kz : K
deriving DecidableEq

/-- The table (cpchop_depthtrend.cpp:214-222); `none`: a vector is read past its end. -/
def table (c : Cols K) : Option (List (Row K)) :=
  (List.range c.poro.length).mapM fun (s : Nat) => do
    let z ← c.z[s]?
    let p ← c.poro[s]?
    let x ← c.kx[s]?
    let y ← c.ky[s]?
    let w ← c.kz[s]?
    return ⟨z, p, x, y, w⟩

/-- How a run ends: `refused` by the check of the options, `ub` where the behaviour is undefined, `running` when the fuel is used up, `aborted` by an
exception of `chop`, which is called outside the `try` block; otherwise the table, or nothing if upscaling is not asked for. -/
inductive Result (K : Type) where
  | refused
  | ub
  | running
  | aborted
  | silent
  | printed (rows : List (Row K))

/-- The output after the loop (cpchop_depthtrend.cpp:190-236). -/
def report (o : Opts K) (c : Cols K) : Result K :=
  if o.upscale then
    match table c with
    | some rows => .printed rows
    | none => .ub
  else .silent

/-- The loop over the depths (cpchop_depthtrend.cpp:149-188), before its pass number `k`; `draws k` is what the distributions give in that pass. -/
def loop (D : Deck K) (L : Limits K) (U : Upscaler K) (o : Opts K) (draws : Nat → Int × Int) : Nat → Nat → K → Out K → Cols K → Result K
  | 0, _, _, _, _ => .running
  | fuel + 1, k, zstart, ch, c =>
    if zstart ≤ o.zmax - o.zlen then
      match chop D L ch (request o (draws k) zstart) with
      | .error _ => .aborted
      | .ok sub => loop D L U o draws fuel (k + 1) (zstart + o.zresolution) sub (record U o zstart sub c)
    else report o c

/-- `main` after the options are known: the check (cpchop_depthtrend.cpp:118-120), the precondition `a <= b` of the two distributions
(cpchop_depthtrend.cpp:135-136), the loop, the report. -/
def run (D : Deck K) (L : Limits K) (U : Upscaler K) (o : Opts K) (draws : Nat → Int × Int) (fuel : Nat) : Result K :=
  if verifyInscribedShoebox D L o.imin o.ilen o.imax o.jmin o.jlen o.jmax o.zmin o.zlen o.zmax then
    if o.imin ≤ o.imax - o.ilen ∧ o.jmin ≤ o.jmax - o.jlen then
      loop D L U o draws fuel 0 0 Out.init ⟨[], [], [], [], []⟩
    else .ub
  else .refused

end Verif.DepthTrend
