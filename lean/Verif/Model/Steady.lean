import Verif.Model.Control
import Verif.Model.DenseMatrix
import Mathlib.Algebra.Order.Field.Basic
import Mathlib.Algebra.Order.Group.Abs

/-!
Model of the steady state loops of `opm/upscaling/SteadyStateUpscalerImplicit_impl.hpp` and
`opm/upscaling/SteadyStateUpscaler_impl.hpp`, of the limits on phase mobilities, of the two saturation layouts and of the
boundary flow summary.

Simplifications: `double` is a linearly ordered field; `std::sqrt` is a parameter. The transport solver is an arbitrary
function of the iteration number, the saturations and the step size (so it may depend on its whole history). Terminal,
VTK and Eclipse output is left out. A file-wide note: `computeInOutFlows` of the explicit upscaler refers to undeclared
names and cannot be compiled when instantiated; only the implicit one is modelled.
-/

namespace Verif.Steady

variable {K : Type} [Field K] [LinearOrder K]

/-! ### the implicit loop -/

/-- The parameters of the loop (SteadyStateUpscalerImplicit_impl.hpp:54-71, 78-101). -/
structure Params (K : Type) where
  maxIt : Nat
  initStep : K
  maxStep : K
  dtSatTol : K
  satChangeYear : K
  year : K
  useMaxdiff : Bool
  sqrt : K → K

/-- Largest change of a saturation (SteadyStateUpscalerImplicit_impl.hpp:285-290). -/
def maxdiff (new old : List K) : K := (new.zip old).foldl (fun m p => max m |p.1 - p.2|) 0

/-- Sum of squared changes weighted with pore volume (SteadyStateUpscalerImplicit_impl.hpp:291). -/
def sqdiff (pv new old : List K) : K :=
  ((new.zip old).zip pv).foldl (fun a p => a + (p.1.1 - p.1.2) * (p.1.1 - p.1.2) * p.2) 0

/-- `euclidean_diff` (SteadyStateUpscalerImplicit_impl.hpp:293). -/
def euclid (P : Params K) (pv new old : List K) : K :=
  P.sqrt (sqdiff pv new old / pv.foldl (· + ·) 0)

/-- The measure of change selected by the parameters. -/
def change (P : Params K) (pv new old : List K) : K :=
  if P.useMaxdiff then maxdiff new old else euclid P pv new old

/-- State between iterations. -/
structure LoopSt (K : Type) where
  sat : List K
  satOld : List K
  step : K
  stationary : Bool

/-- What the transport solver was asked and what it answered. -/
structure Rec (K : Type) where
  dt : K
  before : List K
  after : List K
  converged : Bool

/-- One pass of the loop (SteadyStateUpscalerImplicit_impl.hpp:230-321). -/
def body (P : Params K) (pv : List K) (solve : Nat → List K → K → Bool × List K) (it : Nat) (s : LoopSt K) :
    Rec K × LoopSt K :=
  let r := solve it s.sat s.step
  if r.1 then
    let d := change P pv r.2 s.satOld
    let dsYear := d * P.year / s.step
    let step := if d < P.dtSatTol then min P.maxStep (2 * s.step) else s.step
    (⟨s.step, s.sat, r.2, true⟩, ⟨r.2, r.2, step, decide (dsYear < P.satChangeYear)⟩)
  else
    (⟨s.step, s.sat, r.2, false⟩, ⟨r.2, r.2, s.step / 2, s.stationary⟩)

/-- The loop (SteadyStateUpscalerImplicit_impl.hpp:230); the first argument is `max_it_ - it_count`. -/
def loop (P : Params K) (pv : List K) (solve : Nat → List K → K → Bool × List K) :
    Nat → Nat → LoopSt K → List (Rec K) × LoopSt K
  | 0, _, s => ([], s)
  | n + 1, it, s =>
    if s.stationary then ([], s)
    else
      let b := body P pv solve it s
      let l := loop P pv solve n (it + 1) b.2
      (b.1 :: l.1, l.2)

/-- The loop from its start (SteadyStateUpscalerImplicit_impl.hpp:222-229): all solver calls, and the final state whose
`stationary` is the reported success. -/
def run (P : Params K) (pv : List K) (solve : Nat → List K → K → Bool × List K) (init : List K) :
    List (Rec K) × LoopSt K :=
  loop P pv solve P.maxIt 0 ⟨init, init, P.initStep, false⟩

/-! ### the explicit loop -/

/-- The loop of `SteadyStateUpscaler::upscaleSteadyState` (SteadyStateUpscaler_impl.hpp:176-230): `n` passes remain; the
result lists the saturations before and after each pass. `flow` solves pressure and transports. -/
def loopExplicit (threshold : K) (solve : Nat → List K → List K) : Nat → Nat → List K → List (List K × List K) × List K
  | 0, _, s => ([], s)
  | n + 1, it, s =>
    let t := solve it s
    if maxdiff t s < threshold then ([(s, t)], t)
    else
      let l := loopExplicit threshold solve n (it + 1) t
      ((s, t) :: l.1, l.2)

/-! ### phase mobilities -/

/-- `maxMobility` over all cells, diagonal elements (SteadyStateUpscalerImplicit_impl.hpp:111-124, 330-337); a scalar
mobility is a list of one element. -/
def maxMob (mobs : List (List K)) : K := mobs.foldl (fun m l => l.foldl (fun a x => max a x) m) 0

/-- The threshold of a phase (SteadyStateUpscalerImplicit_impl.hpp:339-344). -/
def mobThreshold (relThresh visc contrast : K) (mobs : List (List K)) : K :=
  max (relThresh / visc) (maxMob mobs / contrast)

/-- The mobilities used for upscaling (SteadyStateUpscalerImplicit_impl.hpp:125-137, 346-353). -/
def thresholded (relThresh visc contrast : K) (mobs : List (List K)) : List (List K) :=
  mobs.map fun l => l.map fun x => max x (mobThreshold relThresh visc contrast mobs)

/-- `matprod` on 3 x 3 tensors (MatrixInverse.hpp:68-83). -/
def matprod (m1 m2 : Fin 3 → Fin 3 → K) (r c : Fin 3) : K :=
  (List.finRange 3).foldl (fun a k => a + m1 r k * m2 k c) 0

/-- The upscaled relative permeability of a phase (SteadyStateUpscalerImplicit_impl.hpp:371-383,
SteadyStateUpscaler_impl.hpp:272-283): `eff` is the effective permeability computed with the mobilities of the phase;
`none` is a division by zero in the inverse. -/
def phaseRelperm (eff upscaled : Fin 3 → Fin 3 → K) (visc : K) : Option (Fin 3 → Fin 3 → K) :=
  (Dense.inverse3x3 upscaled).map fun mi r c => matprod eff mi r c * visc

/-! ### saturation layouts -/

/-- `waterSatToBothSat` (SteadyStateUpscalerImplicit_impl.hpp:154-163). -/
def waterSatToBothSat (sw : List K) : List K := sw.flatMap fun s => [s, 1 - s]

/-- The loop of `destripe` (SteadyStateUpscalerImplicit_impl.hpp:145-148) from position `i`, with `fuel` iterations left
at most: writing past the end of `dst` is undefined. -/
def destripeLoop (v : List K) (stride : Nat) : Nat → Nat → Nat → List K → Option (List K)
  | 0, _, _, dst => some dst
  | fuel + 1, i, di, dst =>
    match v[i]? with
    | none => some dst
    | some x => if di < dst.length then destripeLoop v stride fuel (i + stride) (di + 1) (dst.set di x) else none

/-- `destripe` (SteadyStateUpscalerImplicit_impl.hpp:140-150); stride 0 divides by zero. -/
def destripe (v : List K) (stride offset : Nat) : Option (List K) :=
  if stride = 0 then none
  else destripeLoop v stride (v.length + 1) offset 0 (List.replicate (v.length / stride) 0)

/-! ### in- and outflow -/

/-- A boundary face: its cell, boundary id, flux out of the cell, and saturation condition (`none`: periodic, with the
partner's id; `some s`: prescribed saturation). -/
structure BFace (K : Type) where
  cell : Nat
  bid : Nat
  flux : K
  partner : Nat
  dirichlet : Option K

/-- The running sums and the map of fractional flows. -/
structure Flows (K : Type) where
  inW : K
  inO : K
  outW : K
  outO : K
  frac : Nat → Option K

/-- First pass, one face (SteadyStateUpscalerImplicit_impl.hpp:497-506). -/
def outStep (ff : Nat → K → K) (sat : Nat → K) (a : Flows K) (f : BFace K) : Flows K :=
  if 0 ≤ f.flux then
    let x := ff f.cell (sat f.cell)
    { a with
      outW := a.outW + f.flux * x
      outO := a.outO + f.flux * (1 - x)
      frac := match f.dirichlet with
        | none => fun b => if b = f.bid then some x else a.frac b
        | some _ => a.frac }
  else a

/-- Second pass, one face (SteadyStateUpscalerImplicit_impl.hpp:477-496); `none` is the thrown error. -/
def inStep (ff : Nat → K → K) (acc : Option (Flows K)) (f : BFace K) : Option (Flows K) :=
  match acc with
  | none => none
  | some a =>
    if f.flux < 0 then
      let x := match f.dirichlet with
        | none => a.frac f.partner
        | some s => some (ff f.cell s)
      match x with
      | none => none
      | some x => some { a with inW := a.inW + f.flux * x, inO := a.inO + f.flux * (1 - x) }
    else some a

/-- `computeInOutFlows` (SteadyStateUpscalerImplicit_impl.hpp:451-512) over the boundary faces in the order of the grid
walk. -/
def inOutFlows (ff : Nat → K → K) (sat : Nat → K) (faces : List (BFace K)) : Option (Flows K) :=
  faces.foldl (inStep ff) (some (faces.foldl (outStep ff sat) ⟨0, 0, 0, 0, fun _ => none⟩))

end Verif.Steady
