import Verif.Model.PcSampling
import Verif.Model.Collect

/-!
Model of `examples/upscale_relpermvisc.cpp` after the deck and the rock files were read (reading the command line is `Model/CommandLine.lean`):
upscaled relative permeabilities in the viscous limit, where the fractional flow ratio is the same in all cells.

Simplifications: `double` is a linearly ordered field; curves are `RelPerm.Curve` (points and evaluation); the constructor of the library's
`MonotCubicInterpolator`, its evaluation of an inverted curve and `getMissingX` are parameters; `points` is a whole number; single-phase upscaling
followed by the Voigt access is one function of the diagonals of the cells. Output to the terminal and its formatting, test values that are not
numbers, `chopFlatEndpoints` and `shrinkFlatAreas` are left out. Dividing by zero has the outcome `none`.
-/

namespace Verif.Visc

open Verif.RelPerm Verif.Upscale Verif.Collect

variable {K : Type} [Field K] [LinearOrder K]

/-- A cell: rock type, porosity, permeabilities in x, y and z direction (without PERMY and PERMZ only the first counts), volume. -/
structure Cell (K : Type) where
  satnum : Int
  poro : K
  perm : Fin 3 → K
  vol : K

/-- Options (upscale_relpermvisc.cpp:263-402) and `lowerRelPermLimit` (upscale_relpermvisc.cpp:991). -/
structure Opts (K : Type) where
  minPoro : K
  minPerm : K
  maxPerm : K
  contrast : K
  tol : K
  muw : K
  muo : K
  eps : K

/-- The curves of a rock type for the three directions; without PERMY and PERMZ only the first counts. -/
structure Rock (K : Type) where
  water : Fin 3 → Curve K
  oil : Fin 3 → Curve K

/-! ### checks -/

/-- Small porosities are raised (upscale_relpermvisc.cpp:423-426). -/
def raisePoro (O : Opts K) (p : K) : K := if p ≥ 0 ∧ p < O.minPoro then O.minPoro else p

/-- The first limit of the permeability in x direction (upscale_relpermvisc.cpp:434-437). -/
def raisePerm (O : Opts K) (k : K) : K := if k ≥ 0 ∧ k < O.minPerm then O.minPerm else k

/-- Both limits (upscale_relpermvisc.cpp:434-441). -/
def limitPerm (O : Opts K) (k : K) : K := if raisePerm O k > O.maxPerm then O.maxPerm else raisePerm O k

/-- The check of one cell (upscale_relpermvisc.cpp:415-469); `none` is the exit with an error message. -/
def check (O : Opts K) (aniso : Bool) (c : Cell K) : Option (Cell K) :=
  if c.satnum < 0 ∨ c.satnum > 1000 then none else
  if raisePoro O c.poro < 0 ∨ raisePoro O c.poro > 1 then none else
  if limitPerm O (c.perm 0) < 0 then none else
  if aniso = true ∧ (c.perm 1 < 0 ∨ c.perm 2 < 0) then none else
  if c.satnum = 0 then
    some { c with poro := 0, perm := fun d => if d = 0 ∨ aniso = true then O.minPerm else c.perm d }
  else some { c with poro := raisePoro O c.poro, perm := fun d => if d = 0 then limitPerm O (c.perm 0) else c.perm d }

/-! ### volumes and end saturations -/

/-- `cellPoreVolumes` (upscale_relpermvisc.cpp:906-908): zero without rock. -/
def porev (c : Cell K) : K := if c.satnum > 0 then c.vol * c.poro else 0

/-- `int(satnum)-1`. -/
def rockOf (c : Cell K) : Nat := (c.satnum - 1).toNat

/-- One cell of `rocktypeVolume` (upscale_relpermvisc.cpp:910). -/
def volStep (vols : List K) (c : Cell K) : Option (List K) :=
  if c.satnum > 0 then (vols[rockOf c]?).map fun v => vols.set (rockOf c) (v + porev c) else some vols

/-- `rocktypeVolume` for `n` rock types (upscale_relpermvisc.cpp:890-910). -/
def rockVols (n : Nat) (cells : List (Cell K)) : Option (List K) := cells.foldlM volStep (List.replicate n 0)

/-- `poreVolume` (upscale_relpermvisc.cpp:935-937). -/
def poreVolume (cells : List (Cell K)) : K := cells.foldl (fun a c => a + porev c) 0

/-- One cell of `Swirvolume` and `Sworvolume` (upscale_relpermvisc.cpp:914-928). -/
def endStep (rocks : Nat → Rock K) (a : K × K) (c : Cell K) : Option (K × K) :=
  if c.satnum > 0 then
    (((rocks (rockOf c)).water 0).minX).bind fun lo =>
    (((rocks (rockOf c)).water 0).maxX).map fun hi => (a.1 + lo * porev c, a.2 + hi * porev c)
  else some a

/-- `Swir` and `Swor` (upscale_relpermvisc.cpp:896-970); `none` is the exit with an error message. -/
def ends (O : Opts K) (rocks : Nat → Rock K) (cells : List (Cell K)) : Option (K × K) :=
  (cells.foldlM (endStep rocks) (0, 0)).bind fun v =>
  (quot v.1 (poreVolume cells)).bind fun swir =>
  (quot v.2 (poreVolume cells)).bind fun swor =>
    if snapLo O.tol swir < 0 ∨ snapLo O.tol swir > 1 ∨ snapHi O.tol swor < 0 ∨ snapHi O.tol swor > 1 then none
    else some (snapLo O.tol swir, snapHi O.tol swor)

/-! ### fractional flow ratios -/

/-- The least argument of the curves (upscale_relpermvisc.cpp:1017-1030). -/
def lowX (aniso : Bool) (c : Fin 3 → Curve K) : Option K :=
  ((c 0).minX).bind fun x => if aniso then ((c 1).minX).bind fun y => ((c 2).minX).map fun z => min (min x y) z else some x

/-- The greatest argument of the curves (upscale_relpermvisc.cpp:1017-1030). -/
def highX (aniso : Bool) (c : Fin 3 → Curve K) : Option K :=
  ((c 0).maxX).bind fun x => if aniso then ((c 1).maxX).bind fun y => ((c 2).maxX).map fun z => max (max x y) z else some x

/-- `leftBound` (upscale_relpermvisc.cpp:1032, 1035-1037); `inv c` evaluates the inverted curve. -/
def leftBound (O : Opts K) (inv : Curve K → K → K) (aniso : Bool) (R : Rock K) : Option K :=
  (lowX aniso R.oil).bind fun a => (lowX aniso R.water).map fun b =>
    if (R.water 0).eval (min a b) < O.eps then inv (R.water 0) O.eps else min a b

/-- `rightBound` (upscale_relpermvisc.cpp:1033, 1038-1041). -/
def rightBound (O : Opts K) (inv : Curve K → K → K) (aniso : Bool) (R : Rock K) : Option K :=
  (highX aniso R.oil).bind fun a => (highX aniso R.water).map fun b =>
    if (R.oil 0).eval (max a b) < O.eps then inv (R.oil 0) O.eps else max a b

/-- `f[i]`, `fY[i]`, `fZ[i]` (upscale_relpermvisc.cpp:1051-1061); `eps` is positive, only the viscosity of water can be zero. -/
def ratioAt (O : Opts K) (w o : Curve K) (s : K) : Option K := quot (max (w.eval s) O.eps / max (o.eval s) O.eps * O.muo) O.muw

/-- `interpPoints` (upscale_relpermvisc.cpp:990). -/
def interpPoints : Nat := 1000

/-- The points `(f[i], Sw[i])` (upscale_relpermvisc.cpp:1043-1062) for one direction. -/
def ratioTable (O : Opts K) (w o : Curve K) (l r : K) : Option (List (K × K)) :=
  (List.range interpPoints).mapM fun (i : Nat) =>
    (ratioAt O w o (l + (i : K) * ((r - l) / ((interpPoints : K) - 1)))).map fun f => (f, l + (i : K) * ((r - l) / ((interpPoints : K) - 1)))

/-- `FracFlowRatioInv`, `FracFlowRatioInvY`, `FracFlowRatioInvZ` of a rock type (upscale_relpermvisc.cpp:993-1068); the curve for the z direction is made of
`fY`. `mk` is the constructor of the library. -/
def ratioCurves (O : Opts K) (inv : Curve K → K → K) (mk : List (K × K) → Curve K) (aniso : Bool) (R : Rock K) : Option (Fin 3 → Curve K) :=
  (leftBound O inv aniso R).bind fun l => (rightBound O inv aniso R).bind fun r =>
  (ratioTable O (R.water 0) (R.oil 0) l r).bind fun tx =>
    if aniso then (ratioTable O (R.water 1) (R.oil 1) l r).map fun ty => fun d => if d = 0 then mk tx else if d = 1 then mk ty else mk ty
    else some fun _ => mk tx

/-- The rock types that take part in the range of ratios, one direction (upscale_relpermvisc.cpp:1074-1077). -/
def rangeStep (a : Option K × K) (c : Curve K) : Option (Option K × K) :=
  (c.minX).bind fun lo => (c.maxX).map fun hi => (optMin a.1 lo, max a.2 hi)

/-- `fracflowratioMin` (`none` is the largest double) and `fracflowratioMax` (upscale_relpermvisc.cpp:1071-1089). -/
def ratioRange (aniso : Bool) (C : List (Fin 3 → Curve K)) : Option (Option K × K) :=
  C.foldlM (fun (a : Option K × K) c => (rangeStep a (c 0)).bind fun a =>
    if aniso then (rangeStep a (c 1)).bind fun a => rangeStep a (c 2) else some a) (none, 0)

/-- `waterSaturationRockType[rockIdx]` (upscale_relpermvisc.cpp:1138-1143, 1310-1315). -/
def satOf (aniso : Bool) (C : Fin 3 → Curve K) (v : K) : K :=
  if aniso then ((C 0).eval v + (C 1).eval v + (C 2).eval v) / 3 else (C 0).eval v

/-- `waterVolume` (upscale_relpermvisc.cpp:1133-1145), `waterVolumeLF` (upscale_relpermvisc.cpp:1304-1317). -/
def waterVol (aniso : Bool) (C : List (Fin 3 → Curve K)) (vols : List K) (v : K) : K :=
  (C.zip vols).foldl (fun a e => a + satOf aniso e.1 v * e.2) 0

/-- The upscaled saturation (upscale_relpermvisc.cpp:1146, 1404). -/
def swAt (aniso : Bool) (C : List (Fin 3 → Curve K)) (vols : List K) (pv v : K) : Option K := quot (waterVol aniso C vols v) pv

/-- The loop that samples the upscaled saturation (upscale_relpermvisc.cpp:986-987, 1098-1147), at most `n` tests of the condition. The range holds the
least and the greatest ratio. -/
def sampling (aniso : Bool) (C : List (Fin 3 → Curve K)) (vols : List K) (pv : K) (missing : List (K × K) → K × K) (R : Range K) (n : Nat) :
    Option (Samp K × Bool) :=
  sampRun 500 (swAt aniso C vols pv) missing R n (sampInit R)

/-- `fracFlowRatioPoints` (upscale_relpermvisc.cpp:1249-1254); `inv` evaluates the inverted curve; for a single point, zero divided by zero. -/
def ratioPoints (inv : K → K) (swir swor : K) (points : Nat) : Option (List K) :=
  (List.range points).mapM fun (i : Nat) => (quot (swor - swir) ((points : K) - 1)).map fun h => inv (swir + h * (i : K))

/-! ### phase permeabilities -/

/-- `cellPhasePerm` and `cellPhasePermDiag` of a cell (upscale_relpermvisc.cpp:1320-1361); `kr` are the curves of the phase, `s` the saturation of the rock type. -/
def cellPhase (O : Opts K) (aniso : Bool) (kr : Nat → Fin 3 → Curve K) (s : Nat → K) (c : Cell K) : K × (Fin 3 → K) :=
  if c.satnum > 0 then
    if aniso then (O.minPerm, fun d => (kr (rockOf c) d).eval (s (rockOf c)) * c.perm d)
    else ((kr (rockOf c) 0).eval (s (rockOf c)) * c.perm 0, fun _ => O.minPerm)
  else (O.minPerm, fun _ => O.minPerm)

/-- `maxPhasePerm` (upscale_relpermvisc.cpp:1298, 1362-1364). -/
def maxPhase (l : List (K × (Fin 3 → K))) : K := l.foldl (fun m x => max (max m x.1) (max (max (x.2 0) (x.2 1)) (x.2 2))) 0

/-- `minPhasePerm` (upscale_relpermvisc.cpp:1370). -/
def phaseFloor (O : Opts K) (l : List (K × (Fin 3 → K))) : K := max (maxPhase l / O.contrast) O.minPerm

/-- The diagonals handed to the grid (upscale_relpermvisc.cpp:1373-1394). -/
def gridPerms (O : Opts K) (aniso : Bool) (kr : Nat → Fin 3 → Curve K) (s : Nat → K) (cells : List (Cell K)) : List (Fin 3 → K) :=
  let l := cells.map (cellPhase O aniso kr s)
  l.map fun x => if aniso then fun d => max (phaseFloor O l) (x.2 d) else fun _ => max (phaseFloor O l) (max (phaseFloor O l) x.1)

/-- `minSinglePhasePerm` (upscale_relpermvisc.cpp:896, 913, 932). -/
def singleFloor (O : Opts K) (cells : List (Cell K)) : K :=
  max (cells.foldl (fun m c => if c.satnum > 0 then max m (c.perm 0) else m) 0 / O.contrast) O.minPerm

/-- The diagonals for the single phase permeability (upscale_relpermvisc.cpp:1189-1206). -/
def singlePerms (O : Opts K) (aniso : Bool) (cells : List (Cell K)) : List (Fin 3 → K) :=
  cells.map fun c => if aniso then fun d => max (singleFloor O cells) (c.perm d) else fun _ => max (c.perm 0) (singleFloor O cells)

/-- What is computed for one ratio (upscale_relpermvisc.cpp:1296-1417): saturation and the phase permeabilities of water and oil. -/
def pointRow (O : Opts K) (aniso : Bool) (rocks : Nat → Rock K) (C : List (Fin 3 → Curve K)) (vols : List K) (cells : List (Cell K))
    (up : List (Fin 3 → K) → List K) (v : K) : Option (Row K) :=
  (swAt aniso C vols (poreVolume cells) v).map fun sw =>
    let s := fun r => (C[r]?).elim 0 fun c => satOf aniso c v
    ⟨sw, up (gridPerms O aniso (fun r => (rocks r).water) s cells), up (gridPerms O aniso (fun r => (rocks r).oil) s cells)⟩

/-! ### output -/

/-- A line: ratio, saturation, tensor entries. -/
abbrev Line (K : Type) := K × K × List K

/-- The loop that writes the lines ends after a line without water (upscale_relpermvisc.cpp:1657-1681). -/
def written : List (Line K) → List (Line K)
  | [] => []
  | l :: ls => if l.2.1 = 0 then [l] else l :: written ls

/-- The lines of the computed values (upscale_relpermvisc.cpp:1657-1681); `cols` holds the relative permeabilities of one phase for each tensor element. -/
def lines (ratios sats : List K) (cols : List (List K)) : Option (List (Line K)) :=
  ((List.range sats.length).mapM fun (i : Nat) =>
    (ratios[i]?).bind fun v => (sats[i]?).bind fun s => (cols.mapM fun (ys : List K) => ys[i]?).map fun k => (v, s, k)).map written

/-- The smallest and largest saturation (upscale_relpermvisc.cpp:1612-1621). -/
def satEnds (sats : List K) : Option K × Option K := (sats.foldl optMin none, sats.foldl optMax none)

/-- `SatvaluesInterp` (upscale_relpermvisc.cpp:1624-1626). -/
def satGrid (lo hi : K) (n : Nat) : Option (List K) :=
  (List.range n).mapM fun (i : Nat) => (quot (i : K) ((n : K) - 1)).map fun q => lo + q * (hi - lo)

/-- The lines of the interpolated output (upscale_relpermvisc.cpp:1610-1681): `interp xs ys` is monotone interpolation through the points, `swOfRatio` the
upscaled saturation as a function of the ratio, which is evaluated at the saturations. -/
def interpLines (interp : List K → List K → K → K) (swOfRatio : K → K) (sats : List K) (cols : List (List K)) (n : Nat) : Option (List (Line K)) :=
  match satEnds sats with
  | (some lo, some hi) => (satGrid lo hi n).bind fun g => lines (g.map swOfRatio) g (cols.map fun ys => g.map (interp sats ys))
  | _ => none

end Verif.Visc
