import Verif.Model.PcSampling
import Verif.Model.Collect

/-!
Model of `examples/upscale_cond.cpp` after reading the deck, the rock curves and making the grid: upscaled resistivity as a function of
the upscaled water saturation.

Simplifications: `double` is a linearly ordered field; `sqrt` and `pow` are parameters; the curves are the inverted J-functions
(saturation as a function of J) with their extreme arguments and values; single-phase upscaling followed by `invert` and the Voigt
access is one function of the cell conductivities. Ranks are processes with their own memory, the messages are those of
`Model/Collect.lean`. Formatting and the check for NaN test values are left out. A division of zero by zero, or by a zero that the cutoff
does not absorb, has the outcome `none`.
-/

namespace Verif.Resist

open Verif.RelPerm Verif.Upscale Verif.Collect

variable {K : Type} [Field K] [LinearOrder K]

/-- A cell: rock type, porosity, permeability, volume. -/
structure Cell (K : Type) where
  satnum : Int
  poro : K
  perm : K
  vol : K

/-- An inverted J-function: `getMinimumX().first`, `getMaximumX().first`, `getMinimumF().second`, `getMaximumF().second`, `evaluate`. -/
structure JCurve (K : Type) where
  minX : K
  maxX : K
  minF : K
  maxF : K
  eval : K → K

/-- Options and constants (upscale_cond.cpp:573-580). `cemOpt` and `satOpt` give the options for single rock types, zero if absent. -/
structure Opts (K : Type) where
  minPoro : K
  minPerm : K
  mD : K
  sigma : K
  tol : K
  cutoff : K
  mud : K
  mud1 : Int
  mud2 : Int
  litho : K
  cem : K
  sat : K
  water : K
  cemOpt : Nat → K
  satOpt : Nat → K
  sqrt : K → K
  pow : K → K → K

/-- Small porosities are raised (upscale_cond.cpp:464-466). -/
def raisePoro (O : Opts K) (p : K) : K := if 0 ≤ p ∧ p < O.minPoro then O.minPoro else p

/-- Zero permeabilities are replaced (upscale_cond.cpp:471-473). -/
def raisePerm (O : Opts K) (k : K) : K := if k = 0 then O.minPerm else k

/-- The check of one cell (upscale_cond.cpp:456-483); `none` is the exit with an error message. -/
def check (O : Opts K) (c : Cell K) : Option (Cell K) :=
  if c.satnum < 0 ∨ c.satnum > 1000 then none else
  if raisePoro O c.poro < 0 ∨ raisePoro O c.poro > 1 then none else
  if raisePerm O c.perm < 0 then none else
  if c.satnum = 0 then some { c with poro := 0, perm := O.minPerm } else 
    some { c with poro := raisePoro O c.poro, perm := raisePerm O c.perm }

/-- `cellPoreVolumes` (upscale_cond.cpp:496-507): zero without rock. -/
def porev (c : Cell K) : K := if c.satnum > 0 then c.vol * c.poro else 0

/-- `InvJfunctions[int(satnum)-1]`. -/
def curve (J : Nat → JCurve K) (c : Cell K) : JCurve K := J (c.satnum.toNat - 1)

/-- `sqrt(permx * milliDarcyToSqMetre / poro)`. -/
def lev (O : Opts K) (c : Cell K) : Option K := (quot (c.perm * O.mD) c.poro).map O.sqrt

/-- What the loop over the grid collects (upscale_cond.cpp:499-501). -/
structure Acc (K : Type) where
  pcmin : Option K
  pcmax : Option K
  swir : K
  swor : K

/-- One cell of the loop (upscale_cond.cpp:503-527). -/
def rangeStep (O : Opts K) (J : Nat → JCurve K) (a : Acc K) (c : Cell K) : Option (Acc K) :=
  if c.satnum > 0 then
    (lev O c).bind fun l =>
    (quot (curve J c).minX l).bind fun lo =>
    (quot (curve J c).maxX l).map fun hi =>
      ⟨optMin a.pcmin (lo * O.sigma), optMax a.pcmax (hi * O.sigma),
        a.swir + (curve J c).minF * porev c, a.swor + (curve J c).maxF * porev c⟩
  else some a

/-- Total pore volume (upscale_cond.cpp:541-543). -/
def totalPorev (cells : List (Cell K)) : K := cells.foldl (fun a c => a + porev c) 0

/-- Range of capillary pressures and end saturations (upscale_cond.cpp:496-568). -/
def range (O : Opts K) (J : Nat → JCurve K) (cells : List (Cell K)) : Option (Range K) :=
  match cells.foldlM (rangeStep O J) ⟨none, none, 0, 0⟩ with
  | some ⟨some lo, some hi, v0, v1⟩ =>
    if lo > hi then none else
    (quot v0 (totalPorev cells)).bind fun swir =>
    (quot v1 (totalPorev cells)).bind fun swor =>
      let swor := snapHi O.tol swor
      let swir := snapLo O.tol swir
      if swir < 0 ∨ swir > 1 ∨ swor < 0 ∨ swor > 1 then none else some ⟨lo, hi, swir, swor⟩
  | _ => none

/-- The exponents of a rock type (upscale_cond.cpp:592-617). -/
def exponent (opt glob : K) : K := if opt > 0 then opt else glob

/-- Water saturation of a rock cell (upscale_cond.cpp:697-700, 828-831). -/
def cellSw (O : Opts K) (J : Nat → JCurve K) (p : K) (c : Cell K) : Option K :=
  (lev O c).bind fun l => (quot (l * p) O.sigma).map (curve J c).eval

/-- Archie's formula with the cutoff (upscale_cond.cpp:843-846): dividing a positive number by zero gives infinity and hence the
cutoff. -/
def archie (O : Opts K) (c : Cell K) (s : K) : Option K :=
  let d1 := O.pow c.poro (exponent (O.cemOpt c.satnum.toNat) O.cem)
  let d2 := O.pow s (exponent (O.satOpt c.satnum.toNat) O.sat)
  let num := O.litho * O.water
  if d1 = 0 ∨ d2 = 0 then (if num > 0 then some O.cutoff else none)
  else some (min (num / d1 / d2) O.cutoff)

/-- Resistivity of a rock cell (upscale_cond.cpp:838-847). -/
def rockRes (O : Opts K) (c : Cell K) (s : K) : Option K :=
  if c.satnum = O.mud1 ∨ c.satnum = O.mud2 then some O.mud else archie O c s

/-- Conductivity and water volume of a cell (upscale_cond.cpp:825-857). -/
def cellCond (O : Opts K) (J : Nat → JCurve K) (p : K) (c : Cell K) : Option (K × K) :=
  if c.satnum > 0 then
    (cellSw O J p c).bind fun s => (rockRes O c s).bind fun r => (quot 1 r).map fun g => (g, s * porev c)
  else (quot 1 O.cutoff).map fun g => (g, 0)

/-- The loop over the cells for one pressure (upscale_cond.cpp:820-858): the conductivities and `waterVolumeLF`. -/
def compute (O : Opts K) (J : Nat → JCurve K) (cells : List (Cell K)) (p : K) : Option (List K × K) :=
  (cells.mapM (cellCond O J p)).map fun l => (l.map Prod.fst, (l.map Prod.snd).foldl (· + ·) 0)

/-- The water saturation at a pressure (upscale_cond.cpp:690-706). -/
def swAt (O : Opts K) (J : Nat → JCurve K) (cells : List (Cell K)) (p : K) : Option K :=
  (cells.foldlM (fun (a : K) c => (if c.satnum > 0 then cellSw O J p c else some 0).map fun s => a + s * porev c) 0).bind fun w =>
    quot w (totalPorev cells)

/-- The sampling of the upscaled capillary pressure curve (upscale_cond.cpp:657-708), at most `n` tests of the condition. -/
def sampling (O : Opts K) (J : Nat → JCurve K) (cells : List (Cell K)) (missing : List (K × K) → K × K) (R : Range K) (n : Nat) :
    Option (Samp K × Bool) :=
  sampRun 500 (swAt O J cells) missing R n (sampInit R)

/-- The saturations at which resistivity is wanted (upscale_cond.cpp:777-780); for a single point, zero divided by zero. -/
def wanted (R : Range K) (points : Nat) : Option (List K) :=
  (List.range points).mapM fun (i : Nat) => (quot (R.swor - R.swir) ((points : K) - 1)).map fun h => R.swir + h * (i : K)

/-- `pressurePoints` (upscale_cond.cpp:776-782); `inv` evaluates the inverted curve. -/
def pressures (inv : K → K) (R : Range K) (points : Nat) : Option (List K) := (wanted R points).map (·.map inv)

/-- Memory of a rank: conductivities in the grid, `waterVolumeLF`, and the table `WaterSaturation`, `UpscaledConductivity`. -/
structure Node (K : Type) where
  cond : List K
  water : K
  rows : Nat → Row K

/-- One pressure point on one rank (upscale_cond.cpp:811-879): only the owner sets up the conductivities, but every rank upscales what its
grid holds and stores the result. `up` is upscaling, inversion and Voigt access. -/
def nodeStep (O : Opts K) (J : Nat → JCurve K) (cells : List (Cell K)) (up : List K → List K) (nodes rank : Nat) (ps : List K)
    (s : Node K) (idx : Nat) : Option (Node K) :=
  (if owner nodes idx = rank then (ps[idx]?).bind (compute O J cells) else some (s.cond, s.water)).bind fun w =>
    (quot w.2 (totalPorev cells)).map fun sw =>
      ⟨w.1, w.2, fun i => if i = idx then ⟨sw, up w.1, []⟩ else s.rows i⟩

/-- The loop over the points on one rank (upscale_cond.cpp:762-773, 808-893): `init` are the permeabilities the grid starts with. -/
def node (O : Opts K) (J : Nat → JCurve K) (cells : List (Cell K)) (up : List K → List K) (nodes rank points : Nat) (ps init : List K)
    (t : Nat) : Option (Node K) :=
  (List.range points).foldlM (nodeStep O J cells up nodes rank ps) ⟨init, 0, fun _ => ⟨0, List.replicate t 0, []⟩⟩

/-- The state in which the gathering starts (upscale_cond.cpp:902-936): `mem r` is the table of rank `r`. -/
def gather (mem : Nat → Nat → Row K) : St K := ⟨0, mem 0, fun _ => 0, fun _ => []⟩

/-- The smallest and largest saturation (upscale_cond.cpp:1104-1114). -/
def ends (sats : List K) : Option K × Option K :=
  (sats.foldl (fun a x => match a with | none => some x | some y => if x < y then some x else some y) none,
   sats.foldl (fun a x => match a with | none => some x | some y => if x > y then some x else some y) none)

/-- The saturations of the interpolated output (upscale_cond.cpp:1116-1119). -/
def satGrid (lo hi : K) (n : Nat) : Option (List K) :=
  (List.range n).mapM fun (i : Nat) => (quot (i : K) ((n : K) - 1)).map fun q => lo + q * (hi - lo)

/-- The lines of the output (upscale_cond.cpp:1072-1159): pressure, saturation, tensor entries. `interp xs ys x` is monotone
interpolation through the points; it replaces the computed values when more than one interpolation point is wanted. -/
def lines (interp : List K → List K → K → K) (ps : List K) (rows : List (Row K)) (t ipoints : Nat) : Option (List (K × K × List K)) :=
  let sats := rows.map Row.sat
  let cols := (List.range t).map fun (v : Nat) => rows.map fun r => r.perm0.getD v 0
  if ipoints > 1 then
    match ends sats with
    | (some lo, some hi) => (satGrid lo hi ipoints).map fun g =>
        g.map fun x => (interp sats ps x, x, cols.map fun ys => interp sats ys x)
    | _ => none
  else some ((List.range rows.length).map fun (i : Nat) => (ps.getD i 0, sats.getD i 0, cols.map fun ys => ys.getD i 0))

end Verif.Resist
