import Verif.Model.PcSampling
import Mathlib.Logic.Function.Basic

/-!
Model of `examples/upscale_cap.cpp` after reading the deck, the rock files and making the grid: upscaled capillary pressure and the water
saturation of every rock type, as functions of each other.

The curves are the inverted J-functions (saturation as a function of J), one for each rock type. The grid gives the cells that exist:
index in the logical grid and volume, in the order of the elements. The library's interpolation through a table and its `getMissingX` are
parameters. Formatting and the check for NaN test values are left out. Divisions by zero and reads out of bounds have the outcome `ub`.
-/

namespace Verif.Cap

open Verif.RelPerm Verif.Upscale

variable {K : Type} [Field K] [LinearOrder K]

inductive Err where
  | usage
  | ub

/-- Options and constants. -/
structure Cfg (K : Type) where
  minPerm : K
  minPoro : K
  mD : K
  sigma : K
  tol : K
  sqrt : K → K

/-- A cell of the logical grid after the check. -/
structure Cell (K : Type) where
  sat : Nat
  poro : K
  perm : K

/-- Values from zero up to a limit are raised to the limit (upscale_cap.cpp:270-272, 277-279). -/
def raise (low x : K) : K := if 0 ≤ x ∧ x < low then low else x

/-- The check of the input (upscale_cap.cpp:262-293). -/
def check (c : Cfg K) : List Int → List K → List K → Except Err (List (Cell K))
  | [], _, _ => .ok []
  | s :: ss, ps, ks =>
    if s < 0 ∨ s > 1000 then .error .usage else
    match ps with
    | [] => .error .ub
    | p :: ps =>
      if raise c.minPoro p < 0 ∨ raise c.minPoro p > 1 then .error .usage else
      match ks with
      | [] => .error .ub
      | k :: ks =>
        if raise c.minPerm k < 0 then .error .usage else
        (check c ss ps ks).map ((if s = 0 then ⟨0, 0, c.minPerm⟩ else ⟨s.toNat, raise c.minPoro p, raise c.minPerm k⟩) :: ·)

/-- `sqrt(permxs[i] * milliDarcyToSqMetre / poros[i])`. -/
def leverett (c : Cfg K) (x : Cell K) : Option K := (quot (x.perm * c.mD) x.poro).map c.sqrt

/-- What the loop over the grid collects (upscale_cap.cpp:411-439). -/
structure Acc (K : Type) where
  vol : Nat → K
  pv : Nat → K
  rockPv : Nat → K
  pcmin : Option K
  pcmax : Option K
  swir : K
  swor : K

/-- `min(candidate, Pcmin)`; before the first cell `Pcmin` is `DBL_MAX`. -/
def minOpt (x : K) (m : Option K) : K := m.elim x fun m => min x m

/-- `max(candidate, Pcmax)`; before the first cell `Pcmax` is `-DBL_MAX`. -/
def maxOpt (x : K) (m : Option K) : K := m.elim x fun m => max x m

/-- One element of the grid (upscale_cap.cpp:443-475). -/
def visit (c : Cfg K) (cells : List (Cell K)) (curves : List (Curve K)) (a : Acc K) (g : Nat × K) : Option (Acc K) :=
  cells[g.1]?.bind fun x =>
  if 0 < x.sat then
    curves[x.sat - 1]?.bind fun cv => (leverett c x).bind fun j =>
    cv.minX.bind fun x0 => (quot x0 j).bind fun p0 => cv.maxX.bind fun x1 => (quot x1 j).bind fun p1 =>
    cv.minF.bind fun s0 => cv.maxF.map fun s1 =>
    ⟨Function.update a.vol g.1 g.2, Function.update a.pv g.1 (g.2 * x.poro),
     Function.update a.rockPv x.sat (a.rockPv x.sat + g.2 * x.poro), some (minOpt (p0 * c.sigma) a.pcmin), some (maxOpt (p1 * c.sigma) a.pcmax),
     a.swir + s0 * (g.2 * x.poro), a.swor + s1 * (g.2 * x.poro)⟩
  else some a

/-- The loop over the grid (upscale_cap.cpp:443-476). -/
def scan (c : Cfg K) (cells : List (Cell K)) (curves : List (Curve K)) (grid : List (Nat × K)) : Option (Acc K) :=
  grid.foldlM (visit c cells curves) ⟨fun _ => 0, fun _ => 0, fun _ => 0, none, none, 0, 0⟩

/-- `std::accumulate` over a vector of the size of the logical grid (upscale_cap.cpp:489-494). -/
def total (n : Nat) (v : Nat → K) : K := (List.range n).foldl (fun s i => s + v i) 0

/-- What is known before sampling. -/
structure Prep (K : Type) where
  vol : Nat → K
  pv : Nat → K
  rockPv : Nat → K
  poreVolume : K
  volume : K
  R : Range K

/-- The totals and the end points (upscale_cap.cpp:478-522). -/
def finish (c : Cfg K) (n : Nat) (a : Acc K) : Except Err (Prep K) :=
  match a.pcmin, a.pcmax with
  | some lo, some hi =>
    if lo > hi then .error .usage else
    match quot a.swir (total n a.pv), quot a.swor (total n a.pv) with
    | some swir, some swor =>
      let swor := if swor > 1 ∧ swor - c.tol < 1 then 1 else swor
      let swir := if swir < 0 ∧ swir + c.tol > 0 then 0 else swir
      if swir < 0 ∨ swir > 1 ∨ swor < 0 ∨ swor > 1 then .error .usage
      else .ok ⟨a.vol, a.pv, a.rockPv, total n a.pv, total n a.vol, ⟨lo, hi, swir, swor⟩⟩
    | _, _ => .error .ub
  | _, _ => .error .usage

/-- `emptycellvolumecutoff` (upscale_cap.cpp:218). -/
def cutoff : K := 1 / 10 ^ 10

/-- The water saturation of a cell (upscale_cap.cpp:583-593). -/
def cellSw (c : Cfg K) (curves : List (Curve K)) (p : K) (x : Cell K) : Option K :=
  if 0 < x.sat then
    curves[x.sat - 1]?.bind fun cv => (leverett c x).bind fun j => (quot (j * p) c.sigma).map cv.eval
  else some 0

/-- One cell of the loop that adds up the water (upscale_cap.cpp:581-598): total and by rock type. -/
def waterStep (c : Cfg K) (cells : List (Cell K)) (curves : List (Curve K)) (d : Prep K) (p : K) (w : K × (Nat → K)) (i : Nat) :
    Option (K × (Nat → K)) :=
  if d.vol i > cutoff then
    cells[i]?.bind fun x => (cellSw c curves p x).map fun s =>
      (w.1 + s * d.pv i, Function.update w.2 x.sat (w.2 x.sat + s * d.pv i))
  else some w

/-- The water at a capillary pressure (upscale_cap.cpp:574-599). -/
def water (c : Cfg K) (cells : List (Cell K)) (curves : List (Curve K)) (d : Prep K) (p : K) : Option (K × (Nat → K)) :=
  (List.range cells.length).foldlM (waterStep c cells curves d p) (0, fun _ => 0)

/-- `waterVolume/poreVolume` (upscale_cap.cpp:600). -/
def swTotal (d : Prep K) (w : K × (Nat → K)) : Option K := quot w.1 d.poreVolume

/-- The saturation of rock type `r` (upscale_cap.cpp:605-610). -/
def swRock (d : Prep K) (w : K × (Nat → K)) (r : Nat) : K := if d.rockPv r > 0 then w.2 r / d.rockPv r else 0

/-- The table of the upscaled saturation with the test interval, and the tables of the rock types 1 to `maxSatnum`. -/
structure Tables (K : Type) where
  main : Samp K
  rocks : List (List (K × K))

/-- Insertion into all tables of rock types, the first being type `r` (upscale_cap.cpp:602-611). -/
def addRocks (d : Prep K) (w : K × (Nat → K)) (p : K) : Nat → List (List (K × K)) → List (List (K × K))
  | _, [] => []
  | r, t :: ts => addPair t p (swRock d w r) :: addRocks d w p (r + 1) ts

/-- One pass of the loop (upscale_cap.cpp:544-612). -/
def step (c : Cfg K) (cells : List (Cell K)) (curves : List (Curve K)) (missing : List (K × K) → K × K) (d : Prep K) (s : Tables K) :
    Option (Tables K) :=
  let t := sampNext missing d.R s.main
  (water c cells curves d t.1).bind fun w => (swTotal d w).map fun sw =>
    ⟨⟨addPair s.main.table t.1 sw, t.2⟩, addRocks d w t.1 1 s.rocks⟩

/-- The loop (upscale_cap.cpp:543-612), at most `n` tests of the condition. The flag says whether the loop has ended. -/
def run (c : Cfg K) (cells : List (Cell K)) (curves : List (Curve K)) (missing : List (K × K) → K × K) (d : Prep K) :
    Nat → Tables K → Option (Tables K × Bool)
  | 0, s => some (s, false)
  | n + 1, s =>
    if s.main.interval > (d.R.swor - d.R.swir) / 200 then (step c cells curves missing d s).bind (run c cells curves missing d n)
    else some (s, true)

/-- A printed row: capillary pressure, saturation, saturations of the rock types. -/
structure Row (K : Type) where
  pc : K
  sw : K
  rocks : List K

/-- The rows without interpolation (upscale_cap.cpp:637-646, 719-728): row `i` of all tables. -/
def rawRows (s : Tables K) : List (Row K) :=
  s.main.table.mapIdx fun i e => ⟨e.1, e.2, s.rocks.map fun t => (t[i]?.map (·.2)).getD 0⟩

/-- The rows with interpolation on `points` uniform saturations (upscale_cap.cpp:676-715). `interp xs fs` is the library's interpolation
through the points. Without points in the table, or for one row (0/0), nothing meaningful is computed. -/
def interpRows (interp : List K → List K → K → K) (points : Nat) (s : Tables K) : Option (List (Row K)) :=
  match s.main.table.map (·.2) with
  | [] => none
  | x :: xs =>
    let lo := xs.foldl min x
    let hi := xs.foldl max x
    (List.range points).mapM fun (i : Nat) => (quot (i : K) ((points : K) - 1)).map fun t =>
      let y := lo + t * (hi - lo)
      ⟨interp (x :: xs) (s.main.table.map (·.1)) y, y, s.rocks.map fun r => interp (x :: xs) (r.map (·.2)) y⟩

/-- What is printed. -/
structure Report (K : Type) where
  poreVolume : K
  volume : K
  rows : List (Row K)

/-- The rows that are printed (upscale_cap.cpp:674-728). -/
def rows (interp : List K → List K → K → K) (points : Nat) (s : Tables K) : Option (List (Row K)) :=
  if points > 0 then interpRows interp points s else some (rawRows s)

/-- `maxSatnum` (upscale_cap.cpp:267-269). -/
def maxSat (sat : List Int) : Nat := sat.foldl (fun (m : Nat) (s : Int) => if s > (m : Int) then s.toNat else m) 0

/-- `main` (upscale_cap.cpp:239-746) with at most `n` passes of the sampling loop; `none` in the result means that the loop has not ended. -/
def upscaleCap (c : Cfg K) (interp : List K → List K → K → K) (missing : List (K × K) → K × K) (points n : Nat) (sat : List Int)
    (poro perm : List K) (curves : List (Curve K)) (grid : List (Nat × K)) : Except Err (Option (Report K)) :=
  (check c sat poro perm).bind fun cells =>
  match scan c cells curves grid with
  | none => .error .ub
  | some a =>
    (finish c sat.length a).bind fun d =>
    match run c cells curves missing d n ⟨sampInit d.R, List.replicate (maxSat sat) []⟩ with
    | none => .error .ub
    | some (_, false) => .ok none
    | some (s, true) =>
      match rows interp points s with
      | none => .error .ub
      | some rs => .ok (some ⟨d.poreVolume, d.volume, rs⟩)

end Verif.Cap
