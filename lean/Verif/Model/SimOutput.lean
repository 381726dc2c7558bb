import Mathlib.Algebra.Order.Floor.Ring
import Verif.Model.FracFlow
import Verif.Model.Steady

/-!
Model of what the simulators write: `SimulatorUtilities.hpp` (cell pressures, capillary pressures, VTK data, fields), the Eclipse output in the loop of
`SteadyStateUpscalerImplicit_impl.hpp` and `writeECLData.cpp`.

Simplifications: a file is the data handed to the library that writes it; values keep full precision; the header words that do not depend on the run are
left out; the time stamps of the library are exact. The text of numbers is a parameter.
-/

namespace Verif.SimOutput

open Verif.Euler (Vec Face Cell Err)

section

variable {K : Type} [Field K] [LinearOrder K]

/-- Values computed cell by cell and stored at the index of the cell (SimulatorUtilities.hpp:73-85, 184-188): `order` is the iterator. -/
def scatter {α : Type} (zero : α) (n : Nat) (order : List Nat) (v : Nat → α) : Option (List α) :=
  order.foldlM (fun l c => if c < l.length then some (l.set c (v c)) else none) (List.replicate n zero)

/-- `getCellPressure` with a partition (SimulatorUtilities.hpp:195-211). -/
def partPressure (n : Nat) (order : List Nat) (pressure : Nat → K) (part : Nat → Int) (mine : Int) : Option (List K) :=
  scatter 0 n order fun c => if part c ≠ mine then 0 else pressure c

/-- The components of vectors laid end to end (SimulatorUtilities.hpp:248-253); the first vector of an empty list does not exist. -/
def flatten : List (Vec K) → Option (List K)
  | [] => none
  | l => some (l.flatMap fun v => [v 0, v 1, v 2])

/-- Data of a VTK file: name, number of components, values. -/
structure DataSet (K : Type) where
  name : String
  comps : Nat
  values : List K
deriving DecidableEq

/-- `writeVtkOutput` (SimulatorUtilities.hpp:233-283): `n` cells in the order of the iterator, fluxes with the cells, pressures of the flow solution,
fractional flow and capillary pressure of the properties. -/
def vtk (n : Nat) (order : List Nat) (cell : Nat → Cell K) (pressure : Nat → K) (ff : Nat → K → Option K) (pc : Nat → K → K) (sat : List K) :
    Option (List (DataSet K)) := do
  let v ← scatter (fun _ => 0) n order fun c => FracFlow.cellVelocity (cell c)
  let ph ← FracFlow.computePhaseVelocities ff sat v
  let vf ← flatten v
  let wf ← flatten ph.1
  let of ← flatten ph.2
  let p ← scatter 0 n order pressure
  let cap := sat.zipIdx.map fun e => pc e.2 e.1
  let f ← sat.zipIdx.mapM fun e => ff e.2 e.1
  pure [⟨"saturation", 1, sat⟩, ⟨"pressure", 1, p⟩, ⟨"capillary pressure", 1, cap⟩, ⟨"fractional flow [water]", 1, f⟩, ⟨"velocity", 3, vf⟩,
    ⟨"phase velocity [water]", 3, wf⟩, ⟨"phase velocity [oil]", 3, of⟩]

/-- `writeField` (SimulatorUtilities.hpp:286-296). -/
def writeField (nat : Nat → List Char) (dbl : K → List Char) (field : List K) : List Char :=
  nat field.length ++ '\n' :: field.flatMap fun x => dbl x ++ ['\n']

/-- A report step in a restart file: name of the result set, number of the step, dimensions, number of active cells, date in seconds since 1970, start of
the simulation and elapsed time, and the arrays of the solution (writeECLData.cpp:116-146). -/
structure Restart (K : Type) where
  base : List Char
  step : Nat
  dims : Nat × Nat × Nat
  active : Nat
  posix : Int
  start : K
  elapsed : K
  arrays : List (String × List K)
deriving DecidableEq

/-- `writeECLData` (writeECLData.cpp:68-85, 116-146) for arrays that are all part of the restart solution. -/
def writeECLData (dims : Nat × Nat × Nat) (active : Nat) (data : List (String × List K)) (step : Nat) (time : K) (posix : Int) (base : List Char) :
    Restart K := ⟨base, step, dims, active, posix, posix - time, time, data⟩

/-- `int(t)`: undefined outside the range of `int`. -/
def toInt [FloorRing K] (t : K) : Option Int :=
  let n := if 0 ≤ t then ⌊t⌋ else ⌈t⌉
  if -2147483648 ≤ n ∧ n < 2147483648 then some n else none

/-- Seconds from 1 January 1970 to 1 January 2012 (SteadyStateUpscalerImplicit_impl.hpp:283-285). -/
def startDate : Int := 15340 * 86400

/-- The grid as seen by the output: number of cells, iterator, logical dimensions. -/
structure Grid where
  n : Nat
  order : List Nat
  dims : Nat × Nat × Nat

/-- The Eclipse output of the loop (SteadyStateUpscalerImplicit_impl.hpp:270-295) for iterations `it`, `it + 1`, ..., with `ecl_time` so far. The pressure
does not change during the loop. -/
def eclLoop [FloorRing K] (base : List Char) (g : Grid) (pressure : Nat → K) : Nat → K → List (Steady.Rec K) → Option (List (Restart K))
  | _, _, [] => some []
  | it, t, r :: l =>
    if r.converged then do
      let p ← scatter 0 g.n g.order pressure
      let sw ← Steady.destripe (Steady.waterSatToBothSat r.after) 2 0
      let t' := t + r.dt
      let s ← toInt t'
      let rest ← eclLoop base g pressure (it + 1) t' l
      pure (writeECLData g.dims g.n [("PRESSURE", p), ("SWAT", sw)] it t' (startDate + s) base :: rest)
    else eclLoop base g pressure (it + 1) t l

/-- All of it (SteadyStateUpscalerImplicit_impl.hpp:231-233). -/
def eclOutput [FloorRing K] (base : List Char) (g : Grid) (pressure : Nat → K) (l : List (Steady.Rec K)) : Option (List (Restart K)) :=
  eclLoop base g pressure 0 0 l

/-- The code of a letter of `"xyz"`, which is what `std::to_string` shows of it (SteadyStateUpscalerImplicit_impl.hpp:271, 274). -/
def letter (dir : Nat) : Nat := 120 + dir

/-- The name of the result set (SteadyStateUpscalerImplicit_impl.hpp:272-275): `dbl` is `std::to_string` of a `double`. -/
def eclName (nat : Nat → List Char) (dbl : K → List Char) (boundarySat : K) (dir : Nat) (pressureDrop : K) : List Char :=
  "ecldump-steadystate".toList ++ '-' :: dbl boundarySat ++ '-' :: nat (letter dir) ++ '-' :: dbl pressureDrop

end

/-- The name of a VTK file (SteadyStateUpscalerImplicit_impl.hpp:266-269). -/
def vtkName (nat : Nat → List Char) (count dir it : Nat) : List Char :=
  "output-steadystate".toList ++ '-' :: nat count ++ '-' :: nat dir ++ '-' :: nat it

end Verif.SimOutput
