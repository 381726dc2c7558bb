import Verif.Model.Control

/-!
Model of `SteadyStateUpscalerManagerImplicit::upscale` (`opm/upscaling/SteadyStateUpscalerManagerImplicit.hpp` 139-276) from the parameters to the two
files, around the loops of `Model/Control.lean`.

Simplifications: files are names with header lines and lines of numbers, the number format is left out; the names of the two files differ; the upscaler is a
record of what its calls do; output to the terminal is left out. Outcome `none` is undefined behaviour.
-/

namespace Verif.SteadyManager

open Verif.Dense Verif.Control

variable {K : Type} [Field K]

/-- The parameters; `file` is `sat_pdrop_filename` with the contents of the file, or nothing if it cannot be opened. -/
structure Params (K : Type) where
  file : Option (Option (List Char))
  numSats : Option Int
  minSat : Option K
  maxSat : Option K
  numPdrops : Option Int
  minPdrop : Option K
  maxPdrop : Option K
  flowDirection : Option Int
  startFromCl : Option Bool
  krFilename : Option String
  outputWater : Option String
  outputOil : Option String

/-- The saturations and pressure drops (SteadyStateUpscalerManagerImplicit.hpp:141-175); `none` is a thrown exception. -/
def schedule (N : NumFmt K) (exp log : K → K) (P : Params K) : Option (List (K × List K)) :=
  match P.file with
  | some none => none
  | some (some text) => (readControl N text).map fun r => r.1.1.zip r.1.2
  | none =>
    (linRange (P.numSats.getD 4) (P.minSat.getD (1 / 5)) (P.maxSat.getD (4 / 5))).bind fun sats =>
    (expRange exp log (P.numPdrops.getD 5) (P.minPdrop.getD (10 ^ 2)) (P.maxPdrop.getD (10 ^ 6))).map fun ps => sats.map fun s => (s, ps)

/-- `krw_filename` and `kro_filename` (SteadyStateUpscalerManagerImplicit.hpp:183-187). -/
def names (P : Params K) : String × String :=
  (P.outputWater.getD (P.krFilename.getD "upscaled_relperm" ++ "_water"), P.outputOil.getD (P.krFilename.getD "upscaled_relperm" ++ "_oil"))

/-- What the calls of the upscaler do after `init` and `upscaleSinglePhase`: number of cells, `initSatLimits`, `setToCapillaryLimit` (`none` is a thrown exception),
`upscaleSteadyState` for direction, saturation, pressure drop and state. -/
structure Upscaler (K : Type) where
  cells : Nat
  limit : List K → List K
  capLimit : K → Option (List K)
  steady : Int → K → K → List K → Option (Outcome (K := K) (List K) (FullMatrix K))

/-- The initial saturations (SteadyStateUpscalerManagerImplicit.hpp:220-233). -/
def start (P : Params K) (U : Upscaler K) (s : K) : List K :=
  if P.startFromCl.getD true then
    match U.capLimit s with
    | some l => l
    | none => List.replicate U.cells s
  else List.replicate U.cells s

/-- The header of both files (SteadyStateUpscalerManagerImplicit.hpp:192-195). -/
def header : List String := ["# Result from steady state upscaling", "# Pressuredrop  Sw  Krxx  Kryy  Krzz"]

/-- A file: name, header, and lines of numbers followed by the success flag. -/
structure File (K : Type) where
  name : String
  header : List String
  lines : List (List K × Bool)
deriving DecidableEq

/-- How the run ends: with an exception before a file is opened, or with two files, complete or left after an exception. -/
inductive Result (K : Type) where
  | refused
  | files (water oil : File K) (complete : Bool)
deriving DecidableEq

/-- The calls of `writeRelPerm` for one of the files (SteadyStateUpscalerManagerImplicit.hpp:100-133, 254-255). -/
def lines (phase : FullMatrix K × FullMatrix K → FullMatrix K) (rows : List (K × K × (FullMatrix K × FullMatrix K) × Bool)) : Option (List (List K × Bool)) :=
  rows.mapM fun r => (writeRelPerm (phase r.2.2.1) r.2.1 r.1).map fun l => (l, r.2.2.2)

/-- `upscale` (SteadyStateUpscalerManagerImplicit.hpp:139-276); `U` is nothing if `init` or `upscaleSinglePhase` throws. -/
def upscale (N : NumFmt K) (exp log : K → K) (P : Params K) (U : Option (Upscaler K)) : Option (Result K) :=
  match schedule N exp log P with
  | none => some .refused
  | some sch =>
    match U with
    | none => some (.files ⟨(names P).1, header, []⟩ ⟨(names P).2, header, []⟩ false)
    | some U =>
      let r := satLoop U.limit (start P U) (U.steady (P.flowDirection.getD 0)) sch
      (lines Prod.fst r.1).bind fun w => (lines Prod.snd r.1).map fun o =>
        .files ⟨(names P).1, header, w⟩ ⟨(names P).2, header, o⟩ r.2

end Verif.SteadyManager
