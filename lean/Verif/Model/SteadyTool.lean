import Verif.Model.UpscalerInit
import Verif.Model.RockTables
import Verif.Model.Control
import Verif.Model.Upscale

/-!
Model of the program `upscale_steadystate_implicit` (`/repo/examples/upscale_steadystate_implicit.cpp` lines 86-433).

`Env` stands for what the program takes from elsewhere: reading of files and decks, the grid of the single-phase upscaler, the computations of the
steady-state upscaler as functions of its state after `init` (see `UInit`, `Steady`). Times, the host name, formatting and progress messages are left out.
-/

namespace Verif.SteadyTool

open Verif.UInit

/-- How the program ends: with a value, with the usage, with an exception, with a message, with undefined behaviour (reading outside a vector or a
violated assertion), in an endless loop, or with results that are not numbers. -/
inductive Res (α : Type) where
  | ok (a : α)
  | usage
  | thrown
  | stopped
  | ub
  | endless
  | nan
  deriving DecidableEq

/-- Sequencing. -/
def Res.bind {α β : Type} : Res α → (α → Res β) → Res β
  | .ok a, f => f a
  | .usage, _ => .usage
  | .thrown, _ => .thrown
  | .stopped, _ => .stopped
  | .ub, _ => .ub
  | .endless, _ => .endless
  | .nan, _ => .nan

/-- A value, or the given failure. -/
def Res.ofOption {α : Type} (e : Res α) : Option α → Res α
  | some a => .ok a
  | none => e

/-- The parameters of the program; `solver` are those that the upscaler reads from the same group. -/
structure Args (K : Type) where
  grid : Option String
  rockList : Option String
  bc : Option String
  flowdir : Option String
  numSats : Option Int
  numDrops : Option Int
  minDrop : Option K
  maxDrop : Option K
  startFromCl : Option Bool
  tension : Option K
  aniso : Option Bool
  outputWater : Option String
  outputOil : Option String
  solver : Params K

/-- The tensors. -/
abbrev Tensor (K : Type) := Fin 3 → Fin 3 → K

/-- State of the upscaler after `init`. -/
abbrev State (K D : Type) := Base K × UInit.Steady K × Setup K D

/-- What is taken from elsewhere. -/
structure Env (K D : Type) where
  /-- the parser -/
  parse : String → Option D
  /-- `SPECGRID`, `COORD`, `ZCORN`, `PORO` and `PERMX` are in the deck -/
  complete : D → Bool
  poros : D → List K
  satnum : D → Option (List Int)
  rocktype : D → Option (List Int)
  /-- position in the deck and volume of the cells of the single-phase upscaler's grid -/
  cells : D → List (Nat × K)
  /-- the rock list: number at the start and lines after it -/
  list : String → Option (Option Int × List (List Char))
  /-- a rock file can be opened -/
  opens : List Char → Bool
  /-- smallest and largest abscissa of the curve in two columns of a file -/
  extremes : List Char → Int → Int → Option (K × K)
  exp : K → K
  log : K → K
  mD : K
  /-- the upscaler -/
  useJ : Bool
  numCells : State K D → Nat
  perm : State K D → Option (Tensor K)
  porosity : State K D → K
  capLimit : State K D → K → Option (List K)
  limits : State K D → List K → List K
  solve : State K D → Fin 3 → Tensor K → K → K → List K → Option (Control.Outcome (K := K) (List K) (Tensor K))

variable {K D : Type} [Field K] [LinearOrder K]

/-- One rock (upscale_steadystate_implicit.cpp:115-163): its file and its smallest and largest saturation. -/
def rock (e : Env K D) (aniso : Bool) (spec : List Char) : Res (List Char × K × K) :=
  let name := (RockTables.nextWord spec).1
  if e.opens name then
    if aniso then
      match e.extremes name 2 1 with
      | none => .stopped
      | some (lo, hi) => .ok (name, lo, hi)
    else
      match e.extremes name 1 4 with
      | none => .stopped
      | some (lo, hi) => if lo < 0 ∨ lo > 1 then .thrown else .ok (name, lo, hi)
  else .thrown

/-- The loop over the rocks (upscale_steadystate_implicit.cpp:109-164). -/
def rocks (e : Env K D) (aniso : Bool) : Nat → List (List Char) → Res (List (List Char × K × K))
  | 0, _ => .ok []
  | n + 1, ls =>
    match RockTables.nextSpec ls with
    | none => .endless
    | some (spec, rest) => (rock e aniso spec).bind fun r => (rocks e aniso n rest).bind fun l => .ok (r :: l)

/-- `getExtremeSats` (upscale_steadystate_implicit.cpp:98-166). -/
def getExtremeSats (e : Env K D) (rockList : String) (aniso : Bool) : Res (List (List Char × K × K)) :=
  if rockList = "no_list" then .thrown
  else match e.list rockList with
    | none => .thrown
    | some (count, lines) =>
      match count with
      | none => .ub
      | some n => if 1 ≤ n then rocks e aniso n.toNat lines else .ub

/-- Volumes while going through the cells: pore volumes by position in the deck, and the volumes of water at both ends. -/
structure Volumes (K : Type) where
  pore : List K
  lo : K
  hi : K
  deriving DecidableEq

/-- One cell (upscale_steadystate_implicit.cpp:295-302); `none`: an access outside a vector. -/
def addCell (poros : List K) (satnums : List Int) (ends : List (List Char × K × K)) (v : Volumes K) (c : Nat × K) : Option (Volumes K) := do
  let s ← satnums[c.1]?
  if s > 0 then do
    let φ ← poros[c.1]?
    let r ← ends[(s - 1).toNat]?
    some ⟨v.pore.set c.1 (c.2 * φ), v.lo + r.2.1 * (c.2 * φ), v.hi + r.2.2 * (c.2 * φ)⟩
  else some v

/-- Smallest and largest saturation of the model and its pore volume (upscale_steadystate_implicit.cpp:285-309). -/
def limitsOf (poros : List K) (satnums : List Int) (ends : List (List Char × K × K)) (cells : List (Nat × K)) : Res (K × K × K) :=
  match cells.foldlM (addCell poros satnums ends) ⟨List.replicate satnums.length 0, 0, 0⟩ with
  | none => .ub
  | some v =>
    let pv := v.pore.foldl (· + ·) 0
    match Upscale.quot v.lo pv, Upscale.quot v.hi pv with
    | some a, some b => .ok (a, b, pv)
    | _, _ => .nan

/-- The rock numbers of the cells (upscale_steadystate_implicit.cpp:262-271). -/
def satnums (e : Env K D) (d : D) : List Int :=
  match e.satnum d with
  | some l => l
  | none => match e.rocktype d with
    | some l => l
    | none => List.replicate (e.poros d).length 1

/-- `max_element` (upscale_steadystate_implicit.cpp:273); `none`: of an empty vector. -/
def largest : List Int → Option Int
  | [] => none
  | s :: l => some (l.foldl max s)

/-- The choice of the flow direction (upscale_steadystate_implicit.cpp:208-225). -/
def direction (s : String) : Res (Fin 3) :=
  if s = "x" then .ok 0 else if s = "y" then .ok 1 else if s = "z" then .ok 2 else .usage

/-- The choice of the conditions and of the number of tensor elements (upscale_steadystate_implicit.cpp:236-252). -/
def condition (s : String) : Res (Int × Nat) :=
  if s = "fixed" ∨ s = "f" then .ok (0, 3)
  else if s = "periodic" ∨ s = "p" then .ok (2, 6)
  else if s = "linear" ∨ s = "l" then .ok (1, 9)
  else .usage

/-- What is printed at the end (upscale_steadystate_implicit.cpp:375-425). -/
structure Report (K : Type) where
  grid : String
  cells : Nat
  poreVolume : K
  porosity : K
  rockList : String
  rockFiles : List (List Char)
  bc : String
  flowdir : String
  numSats : Int
  numDrops : Int
  tension : K
  perm : Tensor K

/-- Everything that is computed: the state, the saturations, the pressure drops and a row for each pair with both tensors. -/
structure Computed (K D : Type) where
  state : State K D
  sats : List K
  drops : List K
  rows : List (K × K × (Tensor K × Tensor K) × Bool)

/-- `init_sat.resize(n, x)` (upscale_steadystate_implicit.cpp:340-342). -/
def resize (l : List K) (n : Nat) (x : K) : List K := l.take n ++ List.replicate (n - l.length) x

/-- The saturations that the computations for one saturation start with (upscale_steadystate_implicit.cpp:330-342). -/
def start (e : Env K D) (st : State K D) (fromCl : Bool) (s : K) : List K :=
  let n := e.numCells st
  let init := if fromCl then (match e.capLimit st s with
    | some l => l
    | none => resize [] n s) else []
  resize init n s

/-- The upscaling proper (upscale_steadystate_implicit.cpp:311-372): the ranges, the upscaler with the parameter `boundary_condition_type` inserted,
the single-phase permeability and the loop. -/
def compute (e : Env K D) (a : Args K) (dir : Fin 3) (bct : Int) (lo hi : K) : Res (Computed K D × Tensor K) :=
  (Res.ofOption .thrown (Control.linRange (a.numSats.getD 10) lo hi)).bind fun sats =>
  (Res.ofOption .thrown (Control.expRange e.exp e.log (a.numDrops.getD 10) (a.minDrop.getD 100) (a.maxDrop.getD 1000000))).bind fun drops =>
  (Res.ofOption .thrown (steadyInit e.parse e.mD e.useJ { a.solver with bct := some bct } Base.new UInit.Steady.new false
    (1 / 1000, 3 / 1000) (10139 / 10, 8347 / 10))).bind fun st =>
  (Res.ofOption .thrown (e.perm st)).bind fun k =>
    let r := Control.satLoop (e.limits st) (start e st (a.startFromCl.getD true)) (fun s p l => e.solve st dir k s p l) (sats.map fun s => (s, drops))
    if r.2 then .ok (⟨st, sats, drops, r.1⟩, k) else .thrown

/-- What is printed, and the files that are written (none). -/
structure Printed (K : Type) where
  report : Report K
  files : List (String × List (List K))

/-- `main` (upscale_steadystate_implicit.cpp:177-433): what is computed and what is printed. -/
def main (e : Env K D) (a : Args K) : Res (Computed K D × Printed K) :=
  (Res.ofOption .thrown a.grid).bind fun file =>
  (Res.ofOption .thrown (e.parse file)).bind fun d =>
  if e.complete d then
    (direction (a.flowdir.getD "x")).bind fun dir =>
    (condition (a.bc.getD "fixed")).bind fun bc =>
    (getExtremeSats e (a.rockList.getD "no_list") false).bind fun ends =>
    (Res.ofOption .ub (largest (satnums e d))).bind fun n =>
    if n = (ends.length : Int) then
      (limitsOf (e.poros d) (satnums e d) ends (e.cells d)).bind fun lim =>
      (compute e a dir bc.1 lim.1 lim.2.1).bind fun r =>
        .ok (r.1,
          { report :=
              { grid := file, cells := e.numCells r.1.state, poreVolume := lim.2.2, porosity := e.porosity r.1.state, rockList := a.rockList.getD "no_list"
                rockFiles := ends.map Prod.fst, bc := a.bc.getD "fixed", flowdir := a.flowdir.getD "x", numSats := a.numSats.getD 10
                numDrops := a.numDrops.getD 10, tension := a.tension.getD 11, perm := fun i j => r.2 i j * (1 / e.mD) }
            files := [] })
    else .usage
  else .usage

end Verif.SteadyTool
