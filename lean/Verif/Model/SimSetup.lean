import Verif.Model.Boundary

/-!
Model of the set-up of the simulators from parameters:

* `/repo/opm/porsol/common/SimulatorBase.hpp` lines 84-221 (`SimulatorBase`: constructor, `initControl`, gravity, `initInitialConditions`,
  `initBoundaryConditions`, `initSources`);
* `/repo/opm/porsol/common/setupBoundaryConditions.hpp` lines 51-94 and 183-203 (choice of the conditions and their parameters).

A parameter group is a record of optional entries. A saturation file is given by `read`: `none` if it cannot be opened, else the number at its start
(`none` if there is none: the stream then yields 0 and nothing more) and the numbers up to the first text that is not a number. The grid enters by
its faces and its number of cells. The flow and transport solvers are modelled elsewhere.
-/

namespace Verif.SimSetup

open Verif.Boundary

/-- The parameters that are read. -/
structure Params (K : Type) where
  /-- `simulation_steps`, `stepsize` in days -/
  steps : Option Int
  stepsize : Option K
  /-- `gx`, `gy`, `gz` -/
  gx : Option K
  gy : Option K
  gz : Option K
  /-- `init_saturation_from_file`, `init_saturation_filename`, `init_saturation` -/
  fromFile : Option Bool
  file : Option String
  sat : Option K
  /-- `upscaling`, `boundary_condition_type`, `pressure_drop_direction`, `boundary_pressuredrop`, `boundary_saturation`, `2d_hack` -/
  upscaling : Option Bool
  bct : Option Int
  pddir : Option Int
  pdrop : Option K
  bdySat : Option K
  twodim : Option Bool
  /-- `region_based_bcs`, `dir_block_low_x` …, `dir_block_high_x` …, `dir_block_pressure` -/
  region : Option Bool
  lowX : Option K
  lowY : Option K
  lowZ : Option K
  highX : Option K
  highY : Option K
  highZ : Option K
  blockP : Option K
  /-- `flow_bc_type`, `left_flux`, `right_flux`, `left_pressure`, `right_pressure` -/
  flowType : Option String
  leftFlux : Option K
  rightFlux : Option K
  leftP : Option K
  rightP : Option K

variable {K : Type} [Field K] [LinearOrder K]

/-- A vector from its three components. -/
def vec3 (x y z : K) : Fin 3 → K := fun i => if i = 0 then x else if i = 1 then y else z

/-- The conditions for flow from left to right (setupBoundaryConditions.hpp:64-89): type, value on the left, value on the right; `none` is an
exception. -/
def leftRight (p : Params K) : Option (BCType × K × K) :=
  let t := p.flowType.getD "dirichlet"
  if t = "neumann" then do
    let l ← p.leftFlux
    some (.neumann, l, p.rightFlux.getD (-l))
  else if t = "dirichlet" then some (.dirichlet, p.leftP.getD (10 ^ 5), p.rightP.getD 0)
  else none

/-- `setupBoundaryConditions` (setupBoundaryConditions.hpp:51-94) with the parameters of `setupRegionBasedConditions` (lines 187-198). The
assertion on the direction (line 116) is `ub`. -/
def boundary (sort : List (BFI K) → List (BFI K)) (p : Params K) (faces : List (Face K)) (bcs : BCs K) : Except (Err × BCs K) (BCs K) :=
  if p.upscaling.getD false then
    match p.bct with
    | none => .error (.thrown, bcs)
    | some t =>
      let dir := p.pddir.getD 0
      let go := fun d : Fin 3 => setupUpscalingConditions sort faces t d (p.pdrop.getD (10 ^ 5)) (p.bdySat.getD 1) (p.twodim.getD false) bcs
      if dir = 0 then go 0 else if dir = 1 then go 1 else if dir = 2 then go 2
      else if t < 0 ∨ t > 2 then .error (.thrown, bcs) else .error (.ub, bcs)
  else if p.region.getD false then
    match p.blockP with
    | none => .error (.thrown, bcs)
    | some pr => setupRegionBased bcs faces (vec3 (p.lowX.getD 0) (p.lowY.getD 0) (p.lowZ.getD 0)) (vec3 (p.highX.getD 1) (p.highY.getD 1) (p.highZ.getD 1)) pr
  else
    match leftRight p with
    | none => .error (.thrown, bcs)
    | some (t, l, r) => do
      let b := bcs.resize 7
      let b1 ← b.setFlow 1 ⟨t, l⟩
      b1.setFlow 2 ⟨t, r⟩

/-- `initInitialConditions` (SimulatorBase.hpp:157-190); `none` is an exception. -/
def saturation (read : String → Option (Option Int × List K)) (p : Params K) (cells : Nat) : Option (List K) :=
  if p.fromFile.getD false then do
    let f ← p.file
    let (n, vals) ← read f
    let n := n.getD 0
    if n ≠ (cells : Int) then none
    else if (vals.length : Int) ≠ n then none
    else some vals
  else some (List.replicate cells (p.sat.getD 0))

/-- The members of `SimulatorBase` that are set here. -/
structure Sim (K : Type) where
  steps : Int
  stepsize : K
  gravity : Fin 3 → K
  sat : List K
  bcs : BCs K
  rates : List K

/-- The constructor (SimulatorBase.hpp:84-92). -/
def Sim.new : Sim K := ⟨1, 1, fun _ => 0, [], ⟨⟨[], []⟩, [], []⟩, []⟩

/-- How a set-up ends. -/
inductive Res (K : Type) where
  | ok (s : Sim K)
  | thrown
  | ub

/-- `SimulatorBase::init` (SimulatorBase.hpp:96-109) without the solvers. `rates` is `injection_rates_psolver_` after `initSources` (lines 197-207). -/
def init (sort : List (BFI K) → List (BFI K)) (read : String → Option (Option Int × List K)) (p : Params K) (faces : List (Face K)) (cells : Nat)
    (s : Sim K) : Res K :=
  let steps := p.steps.getD s.steps
  let stepsize := p.stepsize.getD s.stepsize * 86400
  let g := vec3 (p.gx.getD 0) (p.gy.getD 0) (p.gz.getD 0)
  match saturation read p cells with
  | none => .thrown
  | some sat =>
    match boundary sort p faces s.bcs with
    | .error (.thrown, _) => .thrown
    | .error (.ub, _) => .ub
    | .ok bcs => .ok ⟨steps, stepsize, g, sat, bcs, resizeList s.rates cells 0⟩

end Verif.SimSetup
