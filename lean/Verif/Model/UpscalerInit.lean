import Verif.Model.Boundary
import Mathlib.Algebra.Order.Field.Basic

/-!
Model of the initialisation of an upscaler, from parameters and from arguments:

* `/repo/opm/upscaling/UpscalerBase_impl.hpp` lines 47-66 (constructor), 67-122 (`init`, `initImpl`), 138-174 (`init` from a deck);
* `/repo/opm/porsol/common/setupGridAndProps.hpp` lines 57-203;
* `/repo/opm/upscaling/SteadyStateUpscalerImplicit_impl.hpp` lines 55-111 (constructor and `initImpl`).

A parameter group is a record with one optional entry for each parameter that is read; the conversion of texts to numbers, the report of unused
parameters and messages are left out. A deck is an abstract value `D`; `parse` reads a file (`none`: an exception). What the grid and the reservoir
properties are built from is recorded, not how they are built (see `Reservoir`, `RockStore` for the latter).
-/

namespace Verif.UInit

/-- The parameters that are read by the initialisation. `K`: floating point numbers. -/
structure Params (K : Type) where
  /-- `boundary_condition_type` -/
  bct : Option Int
  /-- `2d_hack` -/
  twodim : Option Bool
  /-- `residual_tolerance` -/
  tol : Option K
  /-- `linsolver_verbosity` -/
  verb : Option Int
  /-- `linsolver_type` -/
  solver : Option Int
  /-- `linsolver_max_iterations` -/
  maxit : Option Int
  /-- `linsolver_prolongate_factor` -/
  prolong : Option K
  /-- `linsolver_smooth_steps` -/
  smooth : Option Int
  /-- `gravity` -/
  gravity : Option K
  /-- `use_unique_boundary_ids` -/
  unique : Option Bool
  /-- `clip_z` -/
  clip : Option Bool
  /-- `periodic_extension` -/
  extend : Option Bool
  /-- `turn_normals` -/
  turn : Option Bool
  /-- `fileformat` -/
  format : Option String
  /-- `filename` -/
  file : Option String
  /-- `output_ecl` -/
  ecl : Option Bool
  /-- `perm_threshold_md` -/
  threshold : Option K
  /-- `rock_list` -/
  rocks : Option String
  /-- `use_jfunction_scaling` -/
  useJ : Option Bool
  /-- `sigma` -/
  sigma : Option K
  /-- `theta` -/
  theta : Option K
  /-- `viscosity1` -/
  visc1 : Option K
  /-- `viscosity2` -/
  visc2 : Option K
  /-- `density1` -/
  dens1 : Option K
  /-- `density2` -/
  dens2 : Option K
  /-- `nx`, `ny`, `nz` -/
  nx : Option Int
  ny : Option Int
  nz : Option Int
  /-- `dx`, `dy`, `dz` -/
  dx : Option K
  dy : Option K
  dz : Option K
  /-- `default_poro` -/
  poro : Option K
  /-- `default_perm_md` -/
  perm : Option K
  /-- `use_gravity` -/
  useGravity : Option Bool
  /-- `output_vtk` -/
  vtk : Option Bool
  /-- `print_inoutflows` -/
  inout : Option Bool
  /-- `simulation_steps` -/
  steps : Option Int
  /-- `init_stepsize` in days -/
  initStep : Option K
  /-- `relperm_threshold` -/
  kr : Option K
  /-- `maximum_mobility_contrast` -/
  contrast : Option K
  /-- `sat_change_year` -/
  change : Option K
  /-- `dt_sat_tol` -/
  dtTol : Option K
  /-- `max_it` -/
  maxIt : Option Int
  /-- `max_stepsize` in years -/
  maxStep : Option K
  /-- `use_maxdiff` -/
  maxdiff : Option Bool

/-- What the grid is made from: a deck with the three switches of `processEclipseFormat`, or a box. -/
inductive GridFrom (K D : Type) where
  | deck (d : D) (periodicExt turnNormals clipZ : Bool)
  | box (n : Int × Int × Int) (size : K × K × K)
  deriving DecidableEq

/-- What the rock properties are made from. -/
inductive RockFrom (K D : Type) where
  | deck (d : D) (threshold : K) (rockList : Option String) (useJ : Bool) (sigma theta : K)
  | uniform (poro perm : K)
  deriving DecidableEq

/-- The grid and the reservoir properties after the initialisation: `visc` and `dens` are those of the two fluids, `cfl` the viscosities when
`computeCflFactors` was called (at the end of `ReservoirPropertyCommon::init`, ReservoirPropertyCommon_impl.hpp:275-335). -/
structure Setup (K D : Type) where
  grid : GridFrom K D
  rock : RockFrom K D
  uniqueIds : Bool
  visc : K × K
  dens : K × K
  cfl : K × K
  deriving DecidableEq

/-- The other members of `UpscalerBase`. -/
structure Base (K : Type) where
  bct : Int
  twodim : Bool
  tol : K
  maxit : Int
  prolong : K
  verb : Int
  solver : Int
  smooth : Int
  gravity : K
  deriving DecidableEq

/-- The members of `SteadyStateUpscalerImplicit` that are set from parameters. -/
structure Steady (K : Type) where
  useGravity : Bool
  vtk : Bool
  ecl : Bool
  inout : Bool
  steps : Int
  initStep : K
  kr : K
  contrast : K
  change : K
  maxIt : Int
  maxStep : K
  dtTol : K
  maxdiff : Bool
  deriving DecidableEq

variable {K D : Type} [Field K]

/-- The constructor of `UpscalerBase` (UpscalerBase_impl.hpp:47-66). -/
def Base.new : Base K := ⟨0, false, 1 / 10 ^ 8, 0, 1, 0, 3, 1, 0⟩

/-- The constructor of `SteadyStateUpscalerImplicit` (SteadyStateUpscalerImplicit_impl.hpp:55-73). -/
def Steady.new : Steady K := ⟨false, false, false, false, 10, 10, 1 / 10 ^ 8, 10 ^ 9, 1 / 10 ^ 5, 100, 10 ^ 4, 1 / 10 ^ 2, true⟩

/-- `setupGridAndProps` (setupGridAndProps.hpp:67-155). `visc` and `dens` are the values of the reservoir properties before the call, `mD` is
`prefix::milli*unit::darcy`, `useJdef` is `useJ<ResProp>()` (lines 57-65). `none`: an exception. A unique-id flag that is set stays set. -/
def setupGridAndProps [DecidableEq K] (parse : String → Option D) (mD : K) (useJdef : Bool) (p : Params K) (uniqueBefore : Bool) (visc dens : K × K) :
    Option (Setup K D) :=
  let format := p.format.getD "cartesian"
  let ids := if p.unique.getD false then true else uniqueBefore
  if format = "eclipse" then do
    let file ← p.file
    let d ← parse file
    if p.ecl.getD false then none
    else
      let rocks := p.rocks.getD "no_list"
      let useJ := p.useJ.getD useJdef
      let visc' := if p.visc1.isSome || p.visc2.isSome then (p.visc1.getD (1 / 1000), p.visc2.getD (3 / 1000)) else visc
      some { grid := .deck d (p.extend.getD false) (p.turn.getD false) (p.clip.getD false)
             rock := .deck d (p.threshold.getD 0 * mD) (if rocks = "no_list" then none else some rocks) useJ
               (if useJ then p.sigma.getD 1 else 1) (if useJ then p.theta.getD 0 else 0)
             uniqueIds := ids
             visc := visc', dens := dens, cfl := visc' }
  else if format = "cartesian" then
    some { grid := .box (p.nx.getD 1, p.ny.getD 1, p.nz.getD 1) (p.dx.getD 1, p.dy.getD 1, p.dz.getD 1)
           rock := .uniform (p.poro.getD (2 / 10)) (p.perm.getD 100 * mD)
           uniqueIds := ids
           visc := visc, dens := dens, cfl := visc }
  else none

/-- `temp_param` in `initImpl` (UpscalerBase_impl.hpp:103-117): entries are inserted only if they are absent. -/
def supported (bct : Int) (p : Params K) : Params K :=
  let p := if bct = 1 ∨ bct = 2 then
      { p with unique := if p.unique.isNone then some true else p.unique
               clip := if p.clip.isNone then some true else p.clip }
    else p
  if bct = 2 then { p with extend := if p.extend.isNone then some true else p.extend } else p

/-- `UpscalerBase::initImpl` (UpscalerBase_impl.hpp:77-122). `b` are the members before the call: they are the defaults. -/
def initImpl [DecidableEq K] (parse : String → Option D) (mD : K) (useJdef : Bool) (p : Params K) (b : Base K) (uniqueBefore : Bool)
    (visc dens : K × K) : Option (Base K × Setup K D) := do
  let bct ← p.bct
  let b' : Base K :=
    { bct := bct
      twodim := p.twodim.getD b.twodim
      tol := p.tol.getD b.tol
      verb := p.verb.getD b.verb
      solver := p.solver.getD b.solver
      maxit := p.maxit.getD b.maxit
      prolong := p.prolong.getD b.prolong
      smooth := p.smooth.getD b.smooth
      gravity := p.gravity.getD b.gravity }
  let s ← setupGridAndProps parse mD useJdef (supported bct p) uniqueBefore visc dens
  some (b', s)

/-- The number of a boundary condition type (UpscalerBase.hpp:68). -/
def code : Boundary.UType → Int
  | .fixed => 0
  | .linear => 1
  | .periodic => 2

/-- `setupGridAndPropsEclipse` (setupGridAndProps.hpp:160-193). -/
def setupEclipse (d : D) (periodicExt turnNormals clipZ uniqueBids : Bool) (threshold : K) (rockList : String) (useJ : Bool) (sigma theta : K)
    (uniqueBefore : Bool) (visc dens : K × K) : Setup K D :=
  { grid := .deck d periodicExt turnNormals clipZ
    rock := .deck d threshold (if rockList = "no_list" then none else some rockList) useJ sigma theta
    uniqueIds := if uniqueBids then true else uniqueBefore
    visc := visc, dens := dens, cfl := visc }

/-- `UpscalerBase::init` from a deck and arguments (UpscalerBase_impl.hpp:138-174). -/
def initDeck (d : D) (t : Boundary.UType) (threshold tol : K) (verb solver : Int) (twodim : Bool) (maxit : Int) (prolong : K) (smooth : Int)
    (gravity : K) (useJdef : Bool) (uniqueBefore : Bool) (visc dens : K × K) : Base K × Setup K D :=
  ({ bct := code t, twodim := twodim, tol := tol, maxit := maxit, prolong := prolong, verb := verb, solver := solver, smooth := smooth, gravity := gravity },
   setupEclipse d (decide (t = .periodic)) false (decide (t = .linear ∨ t = .periodic)) (decide (t = .linear ∨ t = .periodic)) threshold "no_list"
     useJdef 1 0 uniqueBefore visc dens)

/-- `unit::day` and `unit::year` in seconds. -/
def day : K := 86400
def year : K := 365 * 86400

/-- `SteadyStateUpscalerImplicit::initImpl` (SteadyStateUpscalerImplicit_impl.hpp:77-111) without the grid adapter and the transport solver's own
parameters. -/
def steadyInit [DecidableEq K] (parse : String → Option D) (mD : K) (useJdef : Bool) (p : Params K) (b : Base K) (s : Steady K) (uniqueBefore : Bool)
    (visc dens : K × K) : Option (Base K × Steady K × Setup K D) := do
  let (b', u) ← initImpl parse mD useJdef p b uniqueBefore visc dens
  let s' : Steady K :=
    { useGravity := p.useGravity.getD s.useGravity
      vtk := p.vtk.getD s.vtk
      ecl := p.ecl.getD s.ecl
      inout := p.inout.getD s.inout
      steps := p.steps.getD s.steps
      initStep := p.initStep.getD s.initStep * day
      kr := p.kr.getD s.kr
      contrast := p.contrast.getD s.contrast
      change := p.change.getD s.change
      dtTol := p.dtTol.getD s.dtTol
      maxIt := p.maxIt.getD s.maxIt
      maxStep := p.maxStep.getD s.maxStep * year
      maxdiff := p.maxdiff.getD s.maxdiff }
  some (b', s', { u with visc := (p.visc1.getD u.visc.1, p.visc2.getD u.visc.2), dens := (p.dens1.getD u.dens.1, p.dens2.getD u.dens.2) })

end Verif.UInit
