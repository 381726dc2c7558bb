import Verif.Model.Implicit
import Verif.Model.NewtonVectors
import Verif.Model.ImplicitDriver

/-!
Model of one implicit transport step from saturations to saturations, and of the transport solver made of such steps: `SinglePointUpwindTwoPhase`
(opm/core/transport/implicit/SinglePointUpwindTwoPhase.hpp), its assembly, the Newton driver (opm/core/transport/implicit/ImplicitTransport.hpp) and
`EulerUpstreamImplicit::transportSolve` (opm/porsol/euler/EulerUpstreamImplicit_impl.hpp:225-340) put together. It adds to the models of the parts only how they
are connected.

There is no gravity in it: `EulerUpstreamImplicit` passes a null pointer (EulerUpstreamImplicit_impl.hpp:271), so the static gravity flux is zero.
-/

namespace Verif.ImplicitStep

open Verif.Implicit

variable {K : Type} [Field K] [LinearOrder K]

/-- What the transport model holds: grid, fluid (`TwophaseFluidWrapper`, ImplicitTransportDefs.hpp:115-158: mobilities, their derivatives and capillary pressure of a
cell as functions of the water saturation, and the limits of it), pore volumes, transmissibilities of the faces, total fluxes over the faces
(EulerUpstreamImplicit_impl.hpp:242-256), sources (275-281), `sat_tol_` (SinglePointUpwindTwoPhase.hpp:292). -/
structure Medium (K : Type) where
  grid : Grid
  mob : Nat → K → K × K
  dmob : Nat → K → K × K
  pc : Nat → K → K
  dpc : Nat → K → K
  smin : Nat → K
  smax : Nat → K
  porevol : Nat → K
  trans : Nat → K
  faceflux : Nat → K
  src : List (Nat × K × K)
  tol : K

/-- The cells as `initIteration` and `finishStep` see them: limits, saturation at the start of the step, change (SinglePointUpwindTwoPhase.hpp:545-553, 608-611). -/
def cells (M : Medium K) (s x : List K) : List (K × K × K × K) :=
  (List.range M.grid.nc).map fun c => (M.smin c, M.smax c, s.getD c 0, x.getD c 0)

/-- What `initIteration` stores for the change `x` (SinglePointUpwindTwoPhase.hpp:545-580). -/
def storeAt (M : Medium K) (s x : List K) : Store K :=
  let sw := fun c => (initCell M.tol (M.smin c) (M.smax c) (s.getD c 0) (x.getD c 0)).2.1
  { drho := 0
    mob := fun c => M.mob c (sw c)
    dmob := fun c => ((M.dmob c (sw c)).1, -(M.dmob c (sw c)).2)
    porevol := M.porevol
    dg := fun _ => 0
    ds := fun c => x.getD c 0
    pc := fun c => M.pc c (sw c)
    dpc := fun c => M.dpc c (sw c)
    trans := M.trans }

/-- The problem assembled for the change `x` (ImplicitAssembly.hpp:85-104). -/
def problemAt (M : Medium K) (dt : K) (s x : List K) : Problem K where
  grid := M.grid
  st := storeAt M s x
  dt := dt
  faceflux := M.faceflux
  g0 := fun _ => 0
  src := M.src

/-- The Newton driver for a step of length `dt` from `s` (ImplicitTransport.hpp:116-138): previous saturations as initial guess (the default of the constructor,
SinglePointUpwindTwoPhase.hpp:284), maximum norm (EulerUpstreamImplicit.hpp:129-136). The contributions are given as the assembled sums; that they exist is proved. -/
def setup (M : Medium K) (lin : (Nat → Nat → K) → List K → List K → List K) (dt : K) (s : List K) : NewtonVec.Setup K where
  n := M.grid.nc
  init := initStep true (s.map fun a => (a, 1 - a))
  inRange x := (initIteration M.tol (cells M s x)).1
  mats x := match assemble (problemAt M dt s x) with
    | some S => (List.range M.grid.nc).flatMap fun i => (List.range M.grid.nc).map fun j => (i, j, S.mat i j)
    | none => []
  ress x := match assemble (problemAt M dt s x) with
    | some S => (List.range M.grid.nc).map fun i => (i, S.res i)
    | none => []
  lin := lin
  norm := NewtonVec.maxNorm

/-- Water saturations after `finishStep` with the change `x` (SinglePointUpwindTwoPhase.hpp:600-624). -/
def newSat (M : Medium K) (s x : List K) : List K := (finishStep (cells M s x)).map fun p => p.1

/-- `ImplicitTransport::solve` (ImplicitTransport.hpp:116-216): new water saturations and flag. `mem` is what the system contains from before, `big` is 1e99. -/
def step (M : Medium K) (lin : (Nat → Nat → K) → List K → List K → List K) (big : K) (c : Newton.Ctrl K) (mem : NewtonVec.Mem K) (dt : K) (s : List K) :
    Option (List K × Int) :=
  (NewtonVec.solve (setup M lin dt s) big c mem).map fun r => (newSat M s r.x, r.flag)

/-- The step as the driver of the time steps sees it (EulerUpstreamImplicit_impl.hpp:285-288): converged if the flag is not negative. -/
def stepOk (M : Medium K) (lin : (Nat → Nat → K) → List K → List K → List K) (big : K) (c : Newton.Ctrl K) (mem : NewtonVec.Mem K) (dt : K) (s : List K) :
    List K × Bool :=
  match step M lin big c mem dt s with
  | some (v, flag) => (v, !decide (flag < 0))
  | none => (s, false)

/-- `EulerUpstreamImplicit::transportSolve` (EulerUpstreamImplicit_impl.hpp:225-340). The memory of the system is the same at every step here; by C110 the result does not depend
on it. -/
def transport (M : Medium K) (lin : (Nat → Nat → K) → List K → List K → List K) (big : K) (c : Newton.Ctrl K) (mem : NewtonVec.Mem K) (maxRepeats : Nat)
    (time : K) (s : List K) : ImplicitDriver.Out (List K) :=
  ImplicitDriver.transportSolve (stepOk M lin big c mem) maxRepeats time s

/-- The transport solver as the implicit steady state upscaler calls it (SteadyStateUpscalerImplicit_impl.hpp:240-247). -/
def asSolver (M : Medium K) (lin : (Nat → Nat → K) → List K → List K → List K) (big : K) (c : Newton.Ctrl K) (mem : NewtonVec.Mem K) (maxRepeats : Nat) :
    Nat → List K → K → Bool × List K :=
  fun _ s dt => ((transport M lin big c mem maxRepeats dt s).ok, (transport M lin big c mem maxRepeats dt s).sat)

end Verif.ImplicitStep
