import Verif.Model.Euler

/-!
Model of the set-up of the three transport solvers: `EulerUpstream` (opm/porsol/euler/EulerUpstream_impl.hpp:58-147),
`EulerUpstreamImplicit` (opm/porsol/euler/EulerUpstreamImplicit_impl.hpp:58-115) and `ImplicitCapillarity`
(opm/porsol/euler/ImplicitCapillarity_impl.hpp:56-117), with the part they share, `EulerUpstreamResidual`
(opm/porsol/euler/EulerUpstreamResidual_impl.hpp:355-417).
Grids, reservoir properties and boundary conditions are objects with an address, which the user may change between the
calls (grids are not changed). A solve is represented by the data it works with; `none` is a null pointer, an access
outside a container, a value that was never set or a loop that does not reach its end. The loops over cells are those of
a build without threads; `C11` treats the others.
-/

namespace Verif.SolverLife

variable {K R B : Type}

/-- A parameter group: the entries of a name, read as number, integer or flag (`ParameterGroup::getDefault` is another
library's: the entry if there is one, the given default otherwise). -/
structure Params (K : Type) where
  num : String → Option K
  int : String → Option Int
  flag : String → Option Bool

/-- Addresses of a grid, reservoir properties and boundary conditions. -/
structure Objs where
  g : Nat
  r : Nat
  b : Nat
  deriving DecidableEq

/-- The contents of the objects: volumes of the cells of a grid, reservoir properties, boundary conditions. -/
structure World (K R B : Type) where
  vols : Nat → List K
  rock : Nat → R
  bc : Nat → B

/-- The calls a user can make, and the changes to the objects in between. -/
inductive Call (K R B : Type) where
  | init (p : Params K)
  | initWith (p : Params K) (o : Objs)
  | initObj (o : Objs)
  | courant (x : K)
  | setRock (a : Nat) (v : R)
  | setBC (a : Nat) (v : B)

/-- Changes of the objects; no call of a solver changes them (parameters are `const` references). -/
def World.step (w : World K R B) : Call K R B → World K R B
  | .setRock a v => { w with rock := fun i => if i = a then v else w.rock i }
  | .setBC a v => { w with bc := fun i => if i = a then v else w.bc i }
  | _ => w

/-! ### `EulerUpstreamResidual` -/

/-- Members of `EulerUpstreamResidual` that a set-up assigns: `pgrid_`, `preservoir_properties_`, `pboundary_`; the
boundary conditions that `bid_to_face_` was made with; `cell_iters_` as positions in grids. -/
structure Residual (B : Type) where
  refs : Option Objs
  faces : Option B
  iters : List (Nat × Nat)

/-- Constructor without arguments (EulerUpstreamResidual_impl.hpp:355-361). -/
def Residual.new : Residual B := ⟨none, none, []⟩

/-- `initObj` and `initFinal` (EulerUpstreamResidual_impl.hpp:376-417): `bid_to_face_` is cleared first, `cell_iters_` is
not. -/
def Residual.initObj (w : World K R B) (o : Objs) (s : Residual B) : Residual B :=
  ⟨some o, some (w.bc o.b), s.iters ++ (Euler.initIters [] (w.vols o.g).length).map fun i => (o.g, i)⟩

/-- The cells of the loop of `computeResidual` (EulerUpstreamResidual_impl.hpp:298-302, 321-327, 338-345, 484-489): from
the first to the last entry of `cell_iters_`; iterators of different grids never meet. -/
def Residual.loop (s : Residual B) : Option (List Nat) :=
  if 2 ≤ s.iters.length then
    match s.iters.head?, s.iters.getLast? with
    | some a, some e => if a.1 = e.1 ∧ a.2 ≤ e.2 then some ((List.range (e.2 - a.2)).map (· + a.2)) else none
    | _, _ => none
  else none

/-! ### `EulerUpstream` -/

/-- The parameters of `EulerUpstream` (EulerUpstream.hpp, private members). -/
structure ExplicitParams (K : Type) where
  viscous : Bool
  gravity : Bool
  capillary : Bool
  cflViscous : Bool
  cflGravity : Bool
  cflCapillary : Bool
  courant : K
  minSteps : Int
  maxSteps : Int
  check : Bool
  clamp : Bool
  deriving DecidableEq

/-- An `EulerUpstream` object. -/
structure Explicit (K B : Type) where
  par : ExplicitParams K
  res : Residual B
  porevol : List K

section
variable [Field K]

/-- The initialisers of both constructors (EulerUpstream_impl.hpp:61-71, 77-87). -/
def ExplicitParams.default : ExplicitParams K := ⟨true, true, true, true, true, true, 1 / 2, 1, 10000, true, false⟩

/-- The constructors (EulerUpstream_impl.hpp:59-90); the one with arguments sets up the residual computer only. -/
def Explicit.new (w : World K R B) : Option Objs → Explicit K B
  | none => ⟨.default, .new, []⟩
  | some o => ⟨.default, Residual.new.initObj w o, []⟩

/-- `init(param)` (EulerUpstream_impl.hpp:95-108). -/
def ExplicitParams.init (p : Params K) (e : ExplicitParams K) : ExplicitParams K where
  courant := (p.num "courant_number").getD e.courant
  viscous := (p.flag "method_viscous").getD e.viscous
  gravity := (p.flag "method_gravity").getD e.gravity
  capillary := (p.flag "method_capillary").getD e.capillary
  cflViscous := (p.flag "use_cfl_viscous").getD e.cflViscous
  cflGravity := (p.flag "use_cfl_gravity").getD e.cflGravity
  cflCapillary := (p.flag "use_cfl_capillary").getD e.cflCapillary
  minSteps := (p.int "minimum_small_steps").getD e.minSteps
  maxSteps := (p.int "maximum_small_steps").getD e.maxSteps
  check := (p.flag "check_sat").getD e.check
  clamp := (p.flag "clamp_sat").getD e.clamp

/-- The pore volumes of all cells (EulerUpstream_impl.hpp:123-126, EulerUpstreamImplicit_impl.hpp:103-106); `poro` gives the
porosity of a cell. -/
def poreVolumes (poro : R → Nat → K) (w : World K R B) (o : Objs) : List K :=
  (w.vols o.g).zipIdx.map fun q => q.1 * poro (w.rock o.r) q.2

/-- `initObj` (EulerUpstream_impl.hpp:120-127). -/
def Explicit.initObj (poro : R → Nat → K) (w : World K R B) (o : Objs) (e : Explicit K B) : Explicit K B :=
  { e with res := e.res.initObj w o, porevol := poreVolumes poro w o }

/-- The calls (EulerUpstream_impl.hpp:95-147). -/
def Explicit.step (poro : R → Nat → K) (w : World K R B) (e : Explicit K B) : Call K R B → Explicit K B
  | .init p => { e with par := e.par.init p }
  | .initWith p o => Explicit.initObj poro w o { e with par := e.par.init p }
  | .initObj o => e.initObj poro w o
  | .courant x => { e with par := { e.par with courant := x } }
  | _ => e

/-- What `transportSolve` of `EulerUpstream` works with: parameters, grid, reservoir properties and boundary conditions
as they are now, the boundary conditions that decided which faces are joined, pore volumes, the cells whose faces are
visited, gravity and injection rates. -/
structure ExplicitUse (K R B V I : Type) where
  par : ExplicitParams K
  grid : Nat
  rock : R
  bc : B
  faces : B
  porevol : List K
  cells : List Nat
  gravity : V
  rates : I

/-- `transportSolve` (EulerUpstream_impl.hpp:151-219, 270-330, 356-390): objects are read through the pointers, the update
divides by the pore volume of each cell. -/
def Explicit.solve {V I : Type} (w : World K R B) (e : Explicit K B) (gravity : V) (rates : I) : Option (ExplicitUse K R B V I) :=
  match e.res.refs, e.res.faces, e.res.loop with
  | some o, some f, some cs =>
    if (w.vols o.g).length ≤ e.porevol.length then some ⟨e.par, o.g, w.rock o.r, w.bc o.b, f, e.porevol, cs, gravity, rates⟩ else none
  | _, _, _ => none

/-- A history: constructor and calls. The state is the object and the contents of the user's objects. -/
def Explicit.run (poro : R → Nat → K) (w : World K R B) (make : Option Objs) (h : List (Call K R B)) : World K R B × Explicit K B :=
  h.foldl (fun s c => (s.1.step c, s.2.step poro s.1 c)) (w, .new w make)

/-! ### `EulerUpstreamImplicit` -/

/-- Control of the Newton iteration, `NRControl` (opm/core/transport/implicit/ImplicitTransport.hpp:45-61). -/
structure Control (K : Type) where
  maxIt : Int
  atol : K
  rtol : K
  dxtol : K
  maxItLs : Int
  verbosity : Int
  deriving DecidableEq

/-- Its constructor (ImplicitTransport.hpp:46-53). -/
def Control.default : Control K := ⟨1, 1 / 1000000, 5 / 10000000, 1 / 100000000, 5, 0⟩

/-- What `initObj` leaves behind: the grid that was converted, a copy of the reservoir properties, the boundary
conditions that the lists of periodic faces and sources were made with, pore volumes (EulerUpstreamImplicit_impl.hpp:98-217;
the lists themselves are the subject of C104). -/
structure ImplicitObjs (K R B : Type) where
  grid : Nat
  rock : R
  bc : B
  porevol : List K

/-- An `EulerUpstreamImplicit` object; `max_repeats_` has no initial value. -/
structure Implicit (K R B : Type) where
  check : Bool
  clamp : Bool
  ctrl : Control K
  maxRepeats : Option Int
  objs : Option (ImplicitObjs K R B)

/-- `initObj` (EulerUpstreamImplicit_impl.hpp:98-217). -/
def Implicit.initObj (poro : R → Nat → K) (w : World K R B) (o : Objs) (e : Implicit K R B) : Implicit K R B :=
  { e with objs := some ⟨o.g, w.rock o.r, w.bc o.b, poreVolumes poro w o⟩ }

/-- The constructors (EulerUpstreamImplicit_impl.hpp:58-71). -/
def Implicit.new (poro : R → Nat → K) (w : World K R B) : Option Objs → Implicit K R B
  | none => ⟨true, false, .default, none, none⟩
  | some o => Implicit.initObj poro w o ⟨true, false, .default, none, none⟩

/-- `init(param)` (EulerUpstreamImplicit_impl.hpp:74-86). -/
def Implicit.init (p : Params K) (e : Implicit K R B) : Implicit K R B where
  check := (p.flag "check_sat").getD e.check
  clamp := (p.flag "clamp_sat").getD e.clamp
  ctrl := ⟨(p.int "transport_nr_max_it").getD 10, (p.num "transport_atol").getD (1 / 1000000), (p.num "transport_rtol").getD (5 / 10000000),
    (p.num "transport_dxtol").getD (1 / 1000000), (p.int "transport_max_it_ls").getD 20, (p.int "transport_verbosity").getD 0⟩
  maxRepeats := some ((p.int "transport_max_rep").getD 10)
  objs := e.objs

/-- The calls (EulerUpstreamImplicit_impl.hpp:74-217); there is no function to set the Courant number. -/
def Implicit.step (poro : R → Nat → K) (w : World K R B) (e : Implicit K R B) : Call K R B → Implicit K R B
  | .init p => e.init p
  | .initWith p o => Implicit.initObj poro w o (e.init p)
  | .initObj o => e.initObj poro w o
  | _ => e

/-- What `transportSolve` of `EulerUpstreamImplicit` works with. -/
structure ImplicitUse (K R B : Type) where
  ctrl : Control K
  maxRepeats : Int
  objs : ImplicitObjs K R B

/-- `transportSolve` (EulerUpstreamImplicit_impl.hpp:228-339): names of the arguments for gravity and injection rates are
commented out, and neither `check_sat_` nor `clamp_sat_` is looked at. -/
def Implicit.solve {V I : Type} (e : Implicit K R B) (_gravity : V) (_rates : I) : Option (ImplicitUse K R B) :=
  match e.maxRepeats, e.objs with
  | some m, some o => some ⟨e.ctrl, m, o⟩
  | _, _ => none

/-- A history of an `EulerUpstreamImplicit`. -/
def Implicit.run (poro : R → Nat → K) (w : World K R B) (make : Option Objs) (h : List (Call K R B)) : World K R B × Implicit K R B :=
  h.foldl (fun s c => (s.1.step c, s.2.step poro s.1 c)) (w, .new poro w make)

/-! ### `ImplicitCapillarity` -/

/-- The parameters of `ImplicitCapillarity`. -/
structure CapParams (K : Type) where
  viscous : Bool
  gravity : Bool
  check : Bool
  clamp : Bool
  tol : K
  verbosity : Int
  type : Int
  relax : K
  deriving DecidableEq

/-- What `psolver_.init(g, r, grav, b)` keeps (C134): the grid, the reservoir properties the inner products were computed with,
gravity, the boundary conditions of the numbering. -/
structure Pressure (K R B : Type) where
  grid : Nat
  rock : R
  gravity : K
  bc : B

/-- An `ImplicitCapillarity` object. -/
structure Cap (K R B : Type) where
  par : CapParams K
  res : Residual B
  psolver : Option (Pressure K R B)

/-- The initialisers of both constructors (ImplicitCapillarity_impl.hpp:59-66, 73-80). -/
def CapParams.default : CapParams K := ⟨true, true, true, false, 1 / 100000000, 1, 1, 1⟩

/-- `initObj` (ImplicitCapillarity_impl.hpp:111-117), also the body of the constructor with arguments. -/
def Cap.initObj (w : World K R B) (o : Objs) (e : Cap K R B) : Cap K R B :=
  { e with res := e.res.initObj w o, psolver := some ⟨o.g, w.rock o.r, 0, w.bc o.b⟩ }

/-- The constructors (ImplicitCapillarity_impl.hpp:57-85). -/
def Cap.new (w : World K R B) : Option Objs → Cap K R B
  | none => ⟨.default, .new, none⟩
  | some o => Cap.initObj w o ⟨.default, .new, none⟩

/-- `init(param)` (ImplicitCapillarity_impl.hpp:90-99). -/
def CapParams.init (p : Params K) (e : CapParams K) : CapParams K where
  viscous := (p.flag "method_viscous").getD e.viscous
  gravity := (p.flag "method_gravity").getD e.gravity
  check := (p.flag "check_sat").getD e.check
  clamp := (p.flag "clamp_sat").getD e.clamp
  tol := (p.num "residual_tolerance").getD e.tol
  verbosity := (p.int "linsolver_verbosity").getD e.verbosity
  type := (p.int "linsolver_type").getD e.type
  relax := (p.num "update_relaxation").getD e.relax

/-- The calls (ImplicitCapillarity_impl.hpp:90-117). -/
def Cap.step (w : World K R B) (e : Cap K R B) : Call K R B → Cap K R B
  | .init p => { e with par := e.par.init p }
  | .initWith p o => Cap.initObj w o { e with par := e.par.init p }
  | .initObj o => e.initObj w o
  | _ => e

/-- What `transportSolve` of `ImplicitCapillarity` works with. -/
structure CapUse (K R B V I : Type) where
  par : CapParams K
  grid : Nat
  rock : R
  bc : B
  faces : B
  cells : List Nat
  pressure : Pressure K R B
  gravity : V
  rates : I

/-- `transportSolve` (ImplicitCapillarity_impl.hpp:134-228): viscous and gravity flow from the residual computer, capillary
flow from the pressure solver. -/
def Cap.solve {V I : Type} (w : World K R B) (e : Cap K R B) (gravity : V) (rates : I) : Option (CapUse K R B V I) :=
  match e.res.refs, e.res.faces, e.res.loop, e.psolver with
  | some o, some f, some cs, some p => some ⟨e.par, o.g, w.rock o.r, w.bc o.b, f, cs, p, gravity, rates⟩
  | _, _, _, _ => none

/-- A history of an `ImplicitCapillarity`. -/
def Cap.run (w : World K R B) (make : Option Objs) (h : List (Call K R B)) : World K R B × Cap K R B :=
  h.foldl (fun s c => (s.1.step c, s.2.step s.1 c)) (w, .new w make)

end

end Verif.SolverLife
