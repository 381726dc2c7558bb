import Mathlib.Data.List.Basic

/-!
Model of the order in which an upscaler sets up and calls its pressure solver (`UpscalerBase_impl.hpp`,
`SteadyStateUpscalerImplicit_impl.hpp`, `IncompFlowSolverHybrid.hpp`): which grid, permeabilities, gravity, boundary
conditions and fluid each pressure solution is computed with, over any sequence of calls.

Grids are names (`G`), permeability tensors an arbitrary type (`T`), saturation fields an arbitrary type (`S`), numbers
an arbitrary type (`K`). The solver keeps the grid, the inner products (which hold permeability and gravity) of its last
`init`; the equations themselves are in `Verif.Hybrid`. The saturation that the steady state loop ends with is part of
the call. Exceptions inside a solve are left out.
-/

namespace Verif.Calls

/-- `BoundaryConditionType` (UpscalerBase.hpp:68). -/
inductive BC
  | fixed
  | linear
  | periodic
deriving DecidableEq

/-- The fluid a solve sees: the tracer fluid of `upscaleSinglePhase`, the mobilities of one phase for a saturation, or
both phases for a saturation. -/
inductive Fluid (S : Type)
  | tracer
  | phase (second : Bool) (sat : S)
  | both (sat : S)
deriving DecidableEq

/-- One pressure solution. -/
structure Solve (G T S K : Type) where
  grid : G
  perm : Nat → T
  gravity : K
  fluid : Fluid S
  bc : BC
  dir : Nat
  drop : K
  sameMatrix : Bool

/-- The calls of a user. -/
inductive Call (G T S K : Type)
  /-- `init` with grid and permeabilities, boundary condition type, `gravity` and `use_gravity`. -/
  | init (grid : G) (cells : Nat) (perm : Nat → T) (bc : BC) (gravity : K) (useGravity : Bool)
  | setPermeability (cell : Nat) (k : T)
  | setBoundaryConditionType (bc : BC)
  | singlePhase
  | steadyState (dir : Nat) (drop : K) (initial final : S)

/-- Members: grid, permeabilities of `res_prop_`, `bctype_`, `gravity_`, `use_gravity_`, and what `flow_solver_` holds
since its last `init`. -/
structure State (G T K : Type) where
  grid : G
  cells : Nat
  perm : Nat → T
  bc : BC
  gravity : K
  useGravity : Bool
  solver : Option (G × (Nat → T) × K)

variable {G T S K : Type}

/-- `IncompFlowSolverHybrid::init` (IncompFlowSolverHybrid.hpp:471-481): the system structure of the grid, inner products
of the permeabilities, gravity. -/
def solverInit (s : State G T K) (gravity : K) : State G T K := { s with solver := some (s.grid, s.perm, gravity) }

/-- `IncompFlowSolverHybrid::solve` (IncompFlowSolverHybrid.hpp:657-696): the structure must exist. -/
def solve (s : State G T K) (fluid : Fluid S) (dir : Nat) (drop : K) (same : Bool) : Option (Solve G T S K) :=
  match s.solver with
  | none => none
  | some (g, p, grav) => some ⟨g, p, grav, fluid, s.bc, dir, drop, same⟩

/-- One pass of the loop over the directions in `upscaleEffectivePerm` (UpscalerBase_impl.hpp:245-261). -/
def effectiveStep (one : K) (fluid : Fluid S) (acc : State G T K × List (Solve G T S K)) (pdd : Nat) :
    Option (State G T K × List (Solve G T S K)) :=
  let s := if pdd = 0 then solverInit acc.1 acc.1.gravity else acc.1
  match solve s fluid pdd one (decide (s.bc ≠ .fixed) && decide (pdd ≠ 0)) with
  | none => none
  | some r => some (s, acc.2 ++ [r])

/-- `upscaleEffectivePerm` (UpscalerBase_impl.hpp:231-286). -/
def effectivePerm (one : K) (s : State G T K) (fluid : Fluid S) : Option (State G T K × List (Solve G T S K)) :=
  (List.range 3).foldlM (effectiveStep one fluid) (s, [])

/-- `upscaleSteadyState` (SteadyStateUpscalerImplicit_impl.hpp:176-367): pressure once, transport to the final
saturation, then an upscaling for each phase. -/
def steadyState (one zero standard : K) (s : State G T K) (dir : Nat) (drop : K) (initial final : S) :
    Option (State G T K × List (Solve G T S K)) :=
  let gravity := if s.useGravity then standard else zero
  let s := if dir = 0 then solverInit s gravity else s
  match solve s (.both initial) dir drop false with
  | none => none
  | some r =>
    match effectivePerm one s (.phase false final) with
    | none => none
    | some (s1, l1) =>
      match effectivePerm one s1 (.phase true final) with
      | none => none
      | some (s2, l2) => some (s2, r :: (l1 ++ l2))

/-- `setBoundaryConditionType` (UpscalerBase_impl.hpp:189-205); a refused change (an exception) leaves the type. -/
def setBC (s : State G T K) (bc : BC) : State G T K :=
  if (bc = .periodic ∧ s.bc ≠ .periodic) ∨ (bc ≠ .periodic ∧ s.bc = .periodic) then s else { s with bc := bc }

/-- A call. `none`: undefined behaviour, namely a cell outside the grid or a solver that was never set up. `init`
(UpscalerBase_impl.hpp:138-174) does not touch the solver; `setPermeability` (UpscalerBase_impl.hpp:209-213). -/
def step (one zero standard : K) (s : State G T K) : Call G T S K → Option (State G T K × List (Solve G T S K))
  | .init g n p bc grav use => some ({ s with grid := g, cells := n, perm := p, bc := bc, gravity := grav, useGravity := use }, [])
  | .setPermeability c k => if c < s.cells then some ({ s with perm := fun i => if i = c then k else s.perm i }, []) else none
  | .setBoundaryConditionType bc => some (setBC s bc, [])
  | .singlePhase => effectivePerm one s .tracer
  | .steadyState dir drop s0 s1 => steadyState one zero standard s dir drop s0 s1

/-- A sequence of calls on a new upscaler that starts with `init`: the members afterwards. -/
def run (one zero standard : K) (g : G) (n : Nat) (p : Nat → T) (bc : BC) (grav : K) (use : Bool) (h : List (Call G T S K)) :
    Option (State G T K) :=
  h.foldlM (fun s c => (step one zero standard s c).map Prod.fst) ⟨g, n, p, bc, grav, use, none⟩

end Verif.Calls
