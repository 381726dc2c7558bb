import Verif.Model.Hybrid
import Verif.Model.Upscale

/-!
Model of the control of the linear solvers in `solve` of `opm/porsol/mimetic/IncompFlowSolverHybrid.hpp`: choice of the
solver, regularisation, reuse of operator and preconditioner (`same_matrix`), first guess, limit on the iterations; and of the
calls of `solve` in `opm/upscaling/UpscalerBase_impl.hpp`.

The assembly is modelled in `Verif.Model.Hybrid`. A preconditioner is represented by the matrix it was built from. The
iterations themselves are not modelled; tolerance, verbosity and AMG parameters are left out. A grid has at least one face, so
that `S_[0][0]` exists. Building a preconditioner does not fail.
-/

namespace Verif.SolverControl

open Verif.Hybrid

variable {K : Type} [Field K]

/-- The preconditioner classes (IncompFlowSolverHybrid.hpp:1468, 1539, 1604). -/
inductive Kind where
  | amg | kamg | fastAmg
  deriving DecidableEq

/-- What one call of `solve` sees and gets: cells after `setExternalContrib`, number of unknowns (`S_.N()`),
`linsolver_type`, `same_matrix`, `linsolver_maxit` (IncompFlowSolverHybrid.hpp:657-668). -/
structure Call (K : Type) where
  nc : Nat
  cells : Fin nc → Cell K
  n : Nat
  type : Int
  same : Bool
  maxit : Int

/-- What stays between calls: `opS_` (which refers to `S_`, so it has no content of its own) and `precond_`, set together
(IncompFlowSolverHybrid.hpp:1458-1460, 1481, 1502): class of the preconditioner and the matrix it was built from, with its size.
Neither `init` nor `clear` (IncompFlowSolverHybrid.hpp:490-553) resets them. -/
structure Stored (K : Type) where
  kind : Kind
  n : Nat
  matrix : Nat → Nat → K

abbrev State (K : Type) := Option (Stored K)

/-- What the iterative solver is run with. -/
structure Run (K : Type) where
  sys : Sys K
  n : Nat
  precN : Nat
  prec : Nat → Nat → K
  guess : Nat → Option K
  maxit : Int

/-- Outcome of the part of a call before the iterations. -/
inductive Res (K : Type) where
  /-- Null pointer `opS_` or `precond_` dereferenced. -/
  | ub
  /-- `std::bad_cast` from `dynamic_cast<Precond&>`. -/
  | badCast
  /-- `std::runtime_error("Unknown linsolver_type")`. -/
  | unknownType
  | run (r : Run K)

/-- `if (do_regularization_) S_[0][0] *= 2` (IncompFlowSolverHybrid.hpp:1382-1384, 1478-1480, 1547-1549, 1611-1613). -/
def regularise (reg : Bool) (s : Sys K) : Sys K :=
  if reg then { s with S := fun i j => if i = 0 ∧ j = 0 then s.S 0 0 * 2 else s.S i j } else s

/-- `(maxit>0)?maxit:S_.N()` (IncompFlowSolverHybrid.hpp:1392, 1505, 1566, 1636). -/
def limit (maxit : Int) (n : Nat) : Int := if 0 < maxit then maxit else n

variable [LinearOrder K]

/-- `isDirichlet` (IncompFlowSolverHybrid.hpp:1514-1517): no nonzero entry off the diagonal. -/
def isolated (s : Sys K) (n i : Nat) : Bool := (List.range n).all fun j => j == i || decide (s.S i j = 0)

/-- First guess of the AMG solvers (IncompFlowSolverHybrid.hpp:1508-1520, 1569-1582, 1639-1651); `none` is a division by
zero. -/
def guess (s : Sys K) (n i : Nat) : Option K :=
  if isolated s n i then Upscale.quot (s.rhs i) (s.S i i) else some 0

/-- `solveLinearSystem` (IncompFlowSolverHybrid.hpp:1370-1408): ILU; always regularises, ignores `same_matrix`. -/
def solveILU (c : Call K) : Res K :=
  let s := regularise (doRegularization c.cells) (assemble c.cells)
  .run ⟨s, c.n, c.n, s.S, fun _ => some 0, limit c.maxit c.n⟩

/-- `solveLinearSystemAMG`, `solveLinearSystemFastAMG`, `solveLinearSystemKAMG` (IncompFlowSolverHybrid.hpp:1464-1662). -/
def solveStored (k : Kind) (st : State K) (c : Call K) : Res K × State K :=
  let a := assemble c.cells
  if c.same then
    match st with
    | none => (.ub, st)
    | some p =>
      if p.kind = k then (.run ⟨a, c.n, p.n, p.matrix, guess a c.n, limit c.maxit c.n⟩, st) else (.badCast, st)
  else
    let s := regularise (doRegularization c.cells) a
    (.run ⟨s, c.n, c.n, s.S, guess s c.n, limit c.maxit c.n⟩, some ⟨k, c.n, s.S⟩)

/-- `solve` up to the iterations (IncompFlowSolverHybrid.hpp:657-694). -/
def solve (st : State K) (c : Call K) : Res K × State K :=
  if c.type = 0 then (solveILU c, st)
  else if c.type = 1 then solveStored .amg st c
  else if c.type = 2 then solveStored .kamg st c
  else if c.type = 3 then solveStored .fastAmg st c
  else (.unknownType, st)

/-- State after a series of calls. A call that ends in an exception leaves the state as it was. -/
def after (h : List (Call K)) : State K := h.foldl (fun st c => (solve st c).2) none

/-- The boundary condition types of the upscalers (UpscalerBase.hpp:68). -/
inductive BCType where
  | fixed | linear | periodic
  deriving DecidableEq

/-- The calls of `solve` in `upscaleEffectivePerm` (UpscalerBase_impl.hpp:240-285): one per direction, with
`same_matrix = (bctype_ != Fixed) && (pdd != 0)`. -/
def upscaleCalls (bct : BCType) (type : Int) (maxit : Int) (n : Nat) {nc : Nat} (cells : Fin 3 → Fin nc → Cell K) :
    List (Call K) :=
  (List.finRange 3).map fun pdd => ⟨nc, cells pdd, n, type, bct != .fixed && pdd != 0, maxit⟩

/-- Outcomes of a series of calls. -/
def outcomes (st : State K) : List (Call K) → List (Res K)
  | [] => []
  | c :: cs => (solve st c).1 :: outcomes (solve st c).2 cs

end Verif.SolverControl
