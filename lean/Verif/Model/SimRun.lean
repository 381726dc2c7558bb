import Verif.Model.Euler
import Verif.Model.SimSetup

/-!
Model of the test simulators:

* `/repo/examples/SimulatorTesterFlexibleBC.hpp` lines 54-137 (`initSources`, `isInside`, `setSourceBlock`): blocks of the reservoir in which fluid is
  injected or produced;
* `/repo/examples/SimulatorTester.hpp` lines 59-106 (`run`): the loop over the time steps, with its output;
* how the explicit transport solver reads the rates (`/repo/opm/porsol/euler/EulerUpstreamResidual_impl.hpp` line 278).

`Opm::SparseVector` belongs to the library opm-common. Its contract: `addElement` appends a value with its index; assertions demand that the index is larger
than the last one and smaller than the size; `element` looks an index up with `std::lower_bound` in the list of indices. Whether assertions are compiled in is
a parameter. The pressure solver is a function that may fail; the explicit transport solver is the one of `Verif.Model.Euler`. The number of small steps that it
starts with depends on the solution and the saturations in some way (modelled in `Verif.Model.Euler` and `Verif.Model.CflLimits`).
-/

namespace Verif.SimRun

open Verif.SimSetup

variable {K : Type} [Field K] [LinearOrder K]

/-- How a call ends if not normally: an exception, or a failed assertion (or access out of range). -/
inductive Err where
  | thrown
  | ub
  deriving DecidableEq, Repr

/-- `Opm::SparseVector`: size, indices and values in the order they were added. -/
structure Sparse (K : Type) where
  size : Nat
  idx : List Nat
  val : List K
  deriving DecidableEq, Repr

/-- `addElement` (used in SimulatorTesterFlexibleBC.hpp:132) with the library's assertions, if they are compiled in. -/
def Sparse.add (asserts : Bool) (v : Sparse K) (x : K) (i : Nat) : Except Err (Sparse K) :=
  if asserts && !(v.idx.getLast?.all (fun j => decide (j < i)) && decide (i < v.size)) then .error .ub
  else .ok { v with idx := v.idx ++ [i], val := v.val ++ [x] }

/-- `std::lower_bound` on a list of indices: `first` and the length of the part that is left; `fuel` is at least that length. -/
def lowerBound (a : List Nat) (x : Nat) : Nat → Nat → Nat → Nat
  | 0, first, _ => first
  | fuel + 1, first, len =>
    if len = 0 then first
    else if a.getD (first + len / 2) 0 < x then lowerBound a x fuel (first + len / 2 + 1) (len - len / 2 - 1)
    else lowerBound a x fuel first (len / 2)

/-- `element` (used in EulerUpstreamResidual_impl.hpp:278). -/
def Sparse.get (v : Sparse K) (i : Nat) : K :=
  let k := lowerBound v.idx i v.idx.length 0 v.idx.length
  if v.idx[k]? = some i then v.val.getD k 0 else 0

/-- What `setSourceBlock` reads from a cell. -/
structure Cell (K : Type) where
  centroid : Fin 3 → K
  volume : K

/-- The two members that hold the rates: `injection_rates_` for the transport solver and `injection_rates_psolver_` for the pressure solver
(SimulatorBase.hpp:142-143). -/
structure Rates (K : Type) where
  transport : Sparse K
  pressure : List K
  deriving DecidableEq, Repr

/-- `isInside` (SimulatorTesterFlexibleBC.hpp:108-116). -/
def isInside (low high pt : Fin 3 → K) : Bool :=
  decide (low 0 < pt 0) && decide (low 1 < pt 1) && decide (low 2 < pt 2) &&
    decide (high 0 > pt 0) && decide (high 1 > pt 1) && decide (high 2 > pt 2)

/-- One cell of the loop in `setSourceBlock` (SimulatorTesterFlexibleBC.hpp:124-135); a cell's index is its position. -/
def blockStep (asserts : Bool) (low high : Fin 3 → K) (density : K) (inj : Bool) (st : Rates K × K) (c : Cell K × Nat) : Except Err (Rates K × K) :=
  if isInside low high c.1.centroid then
    let r0 := density * c.1.volume
    let rate := if inj then r0 else -r0
    match st.1.transport.add asserts rate c.2 with
    | .error e => .error e
    | .ok t => if c.2 < st.1.pressure.length then .ok (⟨t, st.1.pressure.set c.2 rate⟩, st.2 + rate) else .error .ub
  else .ok st

/-- `setSourceBlock` (SimulatorTesterFlexibleBC.hpp:118-137): the rates and the total. -/
def sourceBlock (asserts : Bool) (cells : List (Cell K)) (low high : Fin 3 → K) (density : K) (inj : Bool) (r : Rates K) : Except Err (Rates K × K) :=
  cells.zipIdx.foldlM (blockStep asserts low high density inj) (r, 0)

/-- The parameters of a block: `has_inj_block`, `inj_block_low_x` …, `inj_block_high_x` …, `inj_block_density`; the same with `prod`. -/
structure Block (K : Type) where
  present : Option Bool
  lowX : Option K
  lowY : Option K
  lowZ : Option K
  highX : Option K
  highY : Option K
  highZ : Option K
  density : Option K

/-- The part of `initSources` for one block (SimulatorTesterFlexibleBC.hpp:67-80 and 81-94): nothing without the switch, an exception without density. -/
def initBlock (asserts : Bool) (cells : List (Cell K)) (b : Block K) (inj : Bool) (r : Rates K) : Except Err (Rates K × K) :=
  if b.present.getD false then
    match b.density with
    | none => .error .thrown
    | some d => sourceBlock asserts cells (vec3 (b.lowX.getD 0) (b.lowY.getD 0) (b.lowZ.getD 0)) (vec3 (b.highX.getD 1) (b.highY.getD 1) (b.highZ.getD 1)) d inj r
  else .ok (r, 0)

/-- What `initSources` leaves: the rates and the two totals that it prints. -/
structure Sources (K : Type) where
  rates : Rates K
  totalInj : K
  totalProd : K
  deriving DecidableEq, Repr

/-- `initSources` (SimulatorTesterFlexibleBC.hpp:54-99); `old` is `injection_rates_psolver_` before. -/
def initSources (asserts : Bool) (cells : List (Cell K)) (inj prod : Block K) (old : List K) : Except Err (Sources K) :=
  match initBlock asserts cells inj true ⟨⟨cells.length, [], []⟩, Boundary.resizeList old cells.length 0⟩ with
  | .error e => .error e
  | .ok (r1, ti) =>
    match initBlock asserts cells prod false r1 with
    | .error e => .error e
    | .ok (r2, tp) => .ok ⟨r2, ti, tp⟩

/-! ### The loop over the steps -/

/-- The largest change of saturation (SimulatorTester.hpp:96-100). -/
def maxDiff (n : Nat) (s old : Nat → K) : K := (List.range n).foldl (fun m c => max m |s c - old c|) 0

/-- What a step leaves: the file with solution and saturations, the file with saturations, and the number that is printed. -/
structure Out (F K : Type) where
  vtk : String
  field : String
  solution : F
  sat : Nat → K
  change : K

/-- The loop of `run` (SimulatorTester.hpp:73-105) with `fuel` steps left: what has been written, and the final saturations unless a solver failed. -/
def loop {F : Type} (flow : (Nat → K) → Option F) (transport : F → (Nat → K) → Option (Nat → K)) (n : Nat) :
    Nat → Nat → (Nat → K) → (Nat → K) → List (Out F K) × Option (Nat → K)
  | 0, _, s, _ => ([], some s)
  | fuel + 1, i, s, old =>
    match flow s with
    | none => ([], none)
    | some f =>
      match transport f s with
      | none => ([], none)
      | some s' =>
        let r := loop flow transport n fuel (i + 1) s' s'
        (⟨"testsolution-" ++ toString i, "saturation-" ++ toString i, f, s', maxDiff n s' old⟩ :: r.1, r.2)

/-- `run` (SimulatorTester.hpp:59-106). -/
def run {F : Type} (flow : (Nat → K) → Option F) (transport : F → (Nat → K) → Option (Nat → K)) (n : Nat) (steps : Int) (init : Nat → K) :
    List (Out F K) × Option (Nat → K) :=
  loop flow transport n steps.toNat 0 init init

/-- The explicit transport solver as it is called in line 83: `solver f` is the solver with the fluxes of the solution `f`, `first` the number of small steps it
starts with. A rethrown exception ends the program. -/
def explicitStep {F M : Type} (solver : F → Euler.Solver K M) (first : F → (Nat → K) → Nat) (stepsize : K) (f : F) (s : Nat → K) : Option (Nat → K) :=
  let r := Euler.transportSolve (fun dt t => let q := Euler.smallTimeStep (solver f) dt t; (q.val, q.err.isNone)) stepsize (first f s) s
  if r.ok then some r.sat else none

/-- The solver with the rates of the simulator (EulerUpstreamResidual_impl.hpp:278, 463-473). -/
def withRates {M : Type} (E : Euler.Solver K M) (v : Sparse K) : Euler.Solver K M := { E with setup := { E.setup with rate := v.get } }

end Verif.SimRun
