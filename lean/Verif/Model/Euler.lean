import Mathlib.Algebra.Order.Field.Basic
import Mathlib.Algebra.BigOperators.Fin
import Mathlib.Algebra.Order.Floor.Ring

/-!
Model of the explicit transport solver in `opm/porsol/euler`:
`EulerUpstreamResidual_impl.hpp`, `EulerUpstream_impl.hpp`, `CflCalculator.hpp`.

Simplifications
* `double` is a linearly ordered field `K`; a division by zero in IEEE arithmetic is the error `nan`
  (or handled explicitly where the code relies on infinity, see `cflVelocity`).
* Vectors indexed by cell are functions of the cell index together with the number of cells `n`; every
  write is checked against `n` (error `ub`).
* A cell has its index as its position in iteration order. Its faces carry what the code asks the grid
  and the pressure solution for (area, normal, centroid, outflux).
* The boundary condition tables are total functions of the boundary id (their construction is the subject
  of `Verif.Model.Boundary`).
* Failed assertions are the error `ub`.
-/

namespace Verif.Euler

open scoped BigOperators

/-- `ub`: failed assertion or access out of range; `nan`: division by zero; `thrown`: `OPM_THROW`. -/
inductive Err where
  | ub
  | nan
  | thrown
  deriving DecidableEq, Repr

/-- `GI::Vector` (a `Dune::FieldVector<double,3>`). -/
abbrev Vec (K : Type) := Fin 3 → K
/-- A permeability tensor (ReservoirPropertyCommon.hpp:76-80), by entries. -/
abbrev Mat (K : Type) := Fin 3 → Fin 3 → K

section Vectors
variable {K : Type} [Field K]

/-- `inner` (EulerUpstreamResidual_impl.hpp uses the scalar product of `Dune::FieldVector`). -/
def inner (u v : Vec K) : K := ∑ i, u i * v i

/-- `prod(A, v)` (Matrix.hpp:664-681), at the level of entries (storage is modelled in `Verif.Dense`). -/
def matVec (A : Mat K) (v : Vec K) : Vec K := fun i => ∑ j, A i j * v j

/-- `v *= a` for a vector. -/
def scale (a : K) (v : Vec K) : Vec K := fun i => a * v i

/-- `arithAver` on tensors (EulerUpstreamResidual_impl.hpp:58-67, opm/core/utility/Average.hpp:50-60):
half the entry-wise sum. -/
def averMat (A B : Mat K) : Mat K := fun i j => (A i j + B i j) / 2

/-- The interface of `ScalarMobility` and `TensorMobility` used by the residual
(ReservoirPropertyCapillary.hpp:47-74, ReservoirPropertyCapillaryAnisotropicRelperm.hpp:49-98).
`inv` is `none` when the inverse does not exist (the code then produces inf/NaN). -/
structure MobOps (K M : Type) where
  mul : M → Vec K → Vec K
  sum : M → M → M
  aver : M → M → M
  inv : M → Option M

/-- `ScalarMobility` (ReservoirPropertyCapillary.hpp:47-74). -/
def scalarMob [DecidableEq K] : MobOps K K where
  mul m v := scale m v
  sum a b := a + b
  aver a b := (1 / 2) * (a + b)
  inv m := if m = 0 then none else some (1 / m)

end Vectors

/-- Interior face with the index of the neighbouring cell, or boundary face with its boundary id
(`f->boundary()`, `f->neighbourCellIndex()`, `f->boundaryId()`). -/
inductive FaceKind where
  | interior (nb : Nat)
  | boundary (bid : Nat)
  deriving DecidableEq, Repr

/-- What the residual computation reads from a face iterator and from `pressure_sol.outflux(f)`. -/
structure Face (K : Type) where
  kind : FaceKind
  area : K
  normal : Vec K
  centroid : Vec K
  flux : K

/-- What it reads from a cell iterator. -/
structure Cell (K : Type) where
  faces : List (Face K)
  centroid : Vec K
  volume : K

/-- A grid: its cells in iteration order. -/
abbrev Grid (K : Type) := List (Cell K)

/-- `satCond(f)`: a periodic or a Dirichlet saturation condition (BoundaryConditions.hpp:101-137). -/
inductive SatBC (K : Type) where
  | periodic
  | dirichlet (s : K)

/-- The parts of the boundary condition object used here: `satCond` and `getPeriodicPartner`. -/
structure BCs (K : Type) where
  cond : Nat → SatBC K
  partner : Nat → Nat

/-- The parts of the reservoir property object used here. `mob` takes the phase (`false` water, `true` oil),
the cell and the saturation. -/
structure Rock (K M : Type) where
  perm : Nat → Mat K
  mob : Bool → Nat → K → M
  fracFlow : Nat → K → K
  capPress : Nat → K → K
  deltaRho : K

/-- `method_viscous_`, `method_gravity_`, `method_capillary_`. -/
structure Method where
  viscous : Bool
  gravity : Bool
  capillary : Bool

/-- Everything a residual evaluation depends on besides the saturation. `norm` is the Euclidean norm. -/
structure Setup (K M : Type) where
  grid : Grid K
  bcs : BCs K
  rock : Rock K M
  ops : MobOps K M
  gravity : Vec K
  method : Method
  rate : Nat → K
  norm : Vec K → K

section Residual
variable {K M : Type} [Field K] [LinearOrder K]

/-- Is the condition at this boundary id periodic? -/
def BCs.isPeriodic (b : BCs K) (bid : Nat) : Bool :=
  match b.cond bid with
  | .periodic => true
  | .dirichlet _ => false

/-- All faces in iteration order, each with the index of its cell and its local index. -/
def allFaces (g : Grid K) : List (Nat × Nat × Face K) :=
  g.zipIdx.flatMap fun cc => cc.1.faces.zipIdx.map fun ff => (cc.2, ff.2, ff.1)

/-- The boundary faces with a periodic condition, with their id. -/
def periodicEntries (g : Grid K) (b : BCs K) : List (Nat × (Nat × Nat × Face K)) :=
  (allFaces g).filterMap fun e =>
    match e.2.2.kind with
    | .boundary bid => if b.isPeriodic bid then some (bid, e) else none
    | .interior _ => none

/-- `bid_to_face_[bid]` as built by `initFinal` (EulerUpstreamResidual_impl.hpp:389-406): a later face with the
same id overwrites an earlier one. An id without a periodic face is out of range or a default-constructed
iterator (`none`). -/
def bidToFace (g : Grid K) (b : BCs K) (bid : Nat) : Option (Nat × Nat × Face K) :=
  ((periodicEntries g b).reverse.lookup bid)

/-- The other side of a face: cell, saturation there and the (possibly periodic partner) face. -/
structure Other (K : Type) where
  cell : Nat
  sat : K
  nbFace : Face K

/-- The first part of the face loop of `UpdateForCell::operator()`
(EulerUpstreamResidual_impl.hpp:103-134): find `cell[1]`, `cell_sat[1]`, `nbface`, or skip (`none`). -/
def otherSide (S : Setup K M) (sat : Nat → K) (c lf : Nat) (f : Face K) : Except Err (Option (Other K)) :=
  match f.kind with
  | .boundary bid =>
    match S.bcs.cond bid with
    | .periodic =>
      match bidToFace S.grid S.bcs (S.bcs.partner bid) with
      | none => .error .ub
      | some (c1, lf1, nbf) =>
        if c1 = c ∧ lf1 = lf then .error .ub          -- assert(nbface != f)
        else if c = c1 then .error .ub                -- assert(cell[0] != cell[1])
        else if c > c1 then .ok none
        else .ok (some ⟨c1, sat c1, nbf⟩)
    | .dirichlet s => .ok (some ⟨c, s, f⟩)
  | .interior nb =>
    if c = nb then .error .ub
    else if c > nb then .ok none
    else .ok (some ⟨nb, sat nb, f⟩)

/-- `estimateCapPressureGradient` (EulerUpstreamResidual_impl.hpp:495-528). `cap_pressures_[i]` is the capillary
pressure of cell `i` at the current saturation (`computeCapPressures`, 441-449). -/
def capGradient (S : Setup K M) (sat : Nat → K) (c : Nat) (f : Face K) (o : Other K) : Except Err (Vec K) :=
  let zeroGrad : Bool := match f.kind with
    | .boundary bid => !(S.bcs.isPeriodic bid)
    | .interior _ => false
  if zeroGrad then .ok (fun _ => 0) else
    match S.grid[c]?, S.grid[o.cell]? with
    | some cc, some nb =>
      let d0 := S.norm (fun i => cc.centroid i - f.centroid i)
      let d1 := S.norm (fun i => nb.centroid i - o.nbFace.centroid i)
      let cp0 := S.rock.capPress c (sat c)
      let cp1 := S.rock.capPress o.cell (sat o.cell)
      let res : Vec K := fun i => nb.centroid i - o.nbFace.centroid i + f.centroid i - cc.centroid i
      if d0 + d1 = 0 ∨ S.norm res = 0 then .error .nan
      else .ok (scale ((cp1 - cp0) / (d0 + d1)) (fun i => res i / S.norm res))
    | _, _ => .error .ub

/-- `G` (EulerUpstreamResidual_impl.hpp:186-200) from the averaged permeability: also returns `grav_influence`. -/
def gravInfluence (S : Setup K M) (c0 c1 : Nat) : Vec K :=
  scale S.rock.deltaRho (matVec (averMat (S.rock.perm c0) (S.rock.perm c1)) S.gravity)

/-- Upstream selection of the phase mobilities `m_ups[0]`, `m_ups[1]`
(EulerUpstreamResidual_impl.hpp:196-217). -/
def upstreamMobs (S : Setup K M) (s0 : K) (c : Nat) (f : Face K) (o : Other K) : M × M :=
  let gi := gravInfluence S c o.cell
  let G : K := if S.method.gravity then f.area * inner f.normal gi else 0
  let triv : Bool := decide (¬ 0 ≤ G)                    -- false: phase 0, true: phase 1
  let atCell (second : Bool) : Nat × K := if second then (o.cell, o.sat) else (c, s0)
  let ups := atCell (decide (¬ 0 ≤ f.flux))
  let mTriv := S.rock.mob triv ups.1 ups.2
  let signG : K := if triv then 1 else -1
  let gravNontriv := signG * f.area * inner f.normal (S.ops.mul mTriv gi)
  let upsN := atCell (decide (¬ 0 ≤ f.flux + gravNontriv))
  let mNon := S.rock.mob (!triv) upsN.1 upsN.2
  if triv then (mNon, mTriv) else (mTriv, mNon)

/-- Viscous term (EulerUpstreamResidual_impl.hpp:241-250). -/
def viscTerm (S : Setup K M) (f : Face K) (m : M × M) : Except Err K :=
  match S.ops.inv (S.ops.sum m.1 m.2) with
  | none => .error .nan
  | some ti => .ok (inner f.normal (S.ops.mul m.1 (S.ops.mul ti (scale f.flux f.normal))))

/-- Gravity term (EulerUpstreamResidual_impl.hpp:252-262). -/
def gravTerm (S : Setup K M) (c : Nat) (f : Face K) (o : Other K) (m : M × M) : Except Err K :=
  if c ≠ o.cell then
    match S.ops.inv (S.ops.sum m.1 m.2) with
    | none => .error .nan
    | some ti => .ok (f.area * inner f.normal (S.ops.mul m.1 (S.ops.mul ti (S.ops.mul m.2 (gravInfluence S c o.cell)))))
  else .ok 0

/-- Averaged mobilities and capillary term (EulerUpstreamResidual_impl.hpp:220-238, 264-272). The code evaluates
the averaged mobilities also when capillarity is disabled; they are unused then. -/
def capTerm (S : Setup K M) (sat : Nat → K) (s0 : K) (c : Nat) (f : Face K) (o : Other K) : Except Err K :=
  let av := (s0 + o.sat) / 2
  let m0 := S.ops.aver (S.rock.mob false c av) (S.rock.mob false o.cell av)
  let m1 := S.ops.aver (S.rock.mob true c av) (S.rock.mob true o.cell av)
  match S.ops.inv (S.ops.sum m0 m1) with
  | none => .error .nan
  | some ti => do
    let gr ← capGradient S sat c f o
    let ci := matVec (averMat (S.rock.perm c) (S.rock.perm o.cell)) gr
    return f.area * inner f.normal (S.ops.mul m0 (S.ops.mul ti (S.ops.mul m1 ci)))

/-- An optional term: evaluated only when its method flag is set. -/
def optTerm (on : Bool) (t : Except Err K) : Except Err K := if on then t else .ok 0

/-- `dS`: the water flux out of cell `c` through face `f` (EulerUpstreamResidual_impl.hpp:136-272). -/
def waterFlux (S : Setup K M) (sat : Nat → K) (c : Nat) (f : Face K) (o : Other K) : Except Err K := do
  let m := upstreamMobs S (sat c) c f o
  let v ← optTerm S.method.viscous (viscTerm S f m)
  let g ← optTerm S.method.gravity (gravTerm S c f o m)
  let p ← optTerm S.method.capillary (capTerm S sat (sat c) c f o)
  return v + g + p

/-- `r[i] += x` on a cell vector of length `n`. -/
def addAt (n : Nat) (r : Nat → K) (i : Nat) (x : K) : Except Err (Nat → K) :=
  if i < n then .ok (fun j => if j = i then r j + x else r j) else .error .ub

/-- "Modify saturation" (EulerUpstreamResidual_impl.hpp:274-281). -/
def applyFlux (n : Nat) (r : Nat → K) (c c1 : Nat) (dS : K) : Except Err (Nat → K) :=
  if c ≠ c1 then do
    let r ← addAt n r c (-dS)
    addAt n r c1 dS
  else addAt n r c (-dS)

/-- One iteration of the face loop (EulerUpstreamResidual_impl.hpp:98-282). -/
def faceStep (S : Setup K M) (sat : Nat → K) (c : Nat) (r : Nat → K) (e : Face K × Nat) :
    Except Err (Nat → K) := do
  match ← otherSide S sat c e.2 e.1 with
  | none => return r
  | some o =>
    let dS ← waterFlux S sat c e.1 o
    applyFlux S.grid.length r c o.cell dS

/-- Source term (EulerUpstreamResidual_impl.hpp:283-290). -/
def sourceTerm (S : Setup K M) (sat : Nat → K) (c : Nat) : K :=
  if S.rate c < 0 then S.rate c * S.rock.fracFlow c (sat c) else S.rate c

/-- `UpdateForCell::operator()` (EulerUpstreamResidual_impl.hpp:89-291). -/
def updateCell (S : Setup K M) (sat : Nat → K) (r : Nat → K) (c : Nat) : Except Err (Nat → K) := do
  match S.grid[c]? with
  | none => .error .ub
  | some cell =>
    let r ← cell.faces.zipIdx.foldlM (faceStep S sat c) r
    addAt S.grid.length r c (sourceTerm S sat c)

/-- `UpdateLoopBody::operator()` on a range of cells (EulerUpstreamResidual_impl.hpp:338-345). -/
def updateCells (S : Setup K M) (sat : Nat → K) (r : Nat → K) (cells : List Nat) : Except Err (Nat → K) :=
  cells.foldlM (updateCell S sat) r

/-! ### The cell range -/

/-- `cell_iters_` after `initFinal` (EulerUpstreamResidual_impl.hpp:408-416), given its previous content (it is
not cleared): a position for each cell whose counter is a multiple of `min(50, n)`, then the end. -/
def initIters (prev : List Nat) (n : Nat) : List Nat :=
  prev ++ (List.range n).filter (fun c => c % (min 50 n) = 0) ++ [n]

/-- `IndirectRange` (EulerUpstreamResidual_impl.hpp:294-327): indices into `cell_iters_`. -/
structure IRange where
  beg : Nat
  fin : Nat
  deriving DecidableEq, Repr

/-- Constructor (EulerUpstreamResidual_impl.hpp:298-302), with its assertion. -/
def IRange.mk' (iters : List Nat) : Except Err IRange :=
  if 2 ≤ iters.length then .ok ⟨0, iters.length - 1⟩ else .error .ub

/-- Splitting constructor (EulerUpstreamResidual_impl.hpp:304-312): the reduced old range and the new one. -/
def IRange.split (r : IRange) : IRange × IRange :=
  (⟨r.beg, (r.beg + r.fin) / 2⟩, ⟨(r.beg + r.fin) / 2, r.fin⟩)

/-- `is_divisible` (EulerUpstreamResidual_impl.hpp:317-320). -/
def IRange.divisible (r : IRange) : Bool := decide (r.fin - r.beg > 1)

/-- The cells visited by the loop `for (c = begin; c != end; ++c)` between two positions
(EulerUpstreamResidual_impl.hpp:338-345): undefined when the end lies before the beginning. -/
def cellsBetween (b e : Nat) : Except Err (List Nat) :=
  if b ≤ e then .ok ((List.range (e - b)).map (· + b)) else .error .ub

/-- The cells of a range. -/
def IRange.cells (r : IRange) (iters : List Nat) : Except Err (List Nat) :=
  match iters[r.beg]?, iters[r.fin]? with
  | some b, some e => cellsBetween b e
  | _, _ => .error .ub

/-- How `tbb::parallel_for` divides the work: process a range, or split it and go on with both halves. -/
inductive SplitTree where
  | leaf
  | node (l r : SplitTree)

/-- The ranges processed, in some order of execution (left to right), for a splitting tree; only divisible
ranges are split. -/
def leaves (r : IRange) : SplitTree → List IRange
  | .leaf => [r]
  | .node a b => if r.divisible then leaves r.split.1 a ++ leaves r.split.2 b else [r]

/-- `computeResidual` (EulerUpstreamResidual_impl.hpp:457-490), serial build: zero the residual and process
the whole range. -/
def computeResidual (S : Setup K M) (iters : List Nat) (sat : Nat → K) : Except Err (Nat → K) := do
  let rg ← IRange.mk' iters
  let cs ← rg.cells iters
  updateCells S sat (fun _ => 0) cs

/-- Processing a list of ranges one after the other: what a splitting tree amounts to when ranges do not run at the
same time (EulerUpstreamResidual_impl.hpp:484-489). -/
def runRanges (S : Setup K M) (iters : List Nat) (sat : Nat → K) (r : Nat → K) (rs : List IRange) :
    Except Err (Nat → K) :=
  rs.foldlM (fun r rg => do
    let cs ← rg.cells iters
    updateCells S sat r cs) r

/-- `cell_iters_` after `k` calls of `initObj` with the same grid of `n` cells
(EulerUpstreamResidual_impl.hpp:376-417). -/
def itersAfter (n : Nat) : Nat → List Nat
  | 0 => []
  | k + 1 => initIters (itersAfter n k) n

/-! ### Unsynchronised updates

`tbb::parallel_for` runs the bodies of disjoint ranges in different threads; each `residual[i] += x`
(EulerUpstreamResidual_impl.hpp:275-280, 290) is a load and a store. -/

/-- The additions to residual entries a face causes, in order (EulerUpstreamResidual_impl.hpp:274-281). -/
def faceEvents (S : Setup K M) (sat : Nat → K) (c : Nat) (e : Face K × Nat) : Except Err (List (Nat × K)) := do
  match ← otherSide S sat c e.2 e.1 with
  | none => return []
  | some o =>
    let dS ← waterFlux S sat c e.1 o
    return if c ≠ o.cell then [(c, -dS), (o.cell, dS)] else [(c, -dS)]

/-- The additions a cell update performs, in order (EulerUpstreamResidual_impl.hpp:89-291). -/
def cellEvents (S : Setup K M) (sat : Nat → K) (c : Nat) : Except Err (List (Nat × K)) := do
  match S.grid[c]? with
  | none => .error .ub
  | some cell =>
    let l ← cell.faces.zipIdx.mapM (faceEvents S sat c)
    return l.flatten ++ [(c, sourceTerm S sat c)]

/-- A thread: the additions still to do and the value loaded for the first of them, if it has been loaded. -/
structure Thread (K : Type) where
  todo : List (Nat × K)
  reg : Option K

/-- One load or one store of a thread. -/
def threadStep (mem : Nat → K) (t : Thread K) : (Nat → K) × Thread K :=
  match t.todo with
  | [] => (mem, t)
  | (i, x) :: rest =>
    match t.reg with
    | none => (mem, { t with reg := some (mem i) })
    | some v => (fun j => if j = i then v + x else mem j, ⟨rest, none⟩)

/-- Two threads running under a schedule (`false`: the first one steps, `true`: the second one). -/
def runSchedule : List Bool → (Nat → K) × Thread K × Thread K → (Nat → K) × Thread K × Thread K
  | [], s => s
  | false :: sch, (m, a, b) => let r := threadStep m a; runSchedule sch (r.1, r.2, b)
  | true :: sch, (m, a, b) => let r := threadStep m b; runSchedule sch (r.1, a, r.2)

/-! ### `EulerUpstream` -/

/-- `checkAndPossiblyClampSat` (EulerUpstream_impl.hpp:337-352) for one cell. -/
def clampCell (clamp : Bool) (s : K) : Except Err K :=
  if s > 1 ∨ s < 0 then
    if clamp then .ok (max (min s 1) 0)
    else if s > 1 + 1 / 1000 ∨ s < -(1 / 1000) then .error .thrown
    else .ok s
  else .ok s

/-- Result of an operation that modifies a vector in place and may throw: the vector as it is when the
operation ends, and the error if any. -/
structure InPlace (α : Type) where
  val : α
  err : Option Err

/-- The loop of `checkAndPossiblyClampSat` over the cells `i, i+1, …` (EulerUpstream_impl.hpp:337-352): stops at the first
value that throws. -/
def clampLoop (clamp : Bool) : List Nat → (Nat → K) → InPlace (Nat → K)
  | [], s => ⟨s, none⟩
  | i :: is, s =>
    match clampCell clamp (s i) with
    | .ok v => clampLoop clamp is (fun j => if j = i then v else s j)
    | .error e => ⟨s, some e⟩

/-- `checkAndPossiblyClampSat` (EulerUpstream_impl.hpp:337-352; the same code in
ImplicitCapillarity_impl.hpp:233-249). -/
def checkAndClamp (clamp : Bool) (n : Nat) (s : Nat → K) : InPlace (Nat → K) :=
  clampLoop clamp (List.range n) s

/-- `EulerUpstream` object data: `porevol_`, `check_sat_`, `clamp_sat_`, and the residual computer's `cell_iters_`. -/
structure Solver (K M : Type) where
  setup : Setup K M
  iters : List Nat
  porevol : List K
  checkSat : Bool
  clampSat : Bool

/-- The update loop `saturation[i] += dt*residual_[i]/porevol_[i]` (EulerUpstream_impl.hpp:373-376). -/
def updateSat (pv : List K) (dt : K) (res : Nat → K) : List Nat → (Nat → K) → InPlace (Nat → K)
  | [], s => ⟨s, none⟩
  | i :: is, s =>
    match pv[i]? with
    | none => ⟨s, some .ub⟩
    | some p =>
      if p = 0 then ⟨s, some .nan⟩
      else updateSat pv dt res is (fun j => if j = i then s j + dt * res i / p else s j)

/-- `smallTimeStep` (EulerUpstream_impl.hpp:359-388). -/
def smallTimeStep (E : Solver K M) (dt : K) (sat : Nat → K) : InPlace (Nat → K) :=
  match computeResidual E.setup E.iters sat with
  | .error e => ⟨sat, some e⟩
  | .ok res =>
    match updateSat E.porevol dt res (List.range E.setup.grid.length) sat with
    | ⟨s, some e⟩ => ⟨s, some e⟩
    | ⟨s, none⟩ =>
      if E.checkSat || E.clampSat then checkAndClamp E.clampSat E.setup.grid.length s else ⟨s, none⟩

/-- `EulerUpstream::initObj` (EulerUpstream_impl.hpp:119-128): the residual computer's iterators grow, the pore volumes
are recomputed. `poro` is the porosity of a cell. -/
def Solver.initObj (E : Solver K M) (S : Setup K M) (poro : Nat → K) : Solver K M :=
  { E with
    setup := S
    iters := initIters E.iters S.grid.length
    porevol := S.grid.zipIdx.map fun c => c.1.volume * poro c.2 }

end Residual

/-! ### Number of time steps and retries -/

section Steps
variable {K : Type} [Field K] [LinearOrder K] [FloorRing K]

/-- Number of small steps of the first attempt (EulerUpstream_impl.hpp:155-167). The largest `int` is
2^31-1. A zero `cfl_dt` (not above a non-negative `time`) gives an infinite quotient, that is the largest `int`. -/
def firstSteps (minSteps maxSteps : Nat) (cflDt time : K) : Nat :=
  if cflDt > time then minSteps
  else
    let steps : Nat := if cflDt = 0 then 2147483647 else min (⌈time / cflDt⌉.toNat) 2147483647
    min (max steps minSteps) maxSteps

end Steps

section Retry
variable {K S : Type} [Field K]

/-- The inner loop of one attempt (EulerUpstream_impl.hpp:190-196): `q` steps of length `dt`, stopping when a step throws.
`step` is `smallTimeStep` with its other arguments fixed. -/
def attempt (step : K → S → S × Bool) (dt : K) : Nat → S → S × Bool
  | 0, s => (s, true)
  | q + 1, s =>
    match step dt s with
    | (s', true) => attempt step dt q s'
    | (s', false) => (s', false)

/-- What `transportSolve` does: final saturation, whether it returned normally (otherwise it rethrew), the number
of steps of each attempt made. -/
structure SolveResult (S : Type) where
  sat : S
  ok : Bool
  tries : List Nat

/-- The `while (!finished)` loop (EulerUpstream_impl.hpp:183-209). `fuel` is `max_repeats - repeats`: a failure
with no repeats left is rethrown with the saturation as it is then; otherwise the number of steps is doubled
and the initial saturation restored. -/
def solveLoop (step : K → S → S × Bool) (time : K) (init : S) : Nat → Nat → S → SolveResult S
  | fuel, n, s =>
    match attempt step (time / n) n s with
    | (s', true) => ⟨s', true, [n]⟩
    | (s', false) =>
      match fuel with
      | 0 => ⟨s', false, [n]⟩
      | fuel + 1 =>
        let r := solveLoop step time init fuel (2 * n) init
        { r with tries := n :: r.tries }

/-- `transportSolve` (EulerUpstream_impl.hpp:151-217) after the number of steps is known, `max_repeats = 10`. -/
def transportSolve (step : K → S → S × Bool) (time : K) (n : Nat) (s : S) : SolveResult S :=
  solveLoop step time s 10 n s

end Retry

/-! ### CFL limits -/

section Cfl
variable {K : Type} [Field K] [LinearOrder K]

/-- Positive and negative flux sums of a cell (CflCalculator.hpp:62-73). -/
def fluxPN (faces : List (Face K)) : K × K :=
  faces.foldl (fun a f => if f.flux > 0 then (a.1 + f.flux, a.2) else (a.1, a.2 - f.flux)) (0, 0)

/-- One cell of `findCFLtimeVelocity` (CflCalculator.hpp:60-81). A zero flux gives an infinite (or, with a zero numerator,
NaN) `loc_dt`, which leaves `dt` as it is. -/
def cflVelocityStep (factor : K) (poro : Nat → K) (dt : K) (c : Cell K × Nat) : Except Err K :=
  let pn := fluxPN c.1.faces
  let flux := max pn.2 pn.1
  if flux = 0 then .ok dt
  else
    let loc := factor * c.1.volume * poro c.2 / flux
    if loc = 0 then .error .thrown
    else if loc < dt then .ok loc else .ok dt

/-- `findCFLtimeVelocity` (CflCalculator.hpp:54-83); `big` is the initial value 1e100. -/
def cflVelocity (big factor : K) (poro : Nat → K) (g : Grid K) : Except Err K :=
  g.zipIdx.foldlM (cflVelocityStep factor poro) big

/-- `computeCflTime` (EulerUpstream_impl.hpp:264-331) from the three limits, each 1e99 (`big`) when its term or
its limit is disabled. -/
def cflTime (big courant : K) (v g c : Option K) : K :=
  min (min (v.getD big) (g.getD big)) (c.getD big) * courant

end Cfl

end Verif.Euler
