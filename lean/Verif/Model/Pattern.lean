import Verif.Model.Hybrid
import Verif.Model.Numbering
import Mathlib.Logic.Function.Basic

/-!
Model of the sparsity structure of the pressure system in `opm/porsol/mimetic/IncompFlowSolverHybrid.hpp`: the sizes of the rows, the
positions that are set up, and the assembly with a check that every position exists. The matrix is `Dune::BCRSMatrix` in the build mode
`random`: `addindex` fails if the row is full or the position is outside the matrix, access to a position that does not exist fails.
`none` is a failure or a failing assertion.
-/

namespace Verif.Pattern

open Verif.Numbering

/-- A boundary face with a periodic condition, in the order of iteration: boundary identifier, that of the partner, iteration number of the
cell, local index. -/
structure PFace where
  bid : Nat
  partner : Nat
  cell : Nat
  loc : Nat

/-- `cf[cell][local]`. -/
def dofOf (cf : List (List Nat)) (f : PFace) : Option Nat := cf[f.cell]?.bind fun row => row[f.loc]?

/-- `bdry_id_map_.find` (IncompFlowSolverHybrid.hpp:1069-1078): `insert` keeps the first face with an identifier. -/
def lookup (per : List PFace) (b : Nat) : Option PFace := per.find? fun f => f.bid == b

/-- `ppartner_dof_` (IncompFlowSolverHybrid.hpp:1080-1098). -/
def partners (cf : List (List Nat)) (per : List PFace) : Option (Nat → Option Nat) :=
  (per.mapM fun f => (dofOf cf f).map fun d => (⟨f.bid, f.partner, d⟩ : PerFace)).bind partnerDofs

/-- A coupling over the periodic boundary: `dof1 < dof2` and the faces of the cell of `dof2`. -/
structure Coupling where
  d1 : Nat
  d2 : Nat
  row : List Nat

/-- The couplings, as both loops find them (IncompFlowSolverHybrid.hpp:1170-1187, 1266-1283). -/
def couplings (cf : List (List Nat)) (per : List PFace) : Option (List Coupling) :=
  (per.mapM fun f => (dofOf cf f).bind fun d1 => (lookup per f.partner).bind fun g => (dofOf cf g).bind fun d2 =>
    cf[g.cell]?.map fun row => (⟨d1, d2, row⟩ : Coupling)).map fun l => l.filter fun e => decide (e.d1 < e.d2)

/-- `incrementrowsize`. -/
def incr (s : Nat → Nat) (i k : Nat) : Nat → Nat := Function.update s i (s i + k)

/-- Row sizes of the grid (IncompFlowSolverHybrid.hpp:1117-1119, 1132-1144). -/
def allocGrid (cf : List (List Nat)) : Nat → Nat :=
  cf.foldl (fun s row => row.foldl (fun s f => incr s f (row.length - 1)) s) fun _ => 1

/-- Whether the partner of a face takes its place: `(pp != -1) && (pp != dof1) && (pp < ii)`. -/
def replaced (pp : Nat → Option Nat) (e : Coupling) (ii : Nat) : Option Nat :=
  (pp ii).filter fun p => decide (p ≠ e.d1 ∧ p < ii)

/-- One face of the other cell (IncompFlowSolverHybrid.hpp:1192-1198). -/
def allocFace (pp : Nat → Option Nat) (e : Coupling) (s : Nat → Nat) (ii : Nat) : Nat → Nat :=
  incr ((replaced pp e ii).elim s fun p => incr s p 1) ii 1

/-- `allocateBCConnections` (IncompFlowSolverHybrid.hpp:1147-1206). -/
def allocBC (pp : Nat → Option Nat) (es : List Coupling) (s : Nat → Nat) : Nat → Nat :=
  es.foldl (fun s e => e.row.foldl (allocFace pp e) (incr s e.d1 e.row.length)) s

/-- The calls of `addindex` in `setGridConnections` (IncompFlowSolverHybrid.hpp:1229-1245). -/
def gridPositions (cf : List (List Nat)) : List (Nat × Nat) :=
  cf.flatMap fun row => row.flatMap fun i => row.map fun j => (i, j)

/-- The calls of `addindex` in `setBCConnections` (IncompFlowSolverHybrid.hpp:1285-1298). -/
def bcPositions (pp : Nat → Option Nat) (es : List Coupling) : List (Nat × Nat) :=
  es.flatMap fun e => e.row.flatMap fun ii =>
    let m := (replaced pp e ii).getD ii
    [(e.d1, m), (m, e.d1), (e.d2, m), (m, e.d2)]

/-- `addindex`. -/
def addIndex (n : Nat) (size : Nat → Nat) (P : Nat → List Nat) (ij : Nat × Nat) : Option (Nat → List Nat) :=
  if ij.1 < n ∧ ij.2 < n then
    if ij.2 ∈ P ij.1 then some P
    else if (P ij.1).length < size ij.1 then some (Function.update P ij.1 (ij.2 :: P ij.1))
    else none
  else none

/-- `allocateConnections` and `setConnections` (IncompFlowSolverHybrid.hpp:1103-1129, 1210-1226) for `n` faces. -/
def structureOf (n : Nat) (cf : List (List Nat)) (per : List PFace) : Option (Nat → List Nat) :=
  (partners cf per).bind fun pp => (couplings cf per).bind fun es =>
    (gridPositions cf ++ bcPositions pp es).foldlM (addIndex n (allocBC pp es (allocGrid cf))) fun _ => []

/-! ### Assembly with checked accesses -/

open Verif.Hybrid

variable {K : Type} [Field K]

/-- `S_[i][j] += a`. -/
def add (P : Nat → List Nat) (s : Sys K) (i j : Nat) (a : K) : Option (Sys K) := if j ∈ P i then some (s.add i j a) else none

/-- `rhs_[i] += a`. -/
def addRhs (n : Nat) (s : Sys K) (i : Nat) (a : K) : Option (Sys K) := if i < n then some (s.addRhs i a) else none

/-- `S_[i][i] = a; rhs_[i] = b`. -/
def assign (n : Nat) (P : Nat → List Nat) (s : Sys K) (i : Nat) (a b : K) : Option (Sys K) :=
  if i ∈ P i ∧ i < n then some (s.assign i a b) else none

/-- IncompFlowSolverHybrid.hpp:1868-1885, with the assertions. -/
def addColumn (n : Nat) (P : Nat → List Nat) (c : Cell K) (r : Fin c.nf) (ii : Nat) (s : Sys K) (k : Fin c.nf) : Option (Sys K) :=
  match c.ext k with
  | .dirichlet p => addRhs n s ii (-(c.S r k * p))
  | .periodic d q =>
    if q < n ∧ c.dof k ≠ q then
      if q < c.dof k then (addRhs n s ii (-(c.S r k * d))).bind fun s => add P s ii q (c.S r k) else add P s ii (c.dof k) (c.S r k)
    else none
  | _ => add P s ii (c.dof k) (c.S r k)

/-- IncompFlowSolverHybrid.hpp:1865-1890. -/
def addRow (n : Nat) (P : Nat → List Nat) (c : Cell K) (r : Fin c.nf) (ii : Nat) (s : Sys K) : Option (Sys K) :=
  ((List.finRange c.nf).foldlM (addColumn n P c r ii) s).bind fun s => addRhs n s ii (c.rhs r)

/-- IncompFlowSolverHybrid.hpp:1847-1858. -/
def addPeriodic (n : Nat) (P : Nat → List Nat) (s : Sys K) (ii q : Nat) (a b : K) : Option (Sys K) :=
  (add P s ii ii a).bind fun s => (add P s ii q (-a)).bind fun s => (addRhs n s ii b).bind fun s =>
  (add P s q ii (-a)).bind fun s => (add P s q q a).bind fun s => addRhs n s q (-b)

/-- IncompFlowSolverHybrid.hpp:1824-1891, with the assertions. -/
def faceStep (n : Nat) (P : Nat → List Nat) (c : Cell K) (s : Sys K) (r : Fin c.nf) : Option (Sys K) :=
  match c.ext r with
  | .dirichlet p => assign n P s (c.dof r) (c.S r r) (c.S r r * p)
  | .periodic d q =>
    if q < n ∧ c.dof r ≠ q then
      (addPeriodic n P s (c.dof r) q (c.S r r) (c.S r r * d)).bind fun s => addRow n P c r (min (c.dof r) q) s
    else none
  | _ => addRow n P c r (c.dof r) s

/-- `assembleDynamic` (IncompFlowSolverHybrid.hpp:1310-1367) on the structure `P`. -/
def assemble (n : Nat) (P : Nat → List Nat) {nc : Nat} (cells : Fin nc → Cell K) : Option (Sys K) :=
  (List.finRange nc).foldlM (fun s i => (List.finRange (cells i).nf).foldlM (faceStep n P (cells i)) s) Sys.zero

end Verif.Pattern
