import Mathlib.Algebra.BigOperators.Fin
import Mathlib.Algebra.Order.Field.Basic
import Mathlib.Algebra.Order.Group.Abs

/-!
Model of the assembly, the recovery of fluxes and the flux post-processing of
`opm/porsol/mimetic/IncompFlowSolverHybrid.hpp`.

The iterators are replaced by the data they give: cells in iteration order, faces in the order of their local index (the
code uses the iteration counter and `localIndex()` interchangeably). The inverse inner product of a cell and its gravity flux
are data (they are modelled in `Verif.Model.MimeticIP`, property C36). The sparse system matrix is a function of row and
column that is zero outside its pattern; that the pattern covers the assembled entries is property C103. The iterative linear
solvers are not modelled: face pressures are a parameter. Quotients by `L_` are field quotients; the theorems have hypotheses
under which `L_` is not zero.
-/

namespace Verif.Hybrid

variable {K : Type} [Field K]

/-- What `setExternalContrib` finds out about a face: interior, or the kind of boundary condition. For a periodic face
`partner` is the face number of the partner. -/
inductive Ext (K : Type) where
  | interior
  | dirichlet (pressure : K)
  | periodic (difference : K) (partner : Nat)
  | neumann (outflux : K)

/-- One cell: number of faces, global face numbers (`cellFaces_`), inverse inner product, gravity flux, source, faces. -/
structure Cell (K : Type) where
  nf : Nat
  dof : Fin nf → Nat
  Binv : Fin nf → Fin nf → K
  gflux : Fin nf → K
  src : K
  ext : Fin nf → Ext K

/-- `rhs[k]` after `setExternalContrib` (IncompFlowSolverHybrid.hpp:1732-1775): the prescribed flux of Neumann faces. -/
def extRhs : Ext K → K
  | .neumann q => q
  | _ => 0

namespace Cell

/-- `F_[c]`: transposed matrix times ones (IncompFlowSolverHybrid.hpp:1789-1790). -/
def F (c : Cell K) (j : Fin c.nf) : K := ∑ i, c.Binv i j * 1

/-- `L_[c]` (IncompFlowSolverHybrid.hpp:1792). -/
def L (c : Cell K) : K := ∑ j, c.F j

/-- `g_[c]`: the source minus the gravity fluxes (IncompFlowSolverHybrid.hpp:1750, 1793). -/
def g (c : Cell K) : K := c.src - ∑ i, c.gflux i

/-- `S` after `buildCellContrib` (IncompFlowSolverHybrid.hpp:1804): a rank one update of the upper triangle, mirrored
(`symmetricUpdate`, property C02). -/
def S (c : Cell K) (i j : Fin c.nf) : K :=
  if i ≤ j then c.Binv i j + -1 / c.L * (c.F i * c.F j) else c.Binv j i + -1 / c.L * (c.F j * c.F i)

/-- `rhs` after `buildCellContrib` (IncompFlowSolverHybrid.hpp:1795-1801). -/
def rhs (c : Cell K) (i : Fin c.nf) : K := 1 * (c.gflux i - extRhs (c.ext i)) + c.g / c.L * c.F i

/-- Cell pressure in `computePressureAndFluxes` (IncompFlowSolverHybrid.hpp:1694-1703) for the face pressures `x`. -/
def pressure (c : Cell K) (x : Nat → K) : K := (c.g + ∑ i, c.F i * x (c.dof i)) / c.L

/-- Fluxes in `computePressureAndFluxes` (IncompFlowSolverHybrid.hpp:1705-1723). -/
def flux (c : Cell K) (x : Nat → K) (i : Fin c.nf) : K :=
  c.gflux i + ∑ j, c.Binv i j * (c.pressure x - x (c.dof j))

end Cell

/-- Global matrix and right-hand side. -/
structure Sys (K : Type) where
  S : Nat → Nat → K
  rhs : Nat → K

def Sys.zero : Sys K := ⟨fun _ _ => 0, fun _ => 0⟩

/-- `S_[i][j] += a`. -/
def Sys.add (s : Sys K) (i j : Nat) (a : K) : Sys K :=
  { s with S := fun k l => if k = i ∧ l = j then s.S k l + a else s.S k l }

/-- `rhs_[i] += a`. -/
def Sys.addRhs (s : Sys K) (i : Nat) (a : K) : Sys K := { s with rhs := fun k => if k = i then s.rhs k + a else s.rhs k }

/-- `S_[i][i] = a; rhs_[i] = b`. -/
def Sys.assign (s : Sys K) (i : Nat) (a b : K) : Sys K :=
  { S := fun k l => if k = i ∧ l = i then a else s.S k l, rhs := fun k => if k = i then b else s.rhs k }

/-- One column in the inner loop of `addCellContrib` (IncompFlowSolverHybrid.hpp:1868-1885). -/
def addColumn (c : Cell K) (r : Fin c.nf) (ii : Nat) (s : Sys K) (k : Fin c.nf) : Sys K :=
  match c.ext k with
  | .dirichlet p => s.addRhs ii (-(c.S r k * p))
  | .periodic d q =>
    if q < c.dof k then (s.addRhs ii (-(c.S r k * d))).add ii q (c.S r k) else s.add ii (c.dof k) (c.S r k)
  | _ => s.add ii (c.dof k) (c.S r k)

/-- The default branch and the final statement of the loop over rows (IncompFlowSolverHybrid.hpp:1865-1890). -/
def addRow (c : Cell K) (r : Fin c.nf) (ii : Nat) (s : Sys K) : Sys K :=
  ((List.finRange c.nf).foldl (addColumn c r ii) s).addRhs ii (c.rhs r)

/-- The equations of a periodic face (IncompFlowSolverHybrid.hpp:1847-1858). -/
def addPeriodic (s : Sys K) (ii q : Nat) (a b : K) : Sys K :=
  ((((((s.add ii ii a).add ii q (-a)).addRhs ii b).add q ii (-a)).add q q a).addRhs q (-b))

/-- One row in `addCellContrib` (IncompFlowSolverHybrid.hpp:1824-1891). -/
def faceStep (c : Cell K) (s : Sys K) (r : Fin c.nf) : Sys K :=
  match c.ext r with
  | .dirichlet p => s.assign (c.dof r) (c.S r r) (c.S r r * p)
  | .periodic d q =>
    addRow c r (min (c.dof r) q) (addPeriodic s (c.dof r) q (c.S r r) (c.S r r * d))
  | _ => addRow c r (c.dof r) s

/-- `assembleDynamic` (IncompFlowSolverHybrid.hpp:1310-1367). -/
def assemble {nc : Nat} (cells : Fin nc → Cell K) : Sys K :=
  (List.finRange nc).foldl (fun s i => (List.finRange (cells i).nf).foldl (faceStep (cells i)) s) Sys.zero

/-- No pressure is prescribed on a face. -/
def notDirichlet : Ext K → Bool
  | .dirichlet _ => false
  | _ => true

/-- `do_regularization_` after assembly (IncompFlowSolverHybrid.hpp:1340, 1759). -/
def doRegularization {nc : Nat} (cells : Fin nc → Cell K) : Bool :=
  (List.finRange nc).all fun i => (List.finRange (cells i).nf).all fun r => notDirichlet ((cells i).ext r)

/-- The system that is handed to the linear solver (IncompFlowSolverHybrid.hpp:1383-1385, 1481, 1549, 1613). -/
def linearSystem {nc : Nat} (cells : Fin nc → Cell K) : Sys K :=
  let s := assemble cells
  if doRegularization cells then
    { s with S := fun i j => if i = 0 ∧ j = 0 then s.S 0 0 * 2 else s.S i j }
  else s

/-! ### Post-processing of fluxes -/

/-- One face of one cell, in iteration order: face number, interior or not, out-flux. -/
structure Entry (K : Type) where
  f : Nat
  boundary : Bool
  flux : K

/-- `FaceFluxes` (IncompFlowSolverHybrid.hpp:700-736). -/
structure FaceFluxes (K : Type) where
  fluxes : Nat → K
  visited : Nat → Nat
  maxMod : K

/-- `put` (IncompFlowSolverHybrid.hpp:707-712); `none` is the failing assertion. -/
def FaceFluxes.put (s : FaceFluxes K) (flux : K) (f : Nat) : Option (FaceFluxes K) :=
  if s.visited f = 0 ∨ s.visited f = 1 then
    let sign : K := if s.visited f ≠ 0 then -1 else 1
    some { s with
      fluxes := fun k => if k = f then s.fluxes k + sign * flux else s.fluxes k
      visited := fun k => if k = f then s.visited k + 1 else s.visited k }
  else none

variable [LinearOrder K]

/-- `get` (IncompFlowSolverHybrid.hpp:713-721): new flux and state. -/
def FaceFluxes.get (s : FaceFluxes K) (flux : K) (f : Nat) : Option (K × FaceFluxes K) :=
  if s.visited f = 0 ∨ s.visited f = 1 then
    let sign : K := if s.visited f ≠ 0 then -1 else 1
    let new := 1 / 2 * sign * s.fluxes f
    some (new, { s with
      maxMod := max s.maxMod |flux - new|
      visited := fun k => if k = f then s.visited k + 1 else s.visited k })
  else none

/-- First pass for one face (IncompFlowSolverHybrid.hpp:759-774); `pp` is `ppartner_dof_`, `none` if it is empty; its values
are `none` for -1. -/
def putEntry (pp : Option (Nat → Option Nat)) (s : FaceFluxes K) (e : Entry K) : Option (FaceFluxes K) :=
  if e.boundary then
    match pp with
    | none => some s
    | some p =>
      match p e.f with
      | none => some s
      | some q => (s.put e.flux e.f).bind fun s => s.put e.flux q
  else s.put e.flux e.f

/-- Second pass for one face (IncompFlowSolverHybrid.hpp:780-797). -/
def getEntry (pp : Option (Nat → Option Nat)) (st : List K × FaceFluxes K) (e : Entry K) :
    Option (List K × FaceFluxes K) :=
  if e.boundary then
    match pp with
    | none => some (st.1 ++ [e.flux], st.2)
    | some p =>
      match p e.f with
      | none => some (st.1 ++ [e.flux], st.2)
      | some q =>
        (st.2.get e.flux e.f).bind fun r =>
          (r.2.get r.1 q).bind fun r' => if r'.1 = r.1 then some (st.1 ++ [r.1], r'.2) else none
  else (st.2.get e.flux e.f).map fun r => (st.1 ++ [r.1], r.2)

/-- `postProcessFluxes` (IncompFlowSolverHybrid.hpp:747-801) for the faces of all cells in iteration order: new fluxes and
returned value. -/
def postProcess (pp : Option (Nat → Option Nat)) (es : List (Entry K)) : Option (List K × K) :=
  (es.foldlM (putEntry pp) ⟨fun _ => 0, fun _ => 0, 0⟩).bind fun s =>
    (es.foldlM (getEntry pp) ([], { s with visited := fun _ => 0 })).map fun r => (r.1, r.2.maxMod)

end Verif.Hybrid
