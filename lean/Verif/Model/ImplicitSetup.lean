import Verif.Model.Implicit
import Mathlib.Logic.Function.Basic

/-!
Model of the boundary set-up of the implicit transport solver: `initObj` (opm/porsol/euler/EulerUpstreamImplicit_impl.hpp:97-217), the source of
`transportSolve` (same file, 256-260, 280-286) and `makefhfQPeriodic` (opm/core/transport/implicit/SinglePointUpwindTwoPhase.hpp:306-343).
`none` is a failing assertion or an access outside a container. Cells are visited in the order of their indices.
-/

namespace Verif.ImplicitSetup

open Verif.Implicit

variable {K : Type}

/-- What the boundary conditions say about a boundary face: its identifier, whether the saturation condition is periodic, the partner, the
prescribed flux of a Neumann condition for the flow, and the prescribed saturation. -/
structure Bnd (K : Type) where
  bid : Nat
  periodic : Bool
  partner : Nat
  neumann : Option K
  sat : K

/-- A face as the grid interface shows it: index and, on the boundary, its conditions. -/
structure EFace (K : Type) where
  idx : Nat
  bnd : Option (Bnd K)

/-- The half faces in the order of iteration: cell, local number, face; the position is `hf_ind`. -/
def halves (nc : Nat) (cells : Nat → List (EFace K)) : List (Nat × Nat × EFace K) :=
  (List.range nc).flatMap fun c => (cells c).zipIdx.map fun q => (c, q.2, q.1)

/-- `mygrid_.cellFace(c, l)`: an entry of `cell_faces` counted from the beginning of the cell. -/
def cellFace (g : Grid) (c l : Nat) : Option Nat := (g.halfFaces[g.facepos c + l]?).map Prod.snd

/-- `egf_cf` (EulerUpstreamImplicit_impl.hpp:131-145). -/
def faceMap (g : Grid) (cells : Nat → List (EFace K)) : Option (Nat → Nat) :=
  (halves g.nc cells).foldlM (fun t q => (cellFace g q.1 q.2.1).bind fun x =>
    if q.2.2.idx < g.nf then some (Function.update t q.2.2.idx x) else none) fun _ => 0

/-- A periodic face is entered under its identifier (EulerUpstreamImplicit_impl.hpp:136-138). -/
def register (t : Nat → Option Nat) (q : (Nat × Nat × EFace K) × Nat) : Nat → Option Nat :=
  match q.1.2.2.bnd with
  | some b => if b.periodic then Function.update t b.bid (some q.2) else t
  | none => t

/-- `bid_to_face` (EulerUpstreamImplicit_impl.hpp:120-145): the last periodic face with an identifier, as number of a half face. -/
def byId (nc : Nat) (cells : Nat → List (EFace K)) : Nat → Option Nat := ((halves nc cells).zipIdx).foldl register fun _ => none

/-- An entry of `periodic_cells_`, `periodic_faces_`, `periodic_hfaces_` and `periodic_nbfaces_`. -/
structure Per where
  c0 : Nat
  c1 : Nat
  f : Nat
  hf : Nat
  nb : Nat
  deriving DecidableEq

/-- An entry of `direclet_cells_`, `direclet_sat_` and `direclet_hfaces_`. -/
structure Dir (K : Type) where
  cell : Nat
  sat : K
  hf : Nat
  deriving DecidableEq

/-- The assertions about the cells of a boundary face (EulerUpstreamImplicit_impl.hpp:182-185). -/
def sides (g : Grid) (x c : Nat) : Bool :=
  (decide ((g.faceCells x).1 = -1) || decide ((g.faceCells x).2 = -1)) && (decide ((g.faceCells x).1 = c) || decide ((g.faceCells x).2 = c))

variable [Field K] [DecidableEq K]

/-- One face (EulerUpstreamImplicit_impl.hpp:165-197). -/
def visit (g : Grid) (cells : Nat → List (EFace K)) (m : Nat → Nat) (ids : Nat → Option Nat) (s : List Per × List (Dir K))
    (q : (Nat × Nat × EFace K) × Nat) : Option (List Per × List (Dir K)) :=
  match q.1.2.2.bnd with
  | none => some s
  | some b =>
    if b.periodic then
      (ids b.partner).bind fun h' => (halves g.nc cells)[h']?.bind fun r =>
        let x := m q.1.2.2.idx
        let y := m r.2.2.idx
        if h' ≠ q.2 ∧ q.1.1 ≠ r.1 ∧ sides g x q.1.1 ∧ sides g y r.1 then some (s.1 ++ [⟨q.1.1, r.1, x, q.2, y⟩], s.2) else none
    else if b.neumann = some 0 then some s
    else some (s.1, s.2 ++ [⟨q.1.1, b.sat, q.2⟩])

/-- Fractional flow of the boundary saturation (EulerUpstreamImplicit_impl.hpp:205-214); `mob` gives the mobilities of a cell. -/
def fractional (mob : Nat → K → K × K) (d : Dir K) : Option (Dir K) :=
  let m := mob d.cell d.sat
  if m.1 + m.2 = 0 then none else some { d with sat := m.1 / (m.1 + m.2) }

/-- `initObj`, without pore volumes and transmissibilities. -/
def initObj (g : Grid) (cells : Nat → List (EFace K)) (mob : Nat → K → K × K) : Option (List Per × List (Dir K)) :=
  (faceMap g cells).bind fun m =>
    ((halves g.nc cells).zipIdx.foldlM (visit g cells m (byId g.nc cells)) ([], [])).bind fun s =>
      (s.2.mapM (fractional mob)).map fun d => (s.1, d)

/-- `mygrid_.makeQPeriodic` (called in EulerUpstreamImplicit_impl.hpp:201) belongs to another library: it puts the cell across the boundary in
the empty place of the face of each listed half face. -/
def fill (g : Grid) (per : List Per) : Grid :=
  { g with faceCells := fun x => match per.find? (fun p => p.f == x) with
    | none => g.faceCells x
    | some p => if (g.faceCells x).1 = -1 then ((p.c1 : Int), (g.faceCells x).2) else ((g.faceCells x).1, (p.c1 : Int)) }

/-- The sources of the transport solver: cell, rate and fractional flow (EulerUpstreamImplicit_impl.hpp:256-260, 280-286). -/
def sources (outflux : Nat → K) (ds : List (Dir K)) : List (Nat × K × K) := ds.map fun d => (d.cell, -outflux d.hf, d.sat)

/-- The half face of a partner (SinglePointUpwindTwoPhase.hpp:319-326); `nf` is the number of faces. -/
def partnerHalf (nf : Nat) (t : Nat → Int) (nb : Nat) : Option Int :=
  if 2 * nb + 1 < 2 * nf ∧ xor (decide (t (2 * nb) < 0)) (decide (t (2 * nb + 1) < 0)) then
    some (t (2 * nb + if t (2 * nb) < 0 then 1 else 0))
  else none

/-- The second loop (SinglePointUpwindTwoPhase.hpp:329-342). -/
def enter (nf : Nat) (t : Nat → Int) (q : Per × Int) : Option (Nat → Int) :=
  if 2 * q.1.f + 1 < 2 * nf ∧ xor (decide (t (2 * q.1.f) < 0)) (decide (t (2 * q.1.f + 1) < 0)) ∧
      xor (decide (t (2 * q.1.f) = q.1.hf)) (decide (t (2 * q.1.f + 1) = q.1.hf)) then
    some (Function.update t (2 * q.1.f + if t (2 * q.1.f) = q.1.hf then 1 else 0) q.2)
  else none

/-- `makefhfQPeriodic` (SinglePointUpwindTwoPhase.hpp:306-343). -/
def makeTable (nf : Nat) (t : Nat → Int) (per : List Per) : Option (Nat → Int) :=
  (per.mapM fun p => partnerHalf nf t p.nb).bind fun n => (per.zip n).foldlM (enter nf) t

end Verif.ImplicitSetup
