import Mathlib.Data.List.Sort

/-!
Model of `topologyIsSane`, `enumerateGridDof` and `enumerateBCDof` of
`opm/porsol/mimetic/IncompFlowSolverHybrid.hpp`. `none` is a failing assertion or an access out of bounds.
-/

namespace Verif.Numbering

/-- What the iterators of the grid give: cell indices in iteration order, and for every cell index its faces in the order of
the local index: the index of the neighbour, or `none` on the boundary. -/
structure Grid where
  order : List Nat
  nbrs : Nat → List (Option Nat)

/-- `std::unique`: keep the first of every run of equal elements. -/
def unique : List Nat → List Nat
  | [] => []
  | [x] => [x]
  | x :: y :: l => if x = y then unique (y :: l) else x :: unique (y :: l)

/-- `topologyIsSane` (IncompFlowSolverHybrid.hpp:107-130): `unique` of the sorted neighbours of a cell does not shorten the list.
`numberOfCells() >= 0` holds in the model. -/
def topologyIsSane (g : Grid) : Bool := g.order.all fun c =>
  let n := ((g.nbrs c).filterMap id).insertionSort (· ≤ ·)
  decide ((unique n).length = n.length)

/-- State of the first pass. -/
structure Pass1 where
  cell : Nat → Option Nat
  cellno : Nat
  faces : List Nat
  fpos : List Nat
  numCf : Nat → Nat
  maxNcf : Nat

/-- One face in the first pass (IncompFlowSolverHybrid.hpp:973-985). -/
def face1 (nc c0 : Nat) (s : Pass1) (f : Option Nat) : Option Pass1 :=
  match f with
  | none => some { s with numCf := fun k => if k = c0 then s.numCf k + 1 else s.numCf k }
  | some c1 =>
    if c1 < nc ∧ c1 ≠ c0 then
      some { s with
        faces := if s.cell c1 = none then s.faces ++ [c1] else s.faces
        numCf := fun k => if k = c0 then s.numCf k + 1 else s.numCf k }
    else none

/-- One cell in the first pass (IncompFlowSolverHybrid.hpp:965-991). -/
def cell1 (g : Grid) (nc : Nat) (s : Pass1) (c0 : Nat) : Option Pass1 :=
  if c0 < nc ∧ s.cell c0 = none then
    ((g.nbrs c0).foldlM (face1 nc c0) { s with cell := fun k => if k = c0 then some s.cellno else s.cell k }).map fun s =>
      { s with fpos := s.fpos ++ [s.faces.length], maxNcf := max s.maxNcf (s.numCf c0), cellno := s.cellno + 1 }
  else none

/-- The first pass (IncompFlowSolverHybrid.hpp:961-992); `nc` is the number of cells. -/
def pass1 (g : Grid) : Option Pass1 :=
  g.order.foldlM (cell1 g g.order.length) ⟨fun _ => none, 0, [], [0], fun _ => 0, 0⟩

/-- `std::vector::resize(n, 0)`. -/
def resize (l : List Nat) (n : Nat) : List Nat := l.take n ++ List.replicate (n - l.length) 0

/-- `l2g[i] = v` with the bounds of the vector. -/
def store (l : List Nat) (i v : Nat) : Option (List Nat) := if i < l.length then some (l.set i v) else none

/-- State of the second pass: `l2g`, rows of `cellFaces_`, `total_num_faces_`. -/
structure Pass2 where
  l2g : List Nat
  rows : List (List Nat)
  total : Nat

/-- The number of an interior face (IncompFlowSolverHybrid.hpp:1035-1048). -/
def lookup (p : Pass1) (c0 c1 : Nat) : Option Nat := do
  let k0 ← p.cell c0
  let k1 ← p.cell c1
  let (t, seek) := if k1 < k0 then (k1, c0) else (k0, c1)
  let s ← p.fpos[t]?
  let e ← p.fpos[t + 1]?
  let i ← ((p.faces.drop s).take (e - s)).findIdx? fun x => x == seek
  pure (s + i)

/-- One face in the second pass (IncompFlowSolverHybrid.hpp:1018-1049). -/
def face2 (p : Pass1) (c0 : Nat) (s : Pass2) (f : Nat × Option Nat) : Option Pass2 :=
  match f.2 with
  | none => (store s.l2g f.1 s.total).map fun l => { s with l2g := l, total := s.total + 1 }
  | some c1 => (lookup p c0 c1).bind fun v => (store s.l2g f.1 v).map fun l => { s with l2g := l }

/-- One cell in the second pass (IncompFlowSolverHybrid.hpp:1007-1056): the number of faces is looked up under the iteration
number of the cell, whereas it was stored under its index. -/
def cell2 (g : Grid) (p : Pass1) (s : Pass2) (c0 : Nat) : Option Pass2 :=
  (p.cell c0).bind fun k =>
    (((g.nbrs c0).zipIdx.map fun q => (q.2, q.1)).foldlM (face2 p c0) { s with l2g := resize s.l2g (p.numCf k) }).map
      fun s => { s with rows := s.rows ++ [s.l2g] }

/-- Result of `enumerateGridDof`: iteration number of cells, `cellFaces_` by iteration number, numbers of internal and of
all faces. -/
structure Numbers where
  cell : Nat → Option Nat
  rows : List (List Nat)
  internal : Nat
  total : Nat

/-- `enumerateGridDof` (IncompFlowSolverHybrid.hpp:946-1056). -/
def enumerate (g : Grid) : Option Numbers :=
  (pass1 g).bind fun p =>
    (g.order.foldlM (cell2 g p) ⟨[], [], p.faces.length⟩).map fun s => ⟨p.cell, s.rows, p.faces.length, s.total⟩

/-! ### Periodic partners -/

/-- One boundary face with a periodic condition, in iteration order: boundary identifier, that of its partner, face number. -/
structure PerFace where
  bid : Nat
  partner : Nat
  dof : Nat

/-- `bdry_id_map_` (IncompFlowSolverHybrid.hpp:1069-1078): `insert` keeps the first entry. Instead of cell and local index the
face number is stored. -/
def bdryMap (l : List PerFace) : Nat → Option Nat :=
  l.foldl (fun m f => if (m f.bid).isSome then m else fun k => if k = f.bid then some f.dof else m k) fun _ => none

/-- `ppartner_dof_` (IncompFlowSolverHybrid.hpp:1080-1098); `none` outside is the failing look-up. -/
def partnerDofs (l : List PerFace) : Option (Nat → Option Nat) :=
  l.foldlM (fun pp f => (bdryMap l f.partner).map fun d2 =>
    fun k => if k = d2 then some f.dof else if k = f.dof then some d2 else pp k) fun _ => none

/-! ### Face indices of the grid interface -/

/-- First pass of `buildFaceIndices` (GridInterfaceEuler.hpp:517-541). `base.numCf` is `num_faces`, by cell index (counted up in
place instead of being set after the loop over the faces); `numCf` is `num_cf`, by iteration number. -/
structure EulerPass1 where
  base : Pass1
  numCf : List Nat

/-- One cell in the first pass (GridInterfaceEuler.hpp:519-540); the loop over the faces is that of `cell1`. -/
def eulerCell1 (g : Grid) (nc : Nat) (s : EulerPass1) (c0 : Nat) : Option EulerPass1 :=
  (cell1 g nc s.base c0).map fun b => ⟨b, s.numCf ++ [b.numCf c0]⟩

/-- `std::copy(l2g, cfdata.begin() + s)` with the bounds of `cfdata`. -/
def copyTo (data : List Nat) (s : Nat) (l : List Nat) : Option (List Nat) :=
  if s + l.length ≤ data.length then some (data.take s ++ l ++ data.drop (s + l.length)) else none

/-- `cumul_num_faces` (GridInterfaceEuler.hpp:544-548). -/
def cumul (numFaces : Nat → Nat) (c : Nat) : Nat := ((List.range c).map numFaces).sum

/-- State of the second pass: `l2g`, `cfdata`, `total_num_faces`. -/
structure EulerPass2 where
  l2g : List Nat
  data : List Nat
  total : Nat

/-- One cell in the second pass (GridInterfaceEuler.hpp:558-594); the loop over the faces is that of `cell2`. -/
def eulerCell2 (g : Grid) (p : EulerPass1) (s : EulerPass2) (c0 : Nat) : Option EulerPass2 :=
  (p.base.cell c0).bind fun k => (p.numCf[k]?).bind fun ncf =>
    (((g.nbrs c0).zipIdx.map fun q => (q.2, q.1)).foldlM (face2 p.base c0) ⟨resize s.l2g ncf, [], s.total⟩).bind fun t =>
      if t.l2g.length = p.base.numCf c0 then
        (copyTo s.data (cumul p.base.numCf c0) t.l2g).map fun d => ⟨t.l2g, d, t.total⟩
      else none

/-- `num_faces_` and `face_indices_`, whose row `c` are `numFaces c` entries from `cumul c` on. -/
structure FaceIndices where
  data : List Nat
  numFaces : Nat → Nat
  total : Nat

/-- `buildFaceIndices` (GridInterfaceEuler.hpp:489-601); `nc` is the number of cells. `cfdata` is a vector of `double`, here of
numbers. -/
def buildFaceIndices (g : Grid) : Option FaceIndices :=
  (g.order.foldlM (eulerCell1 g g.order.length) ⟨⟨fun _ => none, 0, [], [0], fun _ => 0, 0⟩, []⟩).bind fun p =>
    (g.order.foldlM (eulerCell2 g p) ⟨[], List.replicate p.numCf.sum 0, p.base.faces.length⟩).map fun s =>
      ⟨s.data, p.base.numCf, s.total⟩

/-- `faceIndices(c)[i]` (GridInterfaceEuler.hpp:476-481): entry `i` of row `c`. -/
def FaceIndices.at? (n : FaceIndices) (c i : Nat) : Option Nat :=
  ((n.data.drop (cumul n.numFaces c)).take (n.numFaces c))[i]?

end Verif.Numbering
