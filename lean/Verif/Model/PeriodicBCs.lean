import Verif.Model.BoundaryFaces
import Verif.Model.ElasticUpscale

/-!
Model of `periodicBCs` (`opm/elasticity/elasticity_upscale_impl.hpp:790-815`) and of what it calls: fixed corners, nodes of the
sides where coordinates are largest, quads of the sides where they are smallest, constraints.

A mesh is given by the positions of its nodes and the nodes of its cells. Vertices are visited in the order of their numbers and
cells in the order of the list. Local directions count from 0. Output is left out.
-/

namespace Verif.PBC

open Verif.BGrid Verif.Asm

variable {K : Type} [Field K] [LinearOrder K]

/-- The mesh: number of nodes, their positions, the eight nodes of every cell. -/
structure Mesh (K : Type) where
  nodes : Nat
  X : Nat → Fin 3 → K
  cells : List (List Nat)

/-- `isOnPlane` (elasticity_upscale_impl.hpp:384-393) for a node. -/
def onPlane (tol : K) (M : Mesh K) (d : Fin 3) (value : K) (n : Nat) : Prop := |value - M.X n d| < tol

instance (tol : K) (M : Mesh K) (d : Fin 3) (value : K) (n : Nat) : Decidable (onPlane tol M d value n) := by
  unfold onPlane; infer_instance

/-- `isOnPoint` (elasticity_upscale_impl.hpp:433-438) for a node. -/
def onPoint (tol : K) (M : Mesh K) (p : Fin 3 → K) (n : Nat) : Prop :=
  |p 0 - M.X n 0| + |p 1 - M.X n 1| + |p 2 - M.X n 2| < tol

instance (tol : K) (M : Mesh K) (p : Fin 3 → K) (n : Nat) : Decidable (onPoint tol M p n) := by
  unfold onPoint; infer_instance

/-- `fixPoint` (elasticity_upscale_impl.hpp:365-382) with direction `XYZ` and value zero. -/
def fixPoint (tol : K) (M : Mesh K) (h : Handler K) (p : Fin 3 → K) : Handler K :=
  (List.range M.nodes).foldl (fun h n => if onPoint tol M p n then updateFixedNode h n ⟨7, fun _ => 0⟩ else h) h

/-- The corners of the box (elasticity_upscale_impl.hpp:775-782). -/
def corners (mn mx : Fin 3 → K) : List (Fin 3 → K) :=
  [![mn 0, mn 1, mn 2], ![mx 0, mn 1, mn 2], ![mn 0, mx 1, mn 2], ![mx 0, mx 1, mn 2],
   ![mn 0, mn 1, mx 2], ![mx 0, mn 1, mx 2], ![mn 0, mx 1, mx 2], ![mx 0, mx 1, mx 2]]

/-- `fixCorners` (elasticity_upscale_impl.hpp:773-788). -/
def fixCorners (tol : K) (M : Mesh K) (mn mx : Fin 3 → K) (h : Handler K) : Handler K := (corners mn mx).foldl (fixPoint tol M) h

/-- `BoundaryGrid::extract` (boundarygrid.cpp:70-78): the coordinates other than `d`. -/
def extract (x : Fin 3 → K) (d : Fin 3) : K × K := if d = 0 then (x 1, x 2) else if d = 1 then (x 0, x 2) else (x 0, x 1)

/-- `extractFace` (elasticity_upscale_impl.hpp:29-50). -/
def extractFace (tol : K) (M : Mesh K) (d : Fin 3) (value : K) : List (Vertex K) :=
  ((List.range M.nodes).filter fun n => onPlane tol M d value n).map fun (n : Nat) => ⟨n, extract (M.X n) d⟩

/-- `V1` and `V2` (elasticity_upscale_impl.hpp:58-63). -/
def sideTable (right : Bool) (d : Fin 3) : List Nat :=
  if right then (if d = 0 then [1, 3, 5, 7] else if d = 1 then [2, 3, 6, 7] else [4, 5, 6, 7])
  else (if d = 0 then [0, 2, 4, 6] else if d = 1 then [0, 1, 4, 5] else [0, 1, 2, 3])

/-- `verts` of one cell (elasticity_upscale_impl.hpp:74-96); `none` if the cell has too few vertices. -/
def sideVerts (tol : K) (M : Mesh K) (right : Bool) (d : Fin 3) (value : K) (cell : List Nat) : Option (List (Vertex K)) :=
  ((sideTable right d).mapM fun v => cell[v]?).map fun ns =>
    match ns.head? with
    | some n0 =>
      if onPlane tol M d value n0 then (ns.filter fun n => onPlane tol M d value n).map fun (n : Nat) => ⟨n, extract (M.X n) d⟩ else []
    | none => []

/-- One cell of `extractMasterFace` (elasticity_upscale_impl.hpp:72-119), without the columns (see `Verif.BGrid.columns`). -/
def masterStep (srt : (Vertex K → K) → List (Vertex K) → List (Vertex K)) (tol : K) (M : Mesh K) (right dc : Bool) (d : Fin 3)
    (value : K) (g : List (Quad K)) (cell : List Nat) : Option (List (Quad K)) :=
  (sideVerts tol M right d value cell).bind fun vs => if vs.length = 4 then (faceQuad srt dc vs).map (add g) else some g

/-- `extractMasterFace` (elasticity_upscale_impl.hpp:53-130): the quads. -/
def extractMasterFace (srt : (Vertex K → K) → List (Vertex K) → List (Vertex K)) (tol : K) (M : Mesh K) (right dc : Bool) (d : Fin 3)
    (value : K) : Option (List (Quad K)) :=
  M.cells.foldlM (masterStep srt tol M right dc d value) []

/-- The constraint made by `ElasticityUpscale::addMPC` (elasticity_upscale_impl.hpp:159-172) for direction `i`; `addMaster`
(mpc.hh:112-115) leaves out small coefficients. -/
def coupling (slave i : Nat) (f : Found K) : Mpc K :=
  ⟨slave, i, 0, ((couplingMasters f).filter fun a => decide (a.2 < -(1 / 10 ^ 8) ∨ a.2 > 1 / 10 ^ 8)).map fun a => ⟨a.1.toNat, i, a.2⟩⟩

/-- One slave in `periodicPlane` (elasticity_upscale_impl.hpp:179-186); `none` if no quad is found (see `Verif.BGrid.find`). -/
def coupleNode (sqrt : K → K) (g : List (Quad K)) (h : Handler K) (v : Vertex K) : Option (Handler K) :=
  (find sqrt g v.c).map fun f => [0, 1, 2].foldl (fun h i => addMPC h (coupling v.i.toNat i f)) h

/-- `periodicPlane` (elasticity_upscale_impl.hpp:174-187). -/
def periodicPlane (sqrt : K → K) (slaves : List (Vertex K)) (g : List (Quad K)) (h : Handler K) : Option (Handler K) :=
  slaves.foldlM (coupleNode sqrt g) h

/-- `periodicBCs` (elasticity_upscale_impl.hpp:790-815) with `determineSideFaces` (132-141). -/
def periodicBCs (srt : (Vertex K → K) → List (Vertex K) → List (Vertex K)) (sqrt : K → K) (tol : K) (M : Mesh K)
    (mn mx : Fin 3 → K) (h : Handler K) : Option (Handler K) :=
  let h := fixCorners tol M mn mx h
  (extractMasterFace srt tol M false false 0 (mn 0)).bind fun m0 =>
  (extractMasterFace srt tol M false false 1 (mn 1)).bind fun m1 =>
  (extractMasterFace srt tol M false false 2 (mn 2)).bind fun m2 =>
  (periodicPlane sqrt (extractFace tol M 0 (mx 0)) m0 h).bind fun h =>
  (periodicPlane sqrt (extractFace tol M 1 (mx 1)) m1 h).bind fun h =>
  periodicPlane sqrt (extractFace tol M 2 (mx 2)) m2 h

end Verif.PBC
