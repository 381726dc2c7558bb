import Verif.Model.BoundaryGrid

/-!
Model of the extraction of faces, of the couplings of periodic faces and of the numbering of multipliers
(`opm/elasticity/boundarygrid.cpp`, `opm/elasticity/elasticity_upscale_impl.hpp`).
-/

namespace Verif.BGrid

variable {K : Type} [Field K] [LinearOrder K]

/-! ### Corners of a face -/

/-- The vertices sorted by the first coordinate, then the part `[a, b)` sorted by the second. `srt key` is `std::sort` with the
comparison `key v < key w`. -/
def sortedPart (srt : (Vertex K → K) → List (Vertex K) → List (Vertex K)) (vs : List (Vertex K)) (a b : Nat) : List (Vertex K) :=
  let s := srt (·.c.1) vs
  s.take a ++ srt (·.c.2) ((s.drop a).take (b - a)) ++ s.drop b

/-- `minXminY` (boundarygrid.cpp:350-358). -/
def minXminY (srt : (Vertex K → K) → List (Vertex K) → List (Vertex K)) (vs : List (Vertex K)) : Option (Vertex K) :=
  (sortedPart srt vs 0 2)[0]?

/-- `maxXminY` (boundarygrid.cpp:360-368). -/
def maxXminY (srt : (Vertex K → K) → List (Vertex K) → List (Vertex K)) (vs : List (Vertex K)) : Option (Vertex K) :=
  (sortedPart srt vs 2 vs.length)[vs.length - 2]?

/-- `maxXmaxY` (boundarygrid.cpp:370-378). -/
def maxXmaxY (srt : (Vertex K → K) → List (Vertex K) → List (Vertex K)) (vs : List (Vertex K)) : Option (Vertex K) :=
  (sortedPart srt vs 2 vs.length)[vs.length - 1]?

/-- `minXmaxY` (boundarygrid.cpp:380-388). -/
def minXmaxY (srt : (Vertex K → K) → List (Vertex K) → List (Vertex K)) (vs : List (Vertex K)) : Option (Vertex K) :=
  (sortedPart srt vs 0 2)[1]?

/-- The quad of a face (elasticity_upscale_impl.hpp:97-107). -/
def faceQuad (srt : (Vertex K → K) → List (Vertex K) → List (Vertex K)) (dc : Bool) (vs : List (Vertex K)) :
    Option (Fin 4 → Vertex K) :=
  if vs.length = 4 then
    (minXminY srt vs).bind fun a => (maxXminY srt vs).bind fun b => (maxXmaxY srt vs).bind fun c => (minXmaxY srt vs).map fun d =>
      if dc then ![a, b, d, c] else ![a, b, c, d]
  else none

/-! ### Columns of quads -/

/-- Insertion into `std::map` ordered by the key. -/
def insertKey (x : K) (q : Fin 4 → Vertex K) : List (K × List (Fin 4 → Vertex K)) → List (K × List (Fin 4 → Vertex K))
  | [] => [(x, [q])]
  | (k, l) :: m => if x < k then (x, [q]) :: (k, l) :: m else (k, l) :: insertKey x q m

/-- The quad is added to the first column whose key differs by less than `10⁻⁷`. -/
def appendKey (x : K) (q : Fin 4 → Vertex K) : List (K × List (Fin 4 → Vertex K)) → Option (List (K × List (Fin 4 → Vertex K)))
  | [] => none
  | (k, l) :: m => if |k - x| < 1 / 10 ^ 7 then some ((k, l ++ [q]) :: m) else (appendKey x q m).map ((k, l) :: ·)

/-- `nodeMap` after one more quad (elasticity_upscale_impl.hpp:108-116). -/
def addColumn (m : List (K × List (Fin 4 → Vertex K))) (q : Fin 4 → Vertex K) : List (K × List (Fin 4 → Vertex K)) :=
  match appendKey (q 0).c.1 q m with
  | some m' => m'
  | none => insertKey (q 0).c.1 q m

/-- The columns of the boundary grid (elasticity_upscale_impl.hpp:72-127). -/
def columns (qs : List (Fin 4 → Vertex K)) : List (List (Fin 4 → Vertex K)) := (qs.foldl addColumn []).map (·.2)

/-! ### Extent of the grid -/

/-- `findBoundaries` for one coordinate (elasticity_upscale_impl.hpp:143-157): the smallest and the largest value. -/
def findBoundaries (coords : List K) : K × K :=
  coords.foldl (fun b x => (min b.1 x, max b.2 x)) (10 ^ 5, -10 ^ 5)

/-! ### Couplings -/

/-- Masters of a coupled node (elasticity_upscale_impl.hpp:159-186): node numbers and coefficients. -/
def couplingMasters (f : Found K) : List (Int × K) :=
  match f with
  | .node i => [(i, 1)]
  | .inside q r => (List.finRange 4).map fun m => ((q.v m).i, evalBasis r.1 r.2 m)

/-! ### Numbering of multipliers -/

/-- One row of nodes of element `e` (elasticity_upscale_impl.hpp:207-226): the nodes of the element and the number of degrees of
freedom. `nodes` are the previous elements, `last` tells whether `e` is the last element. -/
def renumberRow (n1 n2 : Nat) (nodes : List (List Int)) (last : Bool) (s : List Int × Nat) (i2 : Nat) :
    Option (List Int × Nat) :=
  let e := nodes.length
  (if e ≠ 0 then (nodes[e - 1]?).bind fun p => (p[i2 * n1 + n1 - 1]?).map fun v => s.1 ++ [v] else some s.1).bind fun cur =>
  if i2 + 1 = n2 ∧ n2 > 2 then
    ((List.range' (if e = 0 then 0 else 1) (n1 - if e = 0 then 0 else 1)).foldlM
      (fun c i1 => (c[i1]?).map fun v => c ++ [v]) cur).map fun c => (c, s.2)
  else
    let start := if e = 0 ∧ i2 ≠ 0 then 0 else 1
    (List.range' start (n1 - start)).foldlM (fun (t : List Int × Nat) _ =>
      if last then
        ((if e = 0 then some t.1 else nodes[0]?).bind fun z => z[i2 * n1]?).map fun v => (t.1 ++ [v], t.2)
      else some (t.1 ++ [(t.2 : Int)], t.2 + 1)) (cur, s.2)

/-- One element. -/
def renumberElem (m n1 n2 : Nat) (s : List (List Int) × Nat) (e : Nat) : Option (List (List Int) × Nat) :=
  ((List.range n2).foldlM (renumberRow n1 n2 s.1 (decide (e + 1 = m))) (if e = 0 then [-1] else [], s.2)).map fun r =>
    (s.1 ++ [r.1], r.2)

/-- `renumber` (elasticity_upscale_impl.hpp:193-230) for `m` elements: the nodes of the elements and the number of free degrees of
freedom; `none` if a vector is read or written out of its range. -/
def renumber (m n1 n2 : Nat) : Option (List (List Int) × Nat) :=
  if m = 0 then none else (List.range m).foldlM (renumberElem m n1 n2) ([], 0)

end Verif.BGrid
