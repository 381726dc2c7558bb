import Mathlib.Algebra.Order.Field.Basic
import Mathlib.Algebra.Order.Group.Abs
import Mathlib.Data.Fin.VecNotation

/-!
Model of the boundary grids (`opm/elasticity/boundarygrid.hh`, `boundarygrid.cpp`). Coordinates are elements of an ordered field;
`sqrt` is a parameter. `hypot(a,b) < tol` is modelled as `a² + b² < tol²`, and comparisons of two `hypot` as comparisons of the sums
of squares.
-/

namespace Verif.BGrid

variable {K : Type} [Field K] [LinearOrder K]

/-- `BoundaryGrid::Vertex` (boundarygrid.hh:58-83): number and coordinates. -/
structure Vertex (K : Type) where
  i : Int
  c : K × K

/-- `BoundaryGrid::Quad` (boundarygrid.hh:85-118): vertices and bounding box. -/
structure Quad (K : Type) where
  v : Fin 4 → Vertex K
  lo : K × K
  hi : K × K

/-- `Quad::evalBasis` (boundarygrid.cpp:339-348). -/
def evalBasis (xi eta : K) : Fin 4 → K := ![(1 - xi) * (1 - eta), xi * (1 - eta), xi * eta, (1 - xi) * eta]

/-- `Quad::pos` (boundarygrid.cpp:328-337). -/
def Quad.pos (q : Quad K) (xi eta : K) : K × K :=
  let N := evalBasis xi eta
  (N 0 * (q.v 0).c.1 + N 1 * (q.v 1).c.1 + N 2 * (q.v 2).c.1 + N 3 * (q.v 3).c.1,
   N 0 * (q.v 0).c.2 + N 1 * (q.v 1).c.2 + N 2 * (q.v 2).c.2 + N 3 * (q.v 3).c.2)

/-- One pass of the loop that establishes the bounding box (boundarygrid.cpp:92-101). -/
def widen (b : (K × K) × (K × K)) (c : K × K) : (K × K) × (K × K) :=
  ((if c.1 < b.1.1 then c.1 else b.1.1, if c.2 < b.1.2 then c.2 else b.1.2),
   (if c.1 > b.2.1 then c.1 else b.2.1, if c.2 > b.2.2 then c.2 else b.2.2))

/-- `BoundaryGrid::add` (boundarygrid.cpp:85-104): quads whose bounding box is too small are dropped. -/
def add (grid : List (Quad K)) (v : Fin 4 → Vertex K) : List (Quad K) :=
  let b := widen (widen (widen ((v 0).c, (v 0).c) (v 1).c) (v 2).c) (v 3).c
  if (b.2.1 - b.1.1) * (b.2.2 - b.1.2) < 1 / 10 ^ 7 then grid else grid ++ [⟨v, b.1, b.2⟩]

/-! ### Uniform grids -/

/-- Result of `uniform`: quads, marks of the nodes, number of nodes. -/
structure Grid (K : Type) where
  quads : List (Quad K)
  fixNodes : List Bool
  nodes : Nat

/-- `result.fixNodes[n] = v`; `none` outside of the vector. -/
def mark (l : List Bool) (n : Nat) (v : Bool) : Option (List Bool) := if n < l.length then some (l.set n v) else none

/-- The vertices of the quad `(i,j)` (boundarygrid.cpp:33-51). The second coordinate of the second vertex keeps the value zero of
the constructor (boundarygrid.hh:88-92): no statement sets it. -/
def cell (min max : K × K) (k1 k2 : Nat) (dc : Bool) (i j : Nat) : Fin 4 → Vertex K :=
  let dx := (max.1 - min.1) / (k1 : K)
  let dy := (max.2 - min.2) / (k2 : K)
  let k := j * (k1 + 1) + i
  let v0 : Vertex K := ⟨k, (min.1 + (i : K) * dx, min.2 + (j : K) * dy)⟩
  let v1 : Vertex K := ⟨(k + 1 : Nat), (v0.c.1 + dx, 0)⟩
  let vd : Vertex K := ⟨(k + k1 + 2 : Nat), (v0.c.1 + dx, v0.c.2 + dy)⟩
  let vu : Vertex K := ⟨(k + k1 + 1 : Nat), (v0.c.1, v0.c.2 + dy)⟩
  if dc then ![v0, v1, vu, vd] else ![v0, v1, vd, vu]

/-- Marks of the nodes of the quad `(i,j)` (boundarygrid.cpp:36-61). -/
def markCell (k1 k2 : Nat) (dc : Bool) (i j : Nat) (l : List Bool) : Option (List Bool) :=
  let k := j * (k1 + 1) + i
  (mark l k false).bind fun l => (mark l (k + 1) false).bind fun l => (mark l (k + k1 + 2) false).bind fun l =>
  (mark l (k + k1 + 1) false).bind fun l =>
  if dc then some l
  else
    (if i = 0 ∧ j = 0 then mark l k true else some l).bind fun l =>
    (if i + 1 = k1 ∧ j = 0 then mark l (k + 1) true else some l).bind fun l =>
    (if i = 0 ∧ j + 1 = k2 then mark l (k + k1 + 1) true else some l).bind fun l =>
    if i + 1 = k1 ∧ j + 1 = k2 then mark l (k + k1 + 2) true else some l

/-- The pairs `(i,j)` in the order of the loops. -/
def pairs (k1 k2 : Nat) : List (Nat × Nat) := (List.range k1).flatMap fun i => (List.range k2).map fun j => (i, j)

/-- `BoundaryGrid::uniform` (boundarygrid.cpp:24-68). -/
def uniform (min max : K × K) (k1 k2 : Nat) (dc : Bool) : Option (Grid K) :=
  ((pairs k1 k2).foldlM (fun l p => markCell k1 k2 dc p.1 p.2 l) (List.replicate ((k1 + 1) * (k2 + 1)) false)).map fun l =>
    { quads := (pairs k1 k2).foldl (fun g p => add g (cell min max k1 k2 dc p.1 p.2)) []
      fixNodes := l
      nodes := (k1 + 1) * (k2 + 1) }

/-! ### Inversion of the bilinear map -/

/-- `cubicSolve` (boundarygrid.cpp:269-326) for a vanishing leading coefficient, the only case in which it is called. -/
def quadSolve (sqrt : K → K) (eps B C D : K) : List K :=
  if |B| > eps then
    let P := C * C - 4 * B * D
    if P > 0 then [(-C + sqrt P) / (B + B), (-C - sqrt P) / (B + B)]
    else if P > -eps ^ 4 then [-C / (B + B), -C / (B + B)]
    else []
  else if |C| > eps then [-D / C]
  else []

/-- `tol` in `bilinearSolve` (boundarygrid.cpp:217-225). -/
def geoTol (eps : K) (A B : Fin 4 → K) : K :=
  ([A 0, B 0, A 1, B 1, A 2, B 2, A 3, B 3].foldl (fun t a => if |a| > t then |a| else t) 0) * eps

/-- First loop over the roots (boundarygrid.cpp:240-246). -/
def firstPass (tol : K) (A : Fin 4 → K) (Z : List K) : List (K × K) :=
  Z.filterMap fun z => if |A 0 * z + A 2| > tol then some (z, (A 3 - A 1 * z) / (A 0 * z + A 2)) else none

/-- Second loop over the roots (boundarygrid.cpp:252-264); the factor `order` is one. -/
def secondPass (tol eps : K) (A : Fin 4 → K) (Z : List K) (XY : List (K × K)) : List (K × K) :=
  Z.foldl (fun XY z =>
    if |A 0 * z + A 1| > tol ∧ ∀ p ∈ XY, ¬ |p.2 - z| ≤ eps then XY ++ [((A 3 - A 2 * z) / (A 0 * z + A 1), z)] else XY) XY

/-- `bilinearSolve` (boundarygrid.cpp:212-267): the pairs of `X` and `Y`. -/
def bilinearSolve (sqrt : K → K) (eps : K) (A B : Fin 4 → K) : List (K × K) :=
  let tol := geoTol eps A B
  let det := A 1 * B 2 - B 1 * A 2
  if |A 0| < tol ∧ |B 0| < tol then
    if |det| < tol * tol then [] else [((B 2 * A 3 - A 2 * B 3) / det, (-B 1 * A 3 + A 1 * B 3) / det)]
  else
    let Z := quadSolve sqrt eps (A 0 * B 1 - B 0 * A 1) (B 0 * A 3 - A 0 * B 3 - det) (B 2 * A 3 - A 2 * B 3)
    let W := quadSolve sqrt eps (A 0 * B 2 - B 0 * A 2) (B 0 * A 3 - A 0 * B 3 + det) (B 1 * A 3 - A 1 * B 3)
    secondPass tol eps A W (firstPass tol A Z)

/-- Coefficients of the first equation (boundarygrid.cpp:158-162). -/
def coefX (q : Quad K) (c : K × K) : Fin 4 → K :=
  ![(q.v 0).c.1 - (q.v 1).c.1 + (q.v 2).c.1 - (q.v 3).c.1, -(q.v 0).c.1 + (q.v 1).c.1, -(q.v 0).c.1 + (q.v 3).c.1,
    c.1 - (q.v 0).c.1]

/-- Coefficients of the second equation (boundarygrid.cpp:164-168). -/
def coefY (q : Quad K) (c : K × K) : Fin 4 → K :=
  ![(q.v 0).c.2 - (q.v 1).c.2 + (q.v 2).c.2 - (q.v 3).c.2, -(q.v 0).c.2 + (q.v 1).c.2, -(q.v 0).c.2 + (q.v 3).c.2,
    c.2 - (q.v 0).c.2]

/-- Square of the distance. -/
def dist2 (a b : K × K) : K := (a.1 - b.1) * (a.1 - b.1) + (a.2 - b.2) * (a.2 - b.2)

/-- State of the loop of `Q4inv`: `i`, `nInside`, `res`. -/
structure InvState (K : Type) where
  i : Nat
  inside : Nat
  res : K × K

/-- One pass of the loop of `Q4inv` (boundarygrid.cpp:185-207). -/
def invStep (q : Quad K) (c : K × K) (tol : K) (s : InvState K) (p : K × K) : InvState K :=
  let closer := dist2 c (q.pos s.res.1 s.res.2) < dist2 c (q.pos p.1 p.2)
  if p.1 < tol ∧ p.2 < tol then
    if s.inside + 1 > 1 ∧ closer then ⟨s.i + 1, s.inside + 1, s.res⟩ else ⟨s.i + 1, s.inside + 1, p⟩
  else if s.inside = 0 ∧ s.i > 0 ∧ closer then ⟨s.i + 1, s.inside, s.res⟩
  else ⟨s.i + 1, s.inside, p⟩

/-- `Q4inv` (boundarygrid.cpp:149-210): number of solutions inside and the chosen one; `res0` is the previous content of `res`. -/
def q4inv (sqrt : K → K) (q : Quad K) (c : K × K) (epsZero epsOut : K) (res0 : K × K) : Nat × (K × K) :=
  let s := (bilinearSolve sqrt epsZero (coefX q c) (coefY q c)).foldl (invStep q c (1 + epsOut)) ⟨0, 0, res0⟩
  (s.inside, s.res)

/-- `BoundedPredicate` (boundarygrid.hh:218-236). -/
def bounded (c : K × K) (q : Quad K) : Prop :=
  c.1 ≥ q.lo.1 - 1 / 10 ^ 8 ∧ c.1 ≤ q.hi.1 + 1 / 10 ^ 8 ∧ c.2 ≥ q.lo.2 - 1 / 10 ^ 8 ∧ c.2 ≤ q.hi.2 + 1 / 10 ^ 8

instance (c : K × K) (q : Quad K) : Decidable (bounded c q) := by unfold bounded; infer_instance

/-- Result of `find`: the number of a node, or the quad and the reference coordinates in it. -/
inductive Found (K : Type) where
  | node (i : Int)
  | inside (q : Quad K) (r : K × K)

/-- One candidate of `find` (boundarygrid.cpp:124-142). -/
def tryQuad (sqrt : K → K) (c : K × K) (q : Quad K) : Option (Found K) :=
  if bounded c q then
    match [q.v 0, q.v 1, q.v 2, q.v 3].find? fun v => decide (dist2 c v.c < (1 / 10 ^ 8) * (1 / 10 ^ 8)) with
    | some v => some (.node v.i)
    | none =>
      let r := q4inv sqrt q c (1 / 10 ^ 8) (1 / 10 ^ 8) (0, 0)
      if r.1 > 0 then some (.inside q r.2) else none
  else none

/-- `BoundaryGrid::find` (boundarygrid.cpp:117-147): `none` if no quad is found (the code reports this and asserts). -/
def find (sqrt : K → K) (grid : List (Quad K)) (c : K × K) : Option (Found K) := grid.findSome? (tryQuad sqrt c)

end Verif.BGrid
