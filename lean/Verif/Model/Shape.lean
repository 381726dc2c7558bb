import Mathlib.Algebra.Field.Basic
import Mathlib.Data.Fin.VecNotation

/-!
Model of `opm/elasticity/shapefunctions.hpp`: linear shape functions on reference cubes, Lagrange cardinal functions,
their tensor products, and Legendre polynomials. Not modelled: the eigenvalue solver used by `gaussLegendreGrid` and the
iteration of `gaussLobattoLegendreGrid` beyond one step.

Simplification: `double` is a field; a division by zero has no value.
-/

namespace Verif.Shape

variable {K : Type} [Field K]

/-- A linear shape function (shapefunctions.hpp:26-86): `coeff0` and `coeff1`. -/
structure Linear (K : Type) (dim : Nat) where
  c0 : Fin dim → K
  c1 : Fin dim → K

/-- `evaluateFunction` (shapefunctions.hpp:51-57). -/
def Linear.eval {dim : Nat} (f : Linear K dim) (x : Fin dim → K) : K :=
  (List.finRange dim).foldl (fun r i => r * (f.c0 i + f.c1 i * x i)) 1

/-- `evaluateGradient` (shapefunctions.hpp:61-77). -/
def Linear.grad {dim : Nat} (f : Linear K dim) (x : Fin dim → K) (i : Fin dim) : K :=
  (List.finRange dim).foldl (fun r j => if i = j then r * f.c1 j else r * (f.c0 j + f.c1 j * x j)) 1

/-- The tables (shapefunctions.hpp:212-243), constant coefficients. -/
def table0 : Nat → List K
  | 1 => [0, 1]
  | 2 => [1, 1, 0, 1, 1, 0, 0, 0]
  | 3 => [1, 1, 1, 0, 1, 1, 1, 0, 1, 0, 0, 1, 1, 1, 0, 0, 1, 0, 1, 0, 0, 0, 0, 0]
  | _ => []

/-- The tables (shapefunctions.hpp:212-243), linear coefficients. -/
def table1 : Nat → List K
  | 1 => [1, -1]
  | 2 => [-1, -1, 1, -1, -1, 1, 1, 1]
  | 3 => [-1, -1, -1, 1, -1, -1, -1, 1, -1, 1, 1, -1, -1, -1, 1, 1, -1, 1, -1, 1, 1, 1, 1, 1]
  | _ => []

/-- Number of functions of a set (shapefunctions.hpp:185). -/
def setSize (dim : Nat) : Nat := if dim = 2 then 4 else 8

/-- Reading a static table: outside is undefined. -/
def readCoeffs (t : List K) (dim i : Nat) : Option (Fin dim → K) :=
  if i * dim + dim ≤ t.length then some fun j => t.getD (i * dim + j) 0 else none

/-- Function `i` of `P1ShapeFunctionSet` (shapefunctions.hpp:209-269). -/
def p1 (dim i : Nat) : Option (Linear K dim) :=
  match readCoeffs (table0 dim) dim i, readCoeffs (table1 dim) dim i with
  | some a, some b => some ⟨a, b⟩
  | _, _ => none

/-- The constructor of the set runs over all its functions (shapefunctions.hpp:260-268). -/
def p1Set (dim : Nat) : Option (List (Linear K dim)) := (List.range (setSize dim)).mapM (p1 dim)

variable [DecidableEq K]

/-- `LagrangeCardinalFunction::evaluateFunction` (shapefunctions.hpp:108-117); `none`: a division by zero, or a node
number out of range. -/
def lagrange (nodes : List K) (node : Nat) (x : K) : Option K :=
  nodes.zipIdx.foldlM (fun r p =>
    if p.2 = node then some r
    else
      match nodes[node]? with
      | none => none
      | some y => if y - p.1 = 0 then none else some (r * ((x - p.1) / (y - p.1)))) 1

/-- The inner loop of `LagrangeCardinalFunction::evaluateGradient` (shapefunctions.hpp:124-128). -/
def lagrangeInner (nodes : List K) (y : K) (node i : Nat) (x : K) : Option K :=
  nodes.zipIdx.foldlM (fun f p =>
    if i ≠ p.2 ∧ p.2 ≠ node then (if y - p.1 = 0 then none else some (f * ((x - p.1) / (y - p.1)))) else some f) 1

/-- `LagrangeCardinalFunction::evaluateGradient` (shapefunctions.hpp:121-133). -/
def lagrangeGrad (nodes : List K) (node : Nat) (x : K) : Option K :=
  match nodes[node]? with
  | none => none
  | some y =>
    nodes.zipIdx.foldlM (fun r p =>
      match lagrangeInner nodes y node p.2 x with
      | none => none
      | some f => if y - p.1 = 0 then none else some (r + f / (y - p.1))) 0

/-- `TensorProductFunction::evaluateFunction` (shapefunctions.hpp:158-165) of cardinal functions: node lists and node
numbers, one per direction. -/
def tensor {dim : Nat} (nodes : Fin dim → List K) (node : Fin dim → Nat) (x : Fin dim → K) : Option K :=
  (List.finRange dim).foldlM (fun r i => (lagrange (nodes i) (node i) (x i)).map fun v => r * v) 1

/-- The node numbers of the functions of a three-dimensional `PNShapeFunctionSet`, in order (shapefunctions.hpp:288-299). -/
def pnNodes3 (n1 n2 n3 : Nat) : List (Fin 3 → Nat) :=
  (List.range n3).flatMap fun k => (List.range n2).flatMap fun j => (List.range n1).map fun i => ![i, j, k]

/-- The node numbers of the functions of a two-dimensional `PNShapeFunctionSet`, in order (shapefunctions.hpp:301-309). -/
def pnNodes2 (n1 n2 : Nat) : List (Fin 2 → Nat) :=
  (List.range n2).flatMap fun j => (List.range n1).map fun i => ![i, j]

/-- The values `Ln[n]`, `Ln[n+1]` of the recursion in `legendre` and `legendreDerivative`
(shapefunctions.hpp:336-341, 356-357). -/
def legendrePair (x : K) : Nat → K × K
  | 0 => (1, x)
  | n + 1 =>
    let p := legendrePair x n
    (p.2, (2 * ((n + 1 : Nat) : K) + 1) / (((n + 1 : Nat) : K) + 1) * x * p.2 -
      ((n + 1 : Nat) : K) / (((n + 1 : Nat) : K) + 1) * p.1)

/-- `legendre(x, n)` (shapefunctions.hpp:329-344); for `n = 0` it writes past its array (undefined). -/
def legendre (x : K) (n : Nat) : Option K := if n = 0 then none else some (legendrePair x n).1

/-- `legendreDerivative(x, n)` (shapefunctions.hpp:346-360). -/
def legendreDerivative (x : K) (n : Nat) : Option K :=
  if n = 0 then none
  else if x = 1 ∨ x = -1 then some (x ^ (n - 1) * n * (n + 1) / 2)
  else
    some ((n : K) / (1 - x * x) * (legendrePair x (n - 1)).1 - n * x / (1 - x * x) * (legendrePair x n).1)

/-- The matrix whose eigenvalues are the points of `gaussLegendreGrid(n)` (shapefunctions.hpp:360-369); for `n < 2` it is
written out of range (undefined). The eigenvalue solver of Dune is not modelled. -/
def gaussMatrix (n : Nat) : Option (Fin n → Fin n → K) :=
  if n < 2 then none
  else some fun i j =>
    if i.val = 0 then (if j.val = 1 then 1 else 0)
    else if i.val < n - 1 then
      if j.val = i.val - 1 then (i.val : K) / (2 * ((i.val : K) + 1) - 1)
      else if j.val = i.val + 1 then ((i.val : K) + 1) / (2 * ((i.val : K) + 1) - 1)
      else 0
    else if j.val = n - 2 then ((n : K) - 1) / (2 * (n : K) - 1) else 0

/-- One step of the iteration for a Gauss-Lobatto point (shapefunctions.hpp:402-406). -/
def lobattoStep (n : Nat) (x : K) : Option K :=
  match legendre x (n - 1), legendreDerivative x (n - 1) with
  | some L, some Ld =>
    if ((n : K) - 1) * n * L = 0 then none else some (x + (1 - x * x) * Ld / (((n : K) - 1) * n * L))
  | _, _ => none

end Verif.Shape
