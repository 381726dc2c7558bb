import Mathlib.Algebra.Order.Field.Basic
import Mathlib.Algebra.Order.Group.Abs

/-!
Model of the operations on sparse matrices (`opm/elasticity/matrixops.hpp`, `matrixops.cpp`). A `Dune::BCRSMatrix` of 1×1 blocks is its
size and the partial map of its stored entries; iteration visits the rows and in each row the stored columns in increasing order. Reading
or writing an entry that is not stored, and a pattern that does not fit into the size, is the outcome `none`.
-/

namespace Verif.MatrixOps

/-- A sparse matrix. -/
structure Sparse (K : Type) where
  n : Nat
  m : Nat
  entry : Nat → Nat → Option K

variable {K : Type}

/-- The stored entries in the order of the iterators (`begin()`/`end()` of the matrix and of its rows). -/
def Sparse.entries (A : Sparse K) : List (Nat × Nat × K) :=
  (List.range A.n).flatMap fun i => (List.range A.m).filterMap fun j => (A.entry i j).map fun v => (i, j, v)

/-- `result[i][j] = v`. -/
def Sparse.set (A : Sparse K) (i j : Nat) (v : K) : Option (Sparse K) :=
  if (A.entry i j).isSome then
    some { A with entry := fun a b => if a = i ∧ b = j then some v else A.entry a b }
  else none

/-- The assignments of a list, in order. -/
def setAll (A : Sparse K) (l : List (Nat × Nat × K)) : Option (Sparse K) := l.foldlM (fun R p => R.set p.1 p.2.1 p.2.2) A

variable [Field K]

/-- `result[i][j] += v`. -/
def Sparse.add (A : Sparse K) (i j : Nat) (v : K) : Option (Sparse K) :=
  match A.entry i j with
  | some w => A.set i j (w + v)
  | none => none

/-- `fromAdjacency` (matrixops.cpp:24-47) for a pattern with `rows` rows, given as the list of the inserted positions: the entries of the
pattern, all zero. -/
def fromAdjacency (rows cols : Nat) (adj : List (Nat × Nat)) : Option (Sparse K) :=
  if ∀ p ∈ adj, p.1 < rows ∧ p.2 < cols then
    some { n := rows, m := cols, entry := fun i j => if (i, j) ∈ adj then some 0 else none }
  else none

/-- `Axpy` (matrixops.cpp:87-124); the assertion on the sizes is the outcome `none`. -/
def axpy (A B : Sparse K) (alpha : K) : Option (Sparse K) :=
  if A.m = B.m ∧ A.n = B.n then
    (fromAdjacency A.n A.m (A.entries.map (fun p => (p.1, p.2.1)) ++ B.entries.map fun p => (p.1, p.2.1))).bind fun R =>
    (setAll R A.entries).bind fun R =>
    B.entries.foldlM (fun R p => R.add p.1 p.2.1 (alpha * p.2.2)) R
  else none

/-- Number of rows in `augment` (matrixops.cpp:131-136). -/
def augRows (A B : Sparse K) (r0 c0 : Nat) (symmetric : Bool) : Nat :=
  let nrow := if r0 + B.n > A.n then r0 + B.n else A.n
  if symmetric ∧ c0 + B.m > nrow then c0 + B.m else nrow

/-- Number of columns in `augment` (matrixops.cpp:132-135). -/
def augCols (A B : Sparse K) (r0 c0 : Nat) (symmetric : Bool) : Nat :=
  let ncol := if symmetric ∧ r0 + B.n > A.m then r0 + B.n else A.m
  if c0 + B.m > ncol then c0 + B.m else ncol

/-- The positions and values at which the entries of `B` are written (matrixops.cpp:151-155, 172-176). -/
def augWrites (B : Sparse K) (r0 c0 : Nat) (symmetric : Bool) : List (Nat × Nat × K) :=
  B.entries.flatMap fun p =>
    if symmetric then [(p.1 + r0, p.2.1 + c0, p.2.2), (p.2.1 + c0, p.1 + r0, p.2.2)] else [(p.1 + r0, p.2.1 + c0, p.2.2)]

/-- `augment` (matrixops.cpp:126-182). -/
def augment (A B : Sparse K) (r0 c0 : Nat) (symmetric : Bool) : Option (Sparse K) :=
  let nrow := augRows A B r0 c0 symmetric
  let ncol := augCols A B r0 c0 symmetric
  (fromAdjacency nrow ncol (A.entries.map (fun p => (p.1, p.2.1)) ++ (augWrites B r0 c0 symmetric).map (fun p => (p.1, p.2.1)) ++
    if symmetric then (List.range nrow).map fun i => (i, i) else [])).bind fun R =>
  (setAll R A.entries).bind fun R => setAll R (augWrites B r0 c0 symmetric)

/-- `diagonal` (matrixops.cpp:198-208). -/
def diagonal (N : Nat) : Option (Sparse K) := fromAdjacency N N ((List.range N).map fun i => (i, i))

/-- `extractDiagonal` (matrixops.cpp:184-196). -/
def extractDiagonal (A : Sparse K) : Option (Sparse K) :=
  (fromAdjacency A.m A.m ((List.range A.m).map fun i => (i, i))).bind fun R =>
  (List.range A.m).foldlM (fun R i => (A.entry i i).bind fun v => R.set i i v) R

/-- The entries in the requested block, at their new positions (matrixops.cpp:246-256, 263-272). -/
def blockEntries (A : Sparse K) (r0 N c0 M : Nat) : List (Nat × Nat × K) :=
  A.entries.filterMap fun p =>
    if p.1 < r0 ∨ p.1 ≥ N + r0 then none
    else if p.2.1 < c0 ∨ p.2.1 ≥ M + c0 then none
    else some (p.1 - r0, p.2.1 - c0, p.2.2)

/-- `extractBlock` (matrixops.cpp:240-275). -/
def extractBlock (A : Sparse K) (r0 N c0 M : Nat) : Option (Sparse K) :=
  (fromAdjacency N M ((blockEntries A r0 N c0 M).map fun p => (p.1, p.2.1))).bind fun R => setAll R (blockEntries A r0 N c0 M)

/-- One row of `saveAsc` (matrixops.cpp:221-236): the numbers that are written; `row` are the stored columns and values of the row. -/
def saveRow (m : Nat) (row : List (Nat × K)) : List K :=
  let s := row.foldl (fun (s : List K × Int) (p : Nat × K) => (s.1 ++ List.replicate ((p.1 : Int) - s.2 - 1).toNat 0 ++ [p.2], (p.1 : Int))) ([], -1)
  s.1 ++ List.replicate ((m : Int) - s.2 - 1).toNat 0

/-- `saveAsc` (matrixops.cpp:210-238) after the line with the size: the numbers line by line. The iterator visits the rows without stored
entries as well. -/
def saveAsc (A : Sparse K) : List (List K) :=
  ((List.range A.n).foldl (fun (s : List (List K) × Int) (i : Nat) =>
    (s.1 ++ List.replicate ((i : Int) - s.2 - 1).toNat (List.replicate A.m 0) ++
      [saveRow A.m ((List.range A.m).filterMap fun j => (A.entry i j).map fun v => (j, v))], (i : Int))) ([], -1)).1

variable [LinearOrder K]

/-- `fromDense` (matrixops.cpp:49-71). -/
def fromDense (n m : Nat) (T : Nat → Nat → K) : Option (Sparse K) :=
  (fromAdjacency n m ((List.range n).flatMap fun i => (List.range m).filterMap fun j =>
    if |T i j| > 1 / 10 ^ 14 then some (i, j) else none)).bind fun (R : Sparse K) =>
  setAll R (R.entries.map fun p => (p.1, p.2.1, T p.1 p.2.1))

end Verif.MatrixOps
