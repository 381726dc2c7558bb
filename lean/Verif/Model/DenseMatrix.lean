import Mathlib.Algebra.Field.Defs
import Mathlib.Algebra.BigOperators.Group.Finset.Basic
import Mathlib.Data.Option.Basic

/-!
Model of `opm/porsol/common/Matrix.hpp` (dense matrices stored in a flat array) and of the
part of the BLAS interface it uses.

Simplifications
* Storage policies `OwnData`, `SharedData`, `ImmutableSharedData` (Matrix.hpp:63-215) are one flat
  `List`: aliasing between matrices sharing a buffer is not modelled.
* `double` is an arbitrary field.
* An index outside the declared shape (an `assert` in the code) or a linear index outside the storage is
  undefined behaviour and gives `none`.
-/

namespace Verif.Dense

/-- Ordering policies `COrdering` and `FortranOrdering` (Matrix.hpp:266-314, 321-369). -/
inductive Ordering where
  | c
  | fortran
  deriving DecidableEq, Repr

/-- `COrdering::idx` `row*numCols()+col` (Matrix.hpp:290-296) and
`FortranOrdering::idx` `row + col*numRows()` (Matrix.hpp:345-351). -/
def Ordering.idx (o : Ordering) (rows cols row col : Nat) : Nat :=
  match o with
  | .c => row * cols + col
  | .fortran => row + col * rows

/-- `leadingDimension()`: number of columns for C ordering (Matrix.hpp:275), number of rows for
Fortran ordering (Matrix.hpp:330). -/
def Ordering.ld (o : Ordering) (rows cols : Nat) : Nat :=
  match o with
  | .c => cols
  | .fortran => rows

/-- `FullMatrix<T,StoragePolicy,OrderingPolicy>` (Matrix.hpp:394-564). -/
structure FullMatrix (K : Type) where
  ord : Ordering
  rows : Nat
  cols : Nat
  data : List K
  deriving DecidableEq, Repr

variable {K : Type}

namespace FullMatrix

/-- Constructor `FullMatrix(rows, cols, data)` (Matrix.hpp:425-429) with `OwnData` storage
(Matrix.hpp:99-106): a null pointer gives zero-filled storage, otherwise `rows*cols` elements are
copied from the pointer; reading past the end of the source is undefined. -/
def mk' [Zero K] (o : Ordering) (rows cols : Nat) (src : Option (List K)) : Option (FullMatrix K) :=
  match src with
  | none => some ⟨o, rows, cols, List.replicate (rows * cols) 0⟩
  | some l => if rows * cols ≤ l.length then some ⟨o, rows, cols, l.take (rows * cols)⟩ else none

/-- `FullMatrix::operator()(row,col) const` (Matrix.hpp:560-563), with the asserts of `idx`. -/
def get (A : FullMatrix K) (r c : Nat) : Option K :=
  if r < A.rows ∧ c < A.cols then A.data[A.ord.idx A.rows A.cols r c]? else none

/-- Assignment through `FullMatrix::operator()(row,col)` (Matrix.hpp:544-547). -/
def set (A : FullMatrix K) (r c : Nat) (v : K) : Option (FullMatrix K) :=
  if r < A.rows ∧ c < A.cols then
    if A.ord.idx A.rows A.cols r c < A.data.length then
      some { A with data := A.data.set (A.ord.idx A.rows A.cols r c) v }
    else none
  else none

/-- The doubly nested loop header `for r in [0,rows) for c in [0,cols)` used by the element-wise
operations (Matrix.hpp:461-466, 487-493). -/
def rowMajorPairs (rows cols : Nat) : List (Nat × Nat) :=
  (List.range rows).flatMap fun r => (List.range cols).map fun c => (r, c)

/-- Loop header `for c in [0,cols) for r in [0,rows)` (Matrix.hpp:700-701). -/
def colMajorPairs (rows cols : Nat) : List (Nat × Nat) :=
  (List.range cols).flatMap fun c => (List.range rows).map fun r => (r, c)

/-- Heterogeneous assignment `operator=` (Matrix.hpp:457-468). The shape asserts are undefined
behaviour in a release build. -/
def assign (A M : FullMatrix K) : Option (FullMatrix K) :=
  if A.rows = M.rows ∧ A.cols = M.cols then
    (rowMajorPairs A.rows A.cols).foldlM (fun (X : FullMatrix K) rc => do
      let v ← M.get rc.1 rc.2
      X.set rc.1 rc.2 v) A
  else none

/-- `operator==` (Matrix.hpp:481-495). -/
def beq [DecidableEq K] (A M : FullMatrix K) : Option Bool :=
  if A.rows ≠ M.rows ∨ A.cols ≠ M.cols then some false
  else
    (rowMajorPairs A.rows A.cols).foldlM (fun (acc : Bool) rc => do
      if acc then
        let x ← A.get rc.1 rc.2
        let y ← M.get rc.1 rc.2
        pure (decide (x = y))
      else pure false) true

/-- `operator+=` for equal ordering: `std::transform` over the flat storage (Matrix.hpp:505-511). -/
def addAssign [Add K] (A M : FullMatrix K) : Option (FullMatrix K) :=
  if A.rows = M.rows ∧ A.cols = M.cols ∧ A.ord = M.ord ∧ A.data.length ≤ M.data.length then
    some { A with data := List.zipWith (· + ·) A.data M.data }
  else none

/-- `operator*=` (Matrix.hpp:518-522). -/
def smulAssign [Mul K] (A : FullMatrix K) (s : K) : FullMatrix K :=
  { A with data := A.data.map (fun x => x * s) }

/-- `zero(A)`: `std::fill_n(A.data(), rows*cols, 0)` (Matrix.hpp:601-605). -/
def zero [Zero K] (A : FullMatrix K) : Option (FullMatrix K) :=
  if A.rows * A.cols ≤ A.data.length then
    some { A with data := List.replicate (A.rows * A.cols) 0 ++ A.data.drop (A.rows * A.cols) }
  else none

/-- `eye(A)` (Matrix.hpp:616-623). -/
def eye [Zero K] [One K] (A : FullMatrix K) : Option (FullMatrix K) := do
  let Z ← A.zero
  (List.range (min A.rows A.cols)).foldlM (fun (X : FullMatrix K) i => X.set i i 1) Z

/-- `trace(A)` (Matrix.hpp:636-646). -/
def trace [Zero K] [Add K] (A : FullMatrix K) : Option K :=
  (List.range (min A.rows A.cols)).foldlM (fun (acc : K) i => do
    let v ← A.get i i
    pure (acc + v)) 0

/-- `prod(A, x)` for a square matrix applied to a `FieldVector` (Matrix.hpp:666-681). -/
def prodVec [Zero K] [Add K] [Mul K] (A : FullMatrix K) (x : List K) : Option (List K) :=
  if A.rows = x.length ∧ A.cols = x.length then
    (colMajorPairs x.length x.length).foldlM (fun (res : List K) rc => do
      let a ← A.get rc.1 rc.2
      let xc ← x[rc.2]?
      let old ← res[rc.1]?
      pure (res.set rc.1 (old + a * xc))) (List.replicate x.length 0)
  else none

/-- `prod(A, B, C)` (Matrix.hpp:690-708); `C` must not overlap `A` or `B`. -/
def prod [Zero K] [Add K] [Mul K] (A B C : FullMatrix K) : Option (FullMatrix K) :=
  if A.cols = B.rows ∧ C.rows = A.rows ∧ C.cols = B.cols then
    (colMajorPairs A.rows B.cols).foldlM (fun (X : FullMatrix K) rc => do
      let X0 ← X.set rc.1 rc.2 0
      (List.range A.cols).foldlM (fun (Y : FullMatrix K) i => do
        let a ← A.get rc.1 i
        let b ← B.get i rc.2
        let old ← Y.get rc.1 rc.2
        Y.set rc.1 rc.2 (old + a * b)) X0) C
  else none

/-- Reinterpretation of a C-ordered matrix as its Fortran-ordered transpose on the same buffer
(Matrix.hpp:1092-1094, 1317-1319). -/
def reinterpretT (A : FullMatrix K) : FullMatrix K :=
  { ord := .fortran, rows := A.cols, cols := A.rows, data := A.data }

end FullMatrix

/-! ### BLAS kernels

External code (reference BLAS), modelled by its documented semantics on flat column-major buffers:
`X(i,j)` is slot `i + j*ld`.  A leading dimension smaller than `max 1 rows` is rejected by the library
(`xerbla`) and a buffer that is too short is an out-of-range access: both give `none`. -/

/-- A buffer of length `len` can hold a column-major `rows × cols` matrix with leading dimension `ld`. -/
def bufOk (rows cols ld len : Nat) : Bool :=
  decide (max 1 rows ≤ ld) && (decide (rows = 0) || decide (cols = 0) || decide ((cols - 1) * ld + rows ≤ len))

/-- Read slot `(i,j)` of a column-major buffer (only used inside `bufOk`). -/
def bufAt [Zero K] (X : List K) (ld i j : Nat) : K := X.getD (i + j * ld) 0

/-- GEMM (`blas_lapack.hpp`, called at Matrix.hpp:1150-1153, 1208-1211, 1266-1269):
`C ← a1*op(A)*op(B) + a2*C` with `op(A)` of size `m × k`, `op(B)` of size `k × n`. -/
def gemm [Field K] (ta tb : Bool) (m n k : Nat) (a1 : K) (A : List K) (lda : Nat)
    (B : List K) (ldb : Nat) (a2 : K) (C : List K) (ldc : Nat) : Option (List K) :=
  if bufOk (if ta then k else m) (if ta then m else k) lda A.length &&
     bufOk (if tb then n else k) (if tb then k else n) ldb B.length &&
     bufOk m n ldc C.length then
    some (C.mapIdx fun p cold =>
      if p % ldc < m ∧ p / ldc < n then
        a1 * (∑ l ∈ Finset.range k,
          (if ta then bufAt A lda l (p % ldc) else bufAt A lda (p % ldc) l) *
          (if tb then bufAt B ldb (p / ldc) l else bufAt B ldb l (p / ldc))) + a2 * cold
      else cold)
  else none

/-- GEMV (called at Matrix.hpp:922-925, 963-966, 1008-1011, 1050-1053) with unit strides:
`y ← a1*op(A)*x + a2*y`, `A` of size `m × n`. -/
def gemv [Field K] (t : Bool) (m n : Nat) (a1 : K) (A : List K) (lda : Nat) (x : List K) (a2 : K)
    (y : List K) : Option (List K) :=
  if bufOk m n lda A.length && decide ((if t then m else n) ≤ x.length) &&
     decide ((if t then n else m) ≤ y.length) then
    some (y.mapIdx fun i yold =>
      if i < (if t then n else m) then
        a1 * (∑ l ∈ Finset.range (if t then m else n),
          (if t then bufAt A lda l i else bufAt A lda i l) * x.getD l 0) + a2 * yold
      else yold)
  else none

/-- SYRK with `uplo = Upper`, `trans = No transpose` (called at Matrix.hpp:834-837): only the upper triangle
of the `n × n` matrix `C` is updated, `C ← a1*A*Aᵀ + a2*C`, `A` of size `n × k`. -/
def syrkUpperN [Field K] (n k : Nat) (a1 : K) (A : List K) (lda : Nat) (a2 : K) (C : List K)
    (ldc : Nat) : Option (List K) :=
  if bufOk n k lda A.length && bufOk n n ldc C.length then
    some (C.mapIdx fun p cold =>
      if p % ldc < n ∧ p / ldc < n ∧ p % ldc ≤ p / ldc then
        a1 * (∑ l ∈ Finset.range k, bufAt A lda (p % ldc) l * bufAt A lda (p / ldc) l) + a2 * cold
      else cold)
  else none

/-- TRMM with `uplo = Upper`, `No transpose`, `Non-unit`, `alpha = 1` (called at Matrix.hpp:863-866,
869-872): `B ← U*B` (left) or `B ← B*U` (right), where `U` is the upper triangle of `A`;
`B` is `m × n`. -/
def trmmUpperN [Field K] (left : Bool) (m n : Nat) (A : List K) (lda : Nat) (B : List K) (ldb : Nat) :
    Option (List K) :=
  if bufOk (if left then m else n) (if left then m else n) lda A.length && bufOk m n ldb B.length then
    some (B.mapIdx fun p bold =>
      if p % ldb < m ∧ p / ldb < n then
        if left then
          ∑ l ∈ Finset.range m, (if p % ldb ≤ l then bufAt A lda (p % ldb) l else 0) * bufAt B ldb l (p / ldb)
        else
          ∑ l ∈ Finset.range n, bufAt B ldb (p % ldb) l * (if l ≤ p / ldb then bufAt A lda l (p / ldb) else 0)
      else bold)
  else none

namespace FullMatrix

/-- Replace the storage buffer of a matrix by the output buffer of a BLAS call. -/
def withData (A : FullMatrix K) (d : Option (List K)) : Option (FullMatrix K) :=
  d.map fun l => { A with data := l }

/-- `vecMulAdd_N` for a Fortran-ordered matrix and `std::vector` operands (Matrix.hpp:911-926); the two
asserts are undefined behaviour when violated. -/
def vecMulAddN [Field K] (a1 : K) (A : FullMatrix K) (x : List K) (a2 : K) (y : List K) : Option (List K) :=
  if A.ord = .fortran ∧ A.rows = y.length ∧ A.cols = x.length then
    gemv false A.rows A.cols a1 A.data (A.ord.ld A.rows A.cols) x a2 y
  else none

/-- `vecMulAdd_T` for a Fortran-ordered matrix (Matrix.hpp:997-1012). -/
def vecMulAddT [Field K] (a1 : K) (A : FullMatrix K) (x : List K) (a2 : K) (y : List K) : Option (List K) :=
  if A.ord = .fortran ∧ A.cols = y.length ∧ A.rows = x.length then
    gemv true A.rows A.cols a1 A.data (A.ord.ld A.rows A.cols) x a2 y
  else none

/-- `vecMulAdd_N` for a C-ordered matrix (Matrix.hpp:1084-1097): builds the Fortran-ordered transpose on
the same buffer and calls `vecMulAdd_T`. (The code uses the pointer overload, which has no asserts; callers
must supply vectors of matching length.) -/
def vecMulAddNC [Field K] (a1 : K) (A : FullMatrix K) (x : List K) (a2 : K) (y : List K) : Option (List K) :=
  if A.ord = .c then vecMulAddT a1 A.reinterpretT x a2 y else none

/-- `matMulAdd_NN`, all operands Fortran ordered (Matrix.hpp:1132-1154). -/
def matMulAddNN [Field K] (a1 : K) (A B : FullMatrix K) (a2 : K) (C : FullMatrix K) : Option (FullMatrix K) :=
  if A.ord = .fortran ∧ B.ord = .fortran ∧ C.ord = .fortran ∧
     A.rows = C.rows ∧ A.cols = B.rows ∧ B.cols = C.cols then
    C.withData (gemm false false A.rows B.cols A.cols a1 A.data (A.ord.ld A.rows A.cols)
      B.data (B.ord.ld B.rows B.cols) a2 C.data (C.ord.ld C.rows C.cols))
  else none

/-- `matMulAdd_NT` (Matrix.hpp:1190-1212). -/
def matMulAddNT [Field K] (a1 : K) (A B : FullMatrix K) (a2 : K) (C : FullMatrix K) : Option (FullMatrix K) :=
  if A.ord = .fortran ∧ B.ord = .fortran ∧ C.ord = .fortran ∧
     A.rows = C.rows ∧ B.rows = C.cols ∧ A.cols = B.cols then
    C.withData (gemm false true A.rows B.rows A.cols a1 A.data (A.ord.ld A.rows A.cols)
      B.data (B.ord.ld B.rows B.cols) a2 C.data (C.ord.ld C.rows C.cols))
  else none

/-- `matMulAdd_TN` (Matrix.hpp:1248-1270). -/
def matMulAddTN [Field K] (a1 : K) (A B : FullMatrix K) (a2 : K) (C : FullMatrix K) : Option (FullMatrix K) :=
  if A.ord = .fortran ∧ B.ord = .fortran ∧ C.ord = .fortran ∧
     A.cols = C.rows ∧ A.rows = B.rows ∧ B.cols = C.cols then
    C.withData (gemm true false A.cols B.cols A.rows a1 A.data (A.ord.ld A.rows A.cols)
      B.data (B.ord.ld B.rows B.cols) a2 C.data (C.ord.ld C.rows C.cols))
  else none

/-- `matMulAdd_NN` with C-ordered `B` (Matrix.hpp:1306-1322). -/
def matMulAddNN_BC [Field K] (a1 : K) (A B : FullMatrix K) (a2 : K) (C : FullMatrix K) :
    Option (FullMatrix K) :=
  if B.ord = .c then matMulAddNT a1 A B.reinterpretT a2 C else none

/-- The loop mirroring the upper triangle into the lower one (Matrix.hpp:842-846, 876-880). -/
def mirrorUpper (C : FullMatrix K) : Option (FullMatrix K) :=
  ((List.range C.cols).flatMap fun j => ((List.range C.rows).filter (fun i => j + 1 ≤ i)).map fun i => (i, j)).foldlM
    (fun (X : FullMatrix K) ij => do
      let v ← X.get ij.2 ij.1
      X.set ij.1 ij.2 v) C

/-- `symmetricUpdate(a1, A, a2, C)` (Matrix.hpp:828-847). -/
def symmetricUpdate [Field K] (a1 : K) (A : FullMatrix K) (a2 : K) (C : FullMatrix K) : Option (FullMatrix K) :=
  if A.ord = .fortran ∧ C.ord = .fortran then do
    let C1 ← C.withData (syrkUpperN C.rows A.cols a1 A.data (A.ord.ld A.rows A.cols) a2 C.data
      (C.ord.ld C.rows C.cols))
    C1.mirrorUpper
  else none

/-- `symmetricUpdate(A, B)`: `B ← A*B*A'` through two TRMM calls (Matrix.hpp:856-882). -/
def symmetricUpdate2 [Field K] (A B : FullMatrix K) : Option (FullMatrix K) :=
  if A.ord = .fortran ∧ B.ord = .fortran then do
    let B1 ← B.withData (trmmUpperN true B.rows B.cols A.data (A.ord.ld A.rows A.cols) B.data
      (B.ord.ld B.rows B.cols))
    let B2 ← B1.withData (trmmUpperN false B1.rows B1.cols A.data (A.ord.ld A.rows A.cols) B1.data
      (B1.ord.ld B1.rows B1.cols))
    B2.mirrorUpper
  else none

end FullMatrix

/-! ### `MatrixInverse.hpp` -/

/-- `inverse2x2` (MatrixInverse.hpp:49-66) on the entry function; `none` is the division by a zero
determinant (`mi /= det`).  `FullMatrix` itself has no `operator/=`; the routine is modelled for any matrix
type that has the element-wise one. -/
def inverse2x2 [Field K] [DecidableEq K] (m : Fin 2 → Fin 2 → K) : Option (Fin 2 → Fin 2 → K) :=
  let det := m 0 0 * m 1 1 - m 0 1 * m 1 0
  if det = 0 then none
  else some fun r c =>
    (match r, c with
      | 0, 0 => m 1 1
      | 1, 0 => - m 1 0
      | 0, 1 => - m 0 1
      | 1, 1 => m 0 0) / det

/-- `inverse3x3` (MatrixInverse.hpp:85-123); `none` is a division by zero: the code divides by
`i = m(2,2)` and by `x`. -/
def inverse3x3 [Field K] [DecidableEq K] (m : Fin 3 → Fin 3 → K) : Option (Fin 3 → Fin 3 → K) :=
  let a := m 0 0
  let b := m 0 1
  let c := m 0 2
  let d := m 1 0
  let e := m 1 1
  let f := m 1 2
  let g := m 2 0
  let h := m 2 1
  let i := m 2 2
  if i = 0 then none
  else
    let t1 := e - f * h / i
    let t2 := c * h / i - b
    let t3 := f * g / i - d
    let t4 := a - c * g / i
    let x := t4 * t1 - t2 * t3
    if x = 0 then none
    else some fun r q =>
      match r, q with
      | 0, 0 => t1 / x
      | 0, 1 => t2 / x
      | 0, 2 => -(c * t1 + f * t2) / (i * x)
      | 1, 0 => t3 / x
      | 1, 1 => t4 / x
      | 1, 2 => -(c * t3 + f * t4) / (i * x)
      | 2, 0 => -(g * t1 + h * t3) / (i * x)
      | 2, 1 => -(g * t2 + h * t4) / (i * x)
      | 2, 2 => 1 / i + 1 / (i * i * x) * (c * (g * t1 + h * t3) + f * (g * t2 + h * t4))

end Verif.Dense
