import Verif.Model.DenseMatrix
import Verif.Model.MimeticIP

/-!
Model of the storage of `opm/porsol/mimetic/MimeticIPEvaluator.hpp` and `opm/porsol/mimetic/MimeticIPAnisoRelpermEvaluator.hpp`: flat work
arrays that are used for one cell after the other, tables with a row for each cell, and the numbers that the last call of
`computeDynamicParams` left. The matrix operations are those of `Model/DenseMatrix.lean`.

Simplifications: `double` is a field; `orthogonalizeColumns` is a parameter; a failed assertion, an access outside an array or row and the use of a
number that was never set give `none`. (A row of a `SparseTable` is contiguous with the next one; running over its end is taken as an error here.)
-/

namespace Verif.Evaluator

open Verif.Dense Verif.Mimetic

variable {K : Type} [Field K] {dim : Nat}

/-- The data members of `MimeticIPEvaluator` (MimeticIPEvaluator.hpp:551-556). -/
structure Iso (K : Type) where
  maxNf : Int
  totmob : Option K
  mobDens : Option K
  fa : List K
  t1 : List K
  t2 : List K
  binv : List (List K)
  gflux : List (List K)

/-- The default constructor (MimeticIPEvaluator.hpp:103-109). -/
def Iso.fresh : Iso K := ⟨-1, none, none, [], [], [], [], []⟩

/-- `init` (MimeticIPEvaluator.hpp:135-141), and the other constructor (MimeticIPEvaluator.hpp:119-126) on fresh members. -/
def Iso.init (dim maxNf : Nat) (s : Iso K) : Iso K :=
  { s with maxNf := (maxNf : Int), fa := List.replicate (maxNf * maxNf) 0, t1 := List.replicate (maxNf * dim) 0, t2 := List.replicate (maxNf * dim) 0 }

/-- `reserveMatrices` (MimeticIPEvaluator.hpp:158-170). -/
def Iso.reserve (sz : List Nat) (s : Iso K) : Iso K :=
  { s with binv := sz.map fun n => List.replicate (n * n) 0, gflux := sz.map fun n => List.replicate n 0 }

/-- A `SharedFortranMatrix` on the beginning of an array, e.g. MimeticIPEvaluator.hpp:223. -/
def view (w : List K) (rows cols : Nat) : Option (FullMatrix K) :=
  if rows * cols ≤ w.length then some ⟨.fortran, rows, cols, w.take (rows * cols)⟩ else none

/-- The array after its beginning was changed through a matrix. -/
def back (w : List K) (A : FullMatrix K) : List K := A.data ++ w.drop A.data.length

/-- `f` on a matrix after `zero`. -/
def cleared (w : List K) (rows cols : Nat) : Option (FullMatrix K) := (view w rows cols).bind FullMatrix.zero

/-- What the loop over the faces fills. -/
structure Filled (K : Type) where
  eye : FullMatrix K
  fa : FullMatrix K
  n : FullMatrix K
  c : FullMatrix K

/-- A row of a matrix: `for (int j = 0; j < dim; ++j) { T(i,j) = v[j]; }` (MimeticIPEvaluator.hpp:246-249). -/
def setRow (A : FullMatrix K) (i : Nat) (v : Fin dim → K) : Option (FullMatrix K) :=
  (List.finRange dim).foldlM (fun (X : FullMatrix K) j => X.set i j.val (v j)) A

/-- One face (MimeticIPEvaluator.hpp:235-249, 410-421, MimeticIPAnisoRelpermEvaluator.hpp:240-251). -/
def faceStep {n : Nat} (c : Cell K dim n) (s : Filled K) (i : Fin n) : Option (Filled K) := do
  let eye ← s.eye.set i.val i.val 1
  let fa ← s.fa.set i.val i.val (c.face i).area
  let nn ← setRow s.n i.val fun j => (c.face i).normal j * (c.face i).area
  let cc ← setRow s.c i.val fun j => ((c.face i).centroid j - c.centroid j) * (c.face i).area
  some ⟨eye, fa, nn, cc⟩

/-- The loop over the faces with the assertion after it (MimeticIPEvaluator.hpp:233-252). -/
def faces {n : Nat} (c : Cell K dim n) (nf : Nat) (s : Filled K) : Option (Filled K) :=
  ((List.finRange n).foldlM (faceStep c) s).bind fun s => if n = nf then some s else none

/-- `matMulAdd_NN` for either ordering of the second factor. -/
def mulNN (a1 : K) (A B : FullMatrix K) (a2 : K) (C : FullMatrix K) : Option (FullMatrix K) :=
  match B.ord with
  | .fortran => FullMatrix.matMulAddNN a1 A B a2 C
  | .c => FullMatrix.matMulAddNN_BC a1 A B a2 C

/-- `T2 <- N*K`, `Binv <- (T2*N' + t*Binv)/vol` (MimeticIPEvaluator.hpp:264-274, 436-445): the results `Binv` and `T2`. -/
def finish (dim : Nat) (vol : K) (P n B T : FullMatrix K) : Option (FullMatrix K × FullMatrix K) := do
  let T ← mulNN 1 n P 0 T
  let tr ← P.trace
  let B ← FullMatrix.matMulAddNT (1 / vol) T n (6 * tr / (dim : K) / vol) B
  some (B, T)

/-- The fluxes of gravity of the faces: `gflux_[ci][i] = fn * Kg` (MimeticIPEvaluator.hpp:244). -/
def gravityRow {n : Nat} (c : Cell K dim n) (kg : List K) : Option (List K) :=
  (List.finRange n).mapM fun i =>
    (List.finRange dim).foldlM (fun (a : K) j => (kg[j.val]?).map fun k => a + (c.face i).normal j * (c.face i).area * k) 0

/-- `evaluate` (MimeticIPEvaluator.hpp:382-446) after its assertions and the common part of `buildStaticContrib` (MimeticIPEvaluator.hpp:211-275): the new
matrix and work arrays. `orth` is `orthogonalizeColumns`, `none` if it fails. -/
def core {n : Nat} (orth : FullMatrix K → Option (FullMatrix K)) (c : Cell K dim n) (P : FullMatrix K) (nf : Nat) (fa t1 t2 row : List K) :
    Option (FullMatrix K × List K × List K × List K) := do
  let B ← cleared row nf nf
  let T1 ← cleared t1 nf dim
  let T2 ← cleared t2 nf dim
  let F ← cleared fa nf nf
  let s ← faces c nf ⟨B, F, T1, T2⟩
  let Q ← orth s.c
  let B ← FullMatrix.symmetricUpdate (-1) Q 1 s.eye
  let B ← FullMatrix.symmetricUpdate2 s.fa B
  let r ← finish dim c.volume P s.n B Q
  some (r.1, back fa s.fa, back t1 s.n, back t2 r.2)

/-- `buildStaticContrib` (MimeticIPEvaluator.hpp:201-275). -/
def Iso.build {n : Nat} (orth : FullMatrix K → Option (FullMatrix K)) (ci : Nat) (c : Cell K dim n) (P : FullMatrix K) (grav : Fin dim → K) (nf : Nat)
    (s : Iso K) : Option (Iso K) := do
  let row ← s.binv[ci]?
  let grow ← s.gflux[ci]?
  let kg ← P.prodVec (List.ofFn grav)
  let g ← gravityRow c kg
  let r ← core orth c P nf s.fa s.t1 s.t2 row
  if n ≤ grow.length then
    some { s with
      binv := s.binv.set ci (back row r.1), gflux := s.gflux.set ci (g ++ grow.drop n), fa := r.2.1, t1 := r.2.2.1, t2 := r.2.2.2 }
  else none

/-- `computeDynamicParams` (MimeticIPEvaluator.hpp:297-312); densities and mobilities of the phases are given for each cell. -/
def Iso.dynamic (rho mob : Nat → List K) (ci : Nat) (s : Iso K) : Iso K :=
  { s with totmob := some (Mimetic.totmob (mob ci)), mobDens := some (Mimetic.mobDens (rho ci) (mob ci)) }

/-- `getInverseMatrix` (MimeticIPEvaluator.hpp:335-351): the storage of the caller's matrix afterwards. -/
def Iso.inverse (ci : Nat) (out : FullMatrix K) (s : Iso K) : Option (FullMatrix K) := do
  let row ← s.binv[ci]?
  let t ← s.totmob
  if row.length ≤ out.data.length then some { out with data := row.map (fun x => x * t) ++ out.data.drop row.length } else none

/-- `gravityFlux` (MimeticIPEvaluator.hpp:541-549): the numbers written. -/
def Iso.gravity (ci : Nat) (s : Iso K) : Option (List K) := do
  let row ← s.gflux[ci]?
  let d ← s.mobDens
  some (row.map fun x => x * d)

/-- `evaluate` (MimeticIPEvaluator.hpp:382-446). -/
def Iso.evaluate {n : Nat} (orth : FullMatrix K → Option (FullMatrix K)) (c : Cell K dim n) (P out : FullMatrix K) (s : Iso K) : Option (FullMatrix K × Iso K) :=
  if (out.rows : Int) ≤ s.maxNf ∧ out.rows = out.cols ∧ out.ord = .fortran then do
    let r ← core orth c P out.rows s.fa s.t1 s.t2 out.data
    some (r.1, { s with fa := r.2.1, t1 := r.2.2.1, t2 := r.2.2.2 })
  else none

/-! ### tensor mobilities -/

/-- The data members of `MimeticIPAnisoRelpermEvaluator` (MimeticIPAnisoRelpermEvaluator.hpp:418-427); `rock` is what `prock_` points at, the permeability of
each cell. -/
structure Aniso (K : Type) where
  fa : List K
  t2 : List K
  second : List (List K)
  n : List (List K)
  kg : List (List K)
  dynKg : Option (List K)
  lambdaK : Option (FullMatrix K)
  rock : Option (Nat → FullMatrix K)

def Aniso.fresh : Aniso K := ⟨[], [], [], [], [], none, none, none⟩

/-- `init` (MimeticIPAnisoRelpermEvaluator.hpp:134-140). -/
def Aniso.init (dim maxNf : Nat) (s : Aniso K) : Aniso K :=
  { s with fa := List.replicate (maxNf * maxNf) 0, t2 := List.replicate (maxNf * dim) 0 }

/-- `reserveMatrices` (MimeticIPAnisoRelpermEvaluator.hpp:157-176). -/
def Aniso.reserve (dim : Nat) (sz : List Nat) (s : Aniso K) : Aniso K :=
  { s with
    second := sz.map fun n => List.replicate (n * n) 0, n := sz.map fun n => List.replicate (n * dim) 0,
    kg := sz.map fun _ => List.replicate dim 0 }

/-- `vecMulAdd_N` for either ordering. -/
def mulVec (a1 : K) (A : FullMatrix K) (x : List K) (a2 : K) (y : List K) : Option (List K) :=
  match A.ord with
  | .fortran => FullMatrix.vecMulAddN a1 A x a2 y
  | .c => FullMatrix.vecMulAddNC a1 A x a2 y

/-- `buildStaticContrib` (MimeticIPAnisoRelpermEvaluator.hpp:207-270). -/
def Aniso.build {n : Nat} (orth : FullMatrix K → Option (FullMatrix K)) (ci : Nat) (c : Cell K dim n) (r : Nat → FullMatrix K) (grav : Fin dim → K) (nf : Nat)
    (s : Aniso K) : Option (Aniso K) := do
  let row ← s.second[ci]?
  let nrow ← s.n[ci]?
  let krow ← s.kg[ci]?
  let B ← cleared row nf nf
  let N ← cleared nrow nf dim
  let T2 ← cleared s.t2 nf dim
  let F ← cleared s.fa nf nf
  let w ← faces c nf ⟨B, F, N, T2⟩
  let Q ← orth w.c
  let B ← FullMatrix.symmetricUpdate (-1) Q 1 w.eye
  let B ← FullMatrix.symmetricUpdate2 w.fa B
  let kg ← mulVec 1 (r ci) (List.ofFn grav) 0 krow
  some { s with
    second := s.second.set ci (back row B), n := s.n.set ci (back nrow w.n), kg := s.kg.set ci kg, fa := back s.fa w.fa, t2 := back s.t2 Q,
    rock := some r }

/-- A phase in the loop of `computeDynamicParams` (MimeticIPAnisoRelpermEvaluator.hpp:317-326). -/
def phaseStep (kg : List K) (a : List K × List K) (p : K × FullMatrix K) : Option (List K × List K) := do
  let d ← FullMatrix.vecMulAddN p.1 p.2 kg 1 a.1
  some (d, List.zipWith (· + ·) a.2 p.2.data)

/-- `computeDynamicParams` (MimeticIPAnisoRelpermEvaluator.hpp:296-333); the phases of each cell are given by density and mobility. -/
def Aniso.dynamic (dim : Nat) (phases : Nat → List (K × FullMatrix K)) (ci : Nat) (s : Aniso K) : Option (Aniso K) := do
  let kg ← s.kg[ci]?
  let rock ← s.rock
  let a ← (phases ci).foldlM (phaseStep kg) (List.replicate dim 0, List.replicate (dim * dim) 0)
  let lk ← FullMatrix.prod ⟨.fortran, dim, dim, a.2⟩ (rock ci) ⟨.fortran, dim, dim, List.replicate (dim * dim) 0⟩
  some { s with dynKg := some a.1, lambdaK := some lk }

/-- `getInverseMatrix` (MimeticIPAnisoRelpermEvaluator.hpp:361-388): the caller's matrix and the work array. -/
def Aniso.inverse (dim ci : Nat) (vol : K) (out : FullMatrix K) (s : Aniso K) : Option (FullMatrix K × Aniso K) := do
  let nrow ← s.n[ci]?
  let row ← s.second[ci]?
  let lk ← s.lambdaK
  let n ← view nrow out.rows dim
  let t ← view row out.rows out.rows
  let B ← out.assign t
  let T2 ← view s.t2 out.rows dim
  let r ← finish dim vol lk n B T2
  some (r.1, { s with t2 := back s.t2 r.2 })

/-- `gravityFlux` (MimeticIPAnisoRelpermEvaluator.hpp:404-416). -/
def Aniso.gravity (dim ci : Nat) (out : List K) (s : Aniso K) : Option (List K) := do
  let nrow ← s.n[ci]?
  let d ← s.dynKg
  let n ← view nrow (nrow.length / dim) dim
  FullMatrix.vecMulAddN 1 n d 0 out

end Verif.Evaluator
