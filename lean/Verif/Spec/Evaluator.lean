import Verif.Model.Evaluator
import Verif.Spec.Dense

/-! What C113 talks about: stored matrices of cells, histories of calls. -/

namespace Verif.Evaluator

open Verif.Dense Verif.Mimetic

variable {K : Type} [Field K] {dim : Nat}

/-- What a call of `buildStaticContrib` is about: geometry of the cell, permeability, gravity, and the orthonormal basis that
`orthogonalizeColumns` gives for this cell. -/
structure Job (K : Type) (dim : Nat) where
  nf : Nat
  cell : Cell K dim nf
  P : Fin dim → Fin dim → K
  grav : Fin dim → K
  Q : Fin nf → Fin dim → K

/-- `orthogonalizeColumns` gives `Q` for the matrix of area weighted, centred face centroids of the cell. -/
def Orth (orth : FullMatrix K → Option (FullMatrix K)) {nf : Nat} (c : Cell K dim nf) (Q : Fin nf → Fin dim → K) : Prop :=
  ∀ A : FullMatrix K, A.ord = .fortran →
    Represents A (Matrix.of fun i j => ((c.face i).centroid j - c.centroid j) * (c.face i).area) →
    ∃ A', orth A = some A' ∧ A'.ord = .fortran ∧ Represents A' (Matrix.of Q)

/-- An array holds a square matrix, column after column. -/
def Holds (l : Option (List K)) {n : Nat} (M : Fin n → Fin n → K) : Prop :=
  ∃ row, l = some row ∧ Represents (⟨.fortran, n, n, row⟩ : FullMatrix K) (Matrix.of M)

/-- Arrays large enough for cells with `sz` faces. -/
structure Ready (dim : Nat) (sz : List Nat) (s : Iso K) : Prop where
  fa : ∀ n ∈ sz, n * n ≤ s.fa.length
  t1 : ∀ n ∈ sz, n * dim ≤ s.t1.length
  t2 : ∀ n ∈ sz, n * dim ≤ s.t2.length
  binv : s.binv.map List.length = sz.map fun n => n * n
  gflux : s.gflux.map List.length = sz

/-- A call that changes the object. -/
inductive Call (K : Type) (dim : Nat) where
  | build (ci : Nat) (job : Job K dim) (P : FullMatrix K)
  | dynamic (ci : Nat) (rho mob : Nat → List K)

/-- The calls one after the other. -/
def calls (orth : FullMatrix K → Option (FullMatrix K)) (l : List (Call K dim)) (s : Iso K) : Option (Iso K) :=
  l.foldlM (fun (s : Iso K) c => match c with
    | .build ci j P => s.build orth ci j.cell P j.grav j.nf
    | .dynamic ci rho mob => some (s.dynamic rho mob ci)) s

/-- The calls are about cells of the grid, with the right number of faces. -/
def Proper (orth : FullMatrix K → Option (FullMatrix K)) (sz : List Nat) (l : List (Call K dim)) : Prop :=
  ∀ ci (j : Job K dim) (P : FullMatrix K), Call.build ci j P ∈ l → sz[ci]? = some j.nf ∧ 0 < j.nf ∧ Orth orth j.cell j.Q ∧ Represents P (Matrix.of j.P)

/-- The last call of `buildStaticContrib` for cell `ci` is about `j`. -/
def LastBuild (l : List (Call K dim)) (ci : Nat) (j : Job K dim) : Prop :=
  ∃ P pre post, l = pre ++ Call.build ci j P :: post ∧ ∀ j' P', Call.build ci j' P' ∉ post

/-! ### tensor mobilities -/

/-- Arrays large enough for cells with `sz` faces. -/
structure AReady (dim : Nat) (sz : List Nat) (s : Aniso K) : Prop where
  fa : ∀ n ∈ sz, n * n ≤ s.fa.length
  t2 : ∀ n ∈ sz, n * dim ≤ s.t2.length
  second : s.second.map List.length = sz.map fun n => n * n
  n : s.n.map List.length = sz.map fun n => n * dim
  kg : s.kg.map List.length = sz.map fun _ => dim

/-- The phases of a cell: densities and mobility tensors. -/
def Phases (l : List (K × FullMatrix K)) (m : List (K × (Fin dim → Fin dim → K))) : Prop :=
  List.Forall₂ (fun a b => a.1 = b.1 ∧ a.2.ord = .fortran ∧ Represents a.2 (Matrix.of b.2)) l m

/-- The objects that calls can lead to, if the rock is the same all the time; `b` is what the last call of `buildStaticContrib` for each cell was about. -/
inductive Reach (orth : FullMatrix K → Option (FullMatrix K)) (sz : List Nat) (rock : Nat → FullMatrix K) : (Nat → Option (Job K dim)) → Aniso K → Prop
  | start (s : Aniso K) (m : Nat) (h : ∀ n ∈ sz, n ≤ m) : Reach orth sz rock (fun _ => none) ((s.init dim m).reserve dim sz)
  | build {b s s'} (ci : Nat) (j : Job K dim) (h : Reach orth sz rock b s) (h1 : sz[ci]? = some j.nf) (h2 : 0 < j.nf) (h3 : Orth orth j.cell j.Q)
      (h4 : Represents (rock ci) (Matrix.of j.P)) (h5 : s.build orth ci j.cell rock j.grav j.nf = some s') :
      Reach orth sz rock (fun k => if k = ci then some j else b k) s'
  | dynamic {b s s'} (ci : Nat) (phases : Nat → List (K × FullMatrix K)) (h : Reach orth sz rock b s) (h1 : s.dynamic dim phases ci = some s') : Reach orth sz rock b s'
  | inverse {b s s'} (ci : Nat) (vol : K) (out B : FullMatrix K) (h : Reach orth sz rock b s) (h1 : s.inverse dim ci vol out = some (B, s')) : Reach orth sz rock b s'

end Verif.Evaluator
