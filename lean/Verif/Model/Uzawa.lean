import Verif.Model.MatrixOps

/-!
Model of the operators and solvers of the mortar system (`opm/elasticity/mortar_utils.hpp`, `mortar_evaluator.hpp`, `mortar_schur.hpp`,
`mortar_schur_precond.hpp`, `uzawa_solver.hpp` and `applyMortarBlock` in `elasticity_upscale_impl.hpp`). The products of sparse matrices
and vectors are those of `Dune::BCRSMatrix` (a library): they add the contributions of the stored entries. A vector is its length and its
values; an access outside of a vector is the outcome `none`. The solvers and preconditioners for the blocks are parameters that get the
start vector and the right-hand side.
-/

namespace Verif.MatrixOps

/-- A vector. -/
structure Vec (K : Type) where
  len : Nat
  at_ : Nat → K

variable {K : Type} [Field K]

/-- A vector of zeros. -/
def Vec.zero (n : Nat) : Vec K := ⟨n, fun _ => 0⟩

/-- Contribution of row `i`: the stored entries times the vector, added to `s`. -/
def rowDot (A : Sparse K) (alpha : K) (x : Vec K) (i : Nat) (s : K) : K :=
  (List.range A.m).foldl (fun s j => match A.entry i j with
    | some a => s + alpha * a * x.at_ j
    | none => s) s

/-- Contribution of column `j`. -/
def colDot (A : Sparse K) (alpha : K) (x : Vec K) (j : Nat) (s : K) : K :=
  (List.range A.n).foldl (fun s i => match A.entry i j with
    | some a => s + alpha * a * x.at_ i
    | none => s) s

/-- `A.usmv(alpha, x, y)`: `y += alpha A x` (`umv`: `alpha = 1`; `mmv`: `alpha = -1`). -/
def usmv (A : Sparse K) (alpha : K) (x y : Vec K) : Option (Vec K) :=
  if A.m ≤ x.len ∧ A.n ≤ y.len then some ⟨y.len, fun i => if i < A.n then rowDot A alpha x i (y.at_ i) else y.at_ i⟩ else none

/-- `A.mv(x, y)`: `y = A x`. -/
def mv (A : Sparse K) (x y : Vec K) : Option (Vec K) :=
  if A.m ≤ x.len ∧ A.n ≤ y.len then some ⟨y.len, fun i => if i < A.n then rowDot A 1 x i 0 else y.at_ i⟩ else none

/-- `A.usmtv(alpha, x, y)`: `y += alpha Aᵀ x`. -/
def usmtv (A : Sparse K) (alpha : K) (x y : Vec K) : Option (Vec K) :=
  if A.n ≤ x.len ∧ A.m ≤ y.len then some ⟨y.len, fun j => if j < A.m then colDot A alpha x j (y.at_ j) else y.at_ j⟩ else none

/-- `A.mtv(x, y)`: `y = Aᵀ x`. -/
def mtv (A : Sparse K) (x y : Vec K) : Option (Vec K) :=
  if A.n ≤ x.len ∧ A.m ≤ y.len then some ⟨y.len, fun j => if j < A.m then colDot A 1 x j 0 else y.at_ j⟩ else none

/-- `MortarUtils::extractBlock` (mortar_utils.hpp:27-31). -/
def extract (y : Vec K) (len start : Nat) : Option (Vec K) :=
  if start + len ≤ y.len then some ⟨len, fun i => y.at_ (start + i)⟩ else none

/-- `MortarUtils::injectBlock` (mortar_utils.hpp:38-41). -/
def inject (x y : Vec K) (len start : Nat) : Option (Vec K) :=
  if start + len ≤ x.len ∧ len ≤ y.len then
    some ⟨x.len, fun i => if start ≤ i ∧ i < start + len then y.at_ (i - start) else x.at_ i⟩
  else none

/-- `MortarEvaluator::apply` (mortar_evaluator.hpp:41-51). -/
def saddleApply (A B : Sparse K) (x y : Vec K) : Option (Vec K) :=
  (extract x B.m A.n).bind fun lambda =>
  (mv A x y).bind fun y =>
  (usmv B 1 lambda y).bind fun y =>
  (mtv B x (.zero lambda.len)).bind fun l2 => inject y l2 B.m A.n

/-- `MortarEvaluator::applyscaleadd` (mortar_evaluator.hpp:57-68): `B.umv(lambda, y)` has no factor. -/
def saddleScaleAdd (A B : Sparse K) (alpha : K) (x y : Vec K) : Option (Vec K) :=
  (usmv A alpha x y).bind fun y =>
  (extract x B.m A.n).bind fun lambda =>
  (usmv B 1 lambda y).bind fun y =>
  (mtv B x (.zero lambda.len)).bind fun l2 =>
  if y.len ≤ A.n + l2.len then
    some ⟨y.len, fun i => if A.n ≤ i ∧ i < y.len then y.at_ i + alpha * l2.at_ (i - A.n) else y.at_ i⟩
  else none

/-- `MortarBlockEvaluator::applyscaleadd` (mortar_schur.hpp:61-75) with the solver or preconditioner `inv` for the first block. The calls
of `pre` and `post` are not modelled. -/
def schurScaleAdd (inv : Vec K → Vec K → Vec K) (B : Sparse K) (alpha : K) (x y : Vec K) : Option (Vec K) :=
  (mv B x (.zero B.n)).bind fun temp1 => usmtv B alpha (inv (.zero temp1.len) temp1) y

/-- `MortarBlockEvaluator::apply` (mortar_schur.hpp:51-55). -/
def schurApply (inv : Vec K → Vec K → Vec K) (B : Sparse K) (x y : Vec K) : Option (Vec K) :=
  schurScaleAdd inv B 1 x (.zero y.len)

/-- `applyMortarBlock` (elasticity_upscale_impl.hpp:891-905): column `i` of `T`. The two vectors have as many entries as `B` has rows. -/
def mortarColumn (inv : Vec K → Vec K → Vec K) (B : Sparse K) (i : Nat) : Option (List K) :=
  if i < B.n then
    (schurApply inv B ⟨B.n, fun k => if k = i then 1 else 0⟩ (.zero B.n)).bind fun v2 =>
      if B.m ≤ v2.len then some ((List.range B.m).map v2.at_) else none
  else none

/-- `MortarSchurPre::apply` (mortar_schur_precond.hpp:71-91): `lpre` is the solver for the multipliers, `apre` the preconditioner of the
first block. -/
def schurPre (lpre apre : Vec K → Vec K → Vec K) (B : Sparse K) (symmetric : Bool) (v d : Vec K) : Option (Vec K) :=
  (extract d B.m B.n).bind fun temp =>
  let temp2 := lpre (.zero temp.len) temp
  (inject v temp2 B.m B.n).bind fun v =>
  (extract d B.n 0).bind fun temp =>
  (if symmetric then some temp else usmv B (-1) temp2 temp).bind fun temp =>
  inject v (apre (.zero B.n) temp) B.n 0

/-- `UzawaSolver::apply` (uzawa_solver.hpp:57-76). -/
def uzawa (inner outer : Vec K → Vec K → Vec K) (B : Sparse K) (x b : Vec K) : Option (Vec K) :=
  (extract b B.n 0).bind fun u =>
  let u2 := inner (.zero u.len) u
  (mtv B u2 (.zero B.m)).bind fun lambda =>
  let lambda2 := outer (.zero lambda.len) lambda
  (extract b B.n 0).bind fun u =>
  (usmv B (-1) lambda2 u).bind fun u =>
  let u2 := inner (.zero u2.len) u
  (inject x u2 B.n 0).bind fun x => inject x lambda2 B.m B.n

end Verif.MatrixOps
