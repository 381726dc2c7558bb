import Verif.Model.Newton
import Mathlib.Algebra.Order.Field.Basic
import Mathlib.Algebra.Order.Group.Abs

/-!
Model of the vectors and norms behind the Newton driver of implicit transport (opm/core/transport/implicit/JacobianSystem.hpp,
opm/core/transport/implicit/NormSupport.hpp, opm/porsol/common/BCRSMatrixBlockAssembler.hpp) and of the driver itself
(opm/core/transport/implicit/ImplicitTransport.hpp:116-216) at the level of these vectors: what is overwritten, what is accumulated and what is
left over from before.

`none` is an access outside a vector. Numbers are those of an ordered field; the discretisation is given by its lists of contributions to
the matrix and the residual (proved for the two-phase model in C22), the linear solver by a function of matrix, right-hand side and initial guess.
-/

namespace Verif.NewtonVec

section
variable {K : Type} [Field K] [LinearOrder K]

/-! ### Vectors -/

/-- `VectorAdder::add(x, y)`: `y += x` (JacobianSystem.hpp:50-59); `ranges::transform` stops at the shorter range and leaves the rest of `y`.
The ISTL specialisation (BCRSMatrixBlockAssembler.hpp:59-67) is the same for equal sizes. -/
def add (x y : List K) : List K := List.zipWith (fun a b => a + b) x y ++ y.drop x.length

/-- `VectorNegater::negate` (JacobianSystem.hpp:61-70; BCRSMatrixBlockAssembler.hpp:69-76). -/
def negate (x : List K) : List K := x.map fun a => -a

/-- `VectorZero::zero` (JacobianSystem.hpp:72-81; BCRSMatrixBlockAssembler.hpp:78-85). -/
def zero (x : List K) : List K := x.map fun _ => 0

/-- `VectorAssign::assign(x, y)`: `y <- x` (JacobianSystem.hpp:86-90): the target must be at least as long as the source. -/
def assign (x y : List K) : Option (List K) := if x.length ≤ y.length then some (x ++ y.drop x.length) else none

/-- `VectorAssign::assign(a, x, y)`: `y <- a x` (JacobianSystem.hpp:92-98). -/
def assignScaled (a : K) (x y : List K) : Option (List K) := assign (x.map fun z => a * z) y

/-- `v_.resize(ndof * m)` (JacobianSystem.hpp:125-128): what is kept of the old values stays. -/
def resize (n : Nat) (x : List K) : List K := x.take n ++ List.replicate (n - x.length) 0

/-- `vec[i] += b`. -/
def bump (v : List K) (i : Nat) (b : K) : Option (List K) :=
  match v[i]? with
  | some a => some (v.set i (a + b))
  | none => none

/-- `VectorBlockAssembler::assemble` (JacobianSystem.hpp:104-118; BCRSMatrixBlockAssembler.hpp:87-102 with `ndof = 1`). -/
def assembleBlock (ndof i : Nat) (b v : List K) : Option (List K) :=
  (List.range ndof).foldlM (fun v d => match b[d]? with | some x => bump v (i * ndof + d) x | none => none) v

/-! ### Norms -/

/-- `AccumulationNorm<_, MaxAbs>::norm` (NormSupport.hpp:46-56, 84-96), used by `MaxNormStl` (ImplicitTransportDefs.hpp:33-40);
`MaxNormDune` (ImplicitTransportDefs.hpp:42-49) is the same number. -/
def maxNorm (v : List K) : K := v.foldl (fun x y => max |x| |y|) 0

/-- `AccumulationNorm<_, SumAbs>::norm` (NormSupport.hpp:58-68, 84-96). -/
def sumNorm (v : List K) : K := v.foldl (fun x y => |x| + |y|) 0

/-- `AccumulationNorm<_, Euclid>::norm` (NormSupport.hpp:70-82, 84-96); `sqrt` is a parameter. -/
def euclidNorm (sqrt : K → K) (v : List K) : K := sqrt (v.foldl (fun x y => |x| + |y| * |y|) 0)

/-! ### The driver -/

/-- What the driver is instantiated with. `inRange`: return value of `initIteration`; `mats`, `ress`: the contributions added by
`ImplicitAssembly::assemble` for the fluid data stored by `initIteration`; `lin`: the linear solver, called with an initial guess; `norm`: the vector norm;
`init`: the vector written by `initStep`. -/
structure Setup (K : Type) where
  n : Nat
  init : List K
  inRange : List K → Bool
  mats : List K → List (Nat × Nat × K)
  ress : List K → List (Nat × K)
  lin : (Nat → Nat → K) → List K → List K → List K
  norm : List K → K

/-- The system in memory (JacobianSystem.hpp:186-189, 243-244) and the iterate at which the fluid data was last evaluated. -/
structure Mem (K : Type) where
  mat : Nat → Nat → K
  res : List K
  inc : List K
  sol : List K
  fluidAt : List K

/-- `JacobianSystem::setSize` (JacobianSystem.hpp:230-237, 142-156) with one unknown per cell. The entries of the new matrix are whatever they are. -/
def createSystem (S : Setup K) (m : Mem K) : Mem K :=
  { m with res := resize (1 * S.n) m.res, inc := resize (1 * S.n) m.inc, sol := resize (1 * S.n) m.sol }

/-- `mat_[i][j] += blk` (BCRSMatrixBlockAssembler.hpp:138-146); that the entry exists is part of C22. -/
def addEntry (A : Nat → Nat → K) (q : Nat × Nat × K) : Nat → Nat → K :=
  fun i j => if i = q.1 ∧ j = q.2.1 then A i j + q.2.2 else A i j

/-- `asm_.assemble` (ImplicitAssembly.hpp:87-108): all contributions are added to what is there. -/
def assemble (S : Setup K) (m : Mem K) : Option (Mem K) := do
  let res ← (S.ress m.fluidAt).foldlM (fun v q => assembleBlock 1 q.1 [q.2] v) m.res
  some { m with mat := (S.mats m.fluidAt).foldl addEntry m.mat, res := res }

/-- Clear matrix and residual and assemble (ImplicitTransport.hpp:124-127, 175-177). -/
def reassemble (S : Setup K) (m : Mem K) : Option (Mem K) :=
  assemble S { m with mat := fun _ _ => 0, res := zero m.res }

/-- The line search (ImplicitTransport.hpp:163-193) from `lin_it = k` on. -/
def search (S : Setup K) (big : K) (maxLs : Nat) (normRes : K) (dxOld xOld : List K) : Nat → Nat → K → Mem K → Option (Mem K × Nat)
  | 0, _, _, _ => none
  | fuel + 1, k, alpha, m => do
    let alpha := alpha / 2
    let inc ← assignScaled alpha dxOld m.inc
    let sol ← assign xOld m.sol
    let m := { m with inc := inc, sol := add inc sol }
    let m := { m with fluidAt := m.sol }
    let ok := S.inRange m.sol
    let m ← if ok then reassemble S m else some m
    let residual := if ok then S.norm m.res else big
    if decide (residual < normRes) || decide (k > maxLs) then some (m, k + 1)
    else search S big maxLs normRes dxOld xOld fuel (k + 1) alpha m

/-- The line search of one iteration, skipped if the residual is below the absolute tolerance (ImplicitTransport.hpp:153-193). -/
def lineSearch (S : Setup K) (big : K) (c : Newton.Ctrl K) (normRes : K) (m : Mem K) : Option (Mem K × Nat) :=
  if normRes < c.atol then some (m, 0) else search S big c.maxLs normRes m.inc m.sol (c.maxLs + 2) 0 2 m

/-- The `while (! done)` loop (ImplicitTransport.hpp:139-208). -/
def loop (S : Setup K) (big : K) (c : Newton.Ctrl K) (norm0 : K) : Nat → Nat → K → Mem K → Option (Newton.Report K (List K))
  | 0, _, _, _ => none
  | fuel + 1, nit, normRes, m => do
    let m := { m with inc := zero m.inc }
    let m := { m with inc := S.lin m.mat m.res m.inc }
    let m := { m with inc := negate m.inc }
    let normDx := S.norm m.inc
    let r ← lineSearch S big c normRes m
    let m := r.1
    let normRes := S.norm m.res
    let nit := nit + 1
    if decide (normRes < c.atol) || decide (normRes < c.rtol * norm0) || decide (normDx < c.dxtol) || decide (r.2 > c.maxLs) || decide (nit = c.maxIt) then
      some ⟨nit, if normRes < c.atol then 1 else if normRes < c.rtol * norm0 then 2 else if normDx < c.dxtol then 3 else -1, normRes, normDx, m.sol, m.fluidAt, []⟩
    else loop S big c norm0 fuel nit normRes m

/-- `ImplicitTransport::solve` (ImplicitTransport.hpp:116-216) on the memory left by an earlier call, for `max_it ≥ 1`. The report's `x` is the vector handed to
`finishStep`; its `y` is the iterate at which the fluid data was last evaluated; `passes` is not recorded. -/
def solve (S : Setup K) (big : K) (c : Newton.Ctrl K) (m : Mem K) : Option (Newton.Report K (List K)) := do
  let m := createSystem S m
  let m := { m with sol := S.init }
  let m := { m with fluidAt := m.sol }
  let m ← reassemble S m
  let norm0 := S.norm m.res
  loop S big c norm0 c.maxIt 0 norm0 m

end
end Verif.NewtonVec
