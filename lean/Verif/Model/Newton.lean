import Mathlib.Algebra.Order.Field.Basic

/-!
Model of the Newton driver `ImplicitTransport::solve` (opm/core/transport/implicit/ImplicitTransport.hpp:116-216).

The discretised problem is abstract: what matters to the driver is which iterates are in range, the norm of the residual assembled at an
iterate, the norm of the Newton increment computed from a system, and the trial iterates of the line search.
Verbose output is not modelled.
-/

namespace Verif.Newton

/-- Control parameters (ImplicitTransport.hpp:45-61). -/
structure Ctrl (K : Type) where
  maxIt : Nat
  atol : K
  rtol : K
  dxtol : K
  maxLs : Nat

/-- The problem as the driver sees it. `X` are iterates (solution vectors).
`inRange x`: return value of `model_.initIteration`; `resNorm x`: norm of the residual assembled at `x`;
`dxNorm y`: norm of the increment solved from the system assembled at `y`;
`trial x y j`: `x + 2^(-j) * dx` where `dx` is that increment. -/
structure Problem (K X : Type) where
  inRange : X → Bool
  resNorm : X → K
  dxNorm : X → K
  trial : X → X → Nat → X

/-- Report (ImplicitTransport.hpp:63-68) plus bookkeeping: the solution handed to `finishStep`, the iterate at which the system in memory
was last assembled, and the number of line-search passes of each Newton iteration. -/
structure Report (K X : Type) where
  nit : Nat
  flag : Int
  normRes : K
  normDx : K
  x : X
  y : X
  passes : List Nat

variable {K X : Type} [LinearOrder K] [Mul K]

/-- Line search from pass `j` on (ImplicitTransport.hpp:163-193); `fuel` is `max_it_ls + 1 - lin_it`. The system is assembled at the trial
iterate only if it is in range (`y` otherwise unchanged); an out-of-range trial counts as residual `big` (1e99). Result: solution, assembled
iterate, number of passes made in all. -/
def lineSearch (P : Problem K X) (big normRes : K) (x0 y0 : X) : Nat → Nat → X → X × X × Nat
  | fuel, j, y =>
    let x := P.trial x0 y0 j
    let y' := if P.inRange x then x else y
    let r := if P.inRange x then P.resNorm x else big
    if r < normRes then (x, y', j + 1)
    else
      match fuel with
      | 0 => (x, y', j + 1)
      | fuel + 1 => lineSearch P big normRes x0 y0 fuel (j + 1) y'

/-- One Newton iteration up to the convergence test (ImplicitTransport.hpp:142-199): solution, assembled iterate, passes. With a residual below the
absolute tolerance the line search is skipped and the solution kept. -/
def iteration (P : Problem K X) (big : K) (c : Ctrl K) (normRes : K) (x y : X) : X × X × Nat :=
  if normRes < c.atol then (x, y, 0)
  else lineSearch P big normRes x y (c.maxLs + 1) 0 y

/-- The convergence flag (ImplicitTransport.hpp:212-215). -/
def flagOf (c : Ctrl K) (norm0 normRes normDx : K) : Int :=
  if normRes < c.atol then 1 else if normRes < c.rtol * norm0 then 2 else if normDx < c.dxtol then 3 else -1

/-- The `while (! done)` loop (ImplicitTransport.hpp:139-208); `fuel` is `max_it - nit - 1` for the iteration about to be made. -/
def loop (P : Problem K X) (big : K) (c : Ctrl K) (norm0 : K) : Nat → Nat → K → X → X → List Nat → Report K X
  | fuel, nit, normRes, x, y, ps =>
    let dx := P.dxNorm y
    let r := iteration P big c normRes x y
    let nr := P.resNorm r.2.1
    let ps := ps ++ [r.2.2]
    let stop : Bool := decide (nr < c.atol) || decide (nr < c.rtol * norm0) || decide (dx < c.dxtol) || decide (r.2.2 > c.maxLs)
    let done : Report K X := ⟨nit + 1, flagOf c norm0 nr dx, nr, dx, r.1, r.2.1, ps⟩
    if stop then done
    else
      match fuel with
      | 0 => done
      | fuel + 1 => loop P big c norm0 fuel (nit + 1) nr r.1 r.2.1 ps

/-- `solve` (ImplicitTransport.hpp:116-216) for `max_it ≥ 1`. (With `max_it ≤ 0` the iteration limit is never met.) The result's `x` is what
`finishStep` receives, once. -/
def solve (P : Problem K X) (big : K) (c : Ctrl K) (x0 : X) : Report K X :=
  loop P big c (P.resNorm x0) (c.maxIt - 1) 0 (P.resNorm x0) x0 x0 []

end Verif.Newton
