import Verif.Model.UpscalerInit
import Verif.Model.CommandLine

/-!
Model of the program `upscale_perm` (`/repo/examples/upscale_perm.cpp` lines 146-388) after its options have been read (see `CommandLine` for that).

`Env` stands for what the program takes from elsewhere: `tensor` is `upscaleSinglePhase` as a function of the state of the upscaler (see `SinglePhase`),
`none` being an exception; `poro` is `upscalePorosity` (see `Upscale`). Times, the host name and formatting are left out.
-/

namespace Verif.PermTool

open Verif.UInit

/-- An upscaler: members, grid and rock. -/
abbrev Upscaler (K D : Type) := Base K × Setup K D

/-- A permeability tensor. -/
abbrev Tensor (K : Type) := Fin 3 → Fin 3 → K

/-- What is taken from elsewhere. -/
structure Env (K D : Type) where
  /-- `SPECGRID`, `COORD` and `ZCORN` are in the deck -/
  hasGrid : D → Bool
  /-- `PORO` is in the deck -/
  hasPoro : D → Bool
  tensor : Upscaler K D → Option (Tensor K)
  poro : Upscaler K D → K
  /-- `milli*darcy` -/
  mD : K

/-- The options as numbers (upscale_perm.cpp:104-113, 229-240). -/
structure Opts (K : Type) where
  tol : K
  verb : Int
  solver : Int
  maxit : Int
  smooth : Int
  prolong : K
  /-- `minPerm` in millidarcy -/
  minPerm : K

/-- What is printed: porosity, the conditions that are named and the tensors in the order of printing (upscale_perm.cpp:321-371). -/
structure Report (K : Type) where
  poro : K
  names : List String
  blocks : List (String × Tensor K)

variable {K D : Type} [Field K]

/-- `setBoundaryConditionType` (UpscalerBase_impl.hpp:189-205). -/
def setType (u : Upscaler K D) (t : Boundary.UType) : Option (Upscaler K D) :=
  if (t = .periodic ∧ u.1.bct ≠ 2) ∨ (t ≠ .periodic ∧ u.1.bct = 2) then none
  else some ({ u.1 with bct := code t }, { u.2 with uniqueIds := decide (t = .periodic ∨ t = .linear) })

/-- `init` with the options of the program (upscale_perm.cpp:242-264); gravity is the default 0, `twodim_hack` is false and `useJ` is
true for `ReservoirPropertyCapillary` (setupGridAndProps.cpp:41-45). Exceptions of the grid processing are left out. `visc` and `dens`: see
`UInit`. -/
def start (e : Env K D) (o : Opts K) (d : D) (t : Boundary.UType) : Upscaler K D :=
  initDeck d t (o.minPerm * e.mD) o.tol o.verb o.solver false o.maxit o.prolong o.smooth 0 true false (1 / 1000, 3 / 1000) (10139 / 10, 8347 / 10)

/-- One computation (upscale_perm.cpp:290-292, 303-305, 317-319): set the type, upscale, convert to millidarcy. -/
def compute (e : Env K D) (u : Upscaler K D) (t : Boundary.UType) : Option (Upscaler K D × Tensor K) := do
  let u' ← setType u t
  let k ← e.tensor u'
  some (u', fun i j => k i j * (1 / e.mD))

/-- A computation under `if (isFixed)`, `if (isLinear)`, `if (isPeriodic)` (upscale_perm.cpp:287, 300, 314). -/
def computeIf (e : Env K D) (wanted : Bool) (u : Upscaler K D) (t : Boundary.UType) : Option (Upscaler K D × Option (Tensor K)) :=
  if wanted then (compute e u t).map fun r => (r.1, some r.2) else some (u, none)

/-- The computations and the report (upscale_perm.cpp:242-371). -/
def report (e : Env K D) (o : Opts K) (d : D) (F L P : Bool) : Option (Report K) := do
  let np := start e o d (if F then .fixed else .linear)
  let pe := start e o d .periodic
  let φ := if e.hasPoro d then (if P then e.poro pe else e.poro np) else 0
  let (np, kf) ← computeIf e F np .fixed
  let (_, kl) ← computeIf e L np .linear
  let (_, kp) ← computeIf e P pe .periodic
  some { poro := φ
         names := (if F then ["Fixed (no-flow)"] else []) ++ (if P then ["Periodic"] else []) ++ (if L then ["Linear"] else [])
         blocks := (kf.toList.map fun k => ("fixed", k)) ++ (kl.toList.map fun k => ("linear", k)) ++ (kp.toList.map fun k => ("periodic", k)) }

/-- The program from the choice of boundary conditions on (upscale_perm.cpp:146-388): the report and the file that is written, if any. `parse` reads
the file (`none`: not readable or not a deck). -/
def run (e : Env K D) (o : Opts K) (parse : Option D) (bc : Cmd.Arg) (output : String) : Cmd.Outcome (Report K × Option (String × Report K)) :=
  match Cmd.conditions bc with
  | .ok (F, L, P) =>
    match parse with
    | none => .throw
    | some d =>
      if !e.hasGrid d then .usage
      else match report e o d F L P with
        | none => .throw
        | some r => .ok (r, if output ≠ "" then some (output, r) else none)
  | .usage => .usage
  | .throw => .throw
  | .ub => .ub

end Verif.PermTool
