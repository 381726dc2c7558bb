import Verif.Model.ElasticSolvers

/-!
Specification of the set-up of the linear solvers of elasticity upscaling.
-/

namespace Verif.ElasticSolvers.Spec

open Verif.ElasticTool

/-- Users 0, 1, ... of the objects `objs` do not disturb each other: two of them share an object only if it is a Schwarz preconditioner, the type that need not be cloned for threads. -/
def Private (heap : List Family) (objs : List Nat) : Prop :=
  ∀ i j o : Nat, i ≠ j → objs[i]? = some o → objs[j]? = some o → heap[o]? = some .schwarz

/-- The objects of solvers. -/
def objects : List Solver → List Nat
  | [] => []
  | .cg o :: l => o :: objects l
  | .minres o :: l => o :: objects l
  | .gmres o :: l => o :: objects l
  | .uzawa o :: l => o :: objects l
  | .lu :: l => objects l

/-- The type with which the Schur complement is approximated: `main` is the type for the elasticity block, called `name`. -/
def schurType (mp : MortarPre) (name : Pre) (main : Family) : Family :=
  match mp, name with
  | .schurAmg, .amg => main
  | .schurSchwarz, .schwarz => main
  | .schurTwolevel, .twolevel => main
  | .schurAmg, _ => .amg1 .ssor
  | .schurSchwarz, _ => .schwarz
  | .schurTwolevel, _ => .amg2 .ssor
  | _, _ => main

end Verif.ElasticSolvers.Spec
