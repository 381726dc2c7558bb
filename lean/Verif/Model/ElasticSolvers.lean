import Verif.Model.ElasticTool
import Verif.Model.Coloring

/-!
Model of `ElasticityUpscale::setupSolvers` and `solve` (`/repo/opm/elasticity/elasticity_upscale_impl.hpp` lines 907-1110) and of the flag `copy` that the
set-up of a preconditioner sets (`/repo/opm/elasticity/elasticity_preconditioners.hpp` lines 73-84, 117-134, 181-200, `elasticity_preconditioners.cpp` lines 20-36, 38-74).

Preconditioners are objects on a heap, identified by their position; what matters is their type and which solver and which column uses which object.
The dereference of an empty pointer and an access outside a vector are `none`. A direct solver is available.
-/

namespace Verif.ElasticSolvers

open Verif.ElasticTool

/-- The flag `copy` that the set-up of a type sets: whether to clone it for threads (elasticity_preconditioners.hpp:132, 198, elasticity_preconditioners.cpp:33, 72). -/
def cloned : Family → Bool
  | .schwarz => false
  | _ => true

/-- The heap and the variable `copy` (elasticity_upscale_impl.hpp:917). -/
structure State where
  heap : List Family
  copy : Bool
  deriving DecidableEq

/-- `setup` of a type: a new object; `copy` is passed by reference. -/
def create (f : Family) (s : State) : State × Nat := (⟨s.heap ++ [f], cloned f⟩, s.heap.length)

/-- The copy constructor of a preconditioner. -/
def clone (o : Nat) (s : State) : Option (State × Nat) := (s.heap[o]?).map fun f => ({ s with heap := s.heap ++ [f] }, s.heap.length)

/-- `pc[0]` and, as clones of it, `pc[1]`, ... (elasticity_upscale_impl.hpp:942-945, 954-955, 970-971). -/
def fillClones (o : Nat) (M : Nat) (s : State) : Option (State × List (Option Nat)) :=
  if 0 < M then
    (List.range' 1 (M - 1)).foldlM (fun (st : State × List (Option Nat)) i => (clone o st.1).map fun r => (r.1, st.2.set i (some r.2)))
      (s, (List.replicate M none).set 0 (some o))
  else none

/-- Only `pc[0]` (elasticity_upscale_impl.hpp:941, 957-962). -/
def fillOne (o : Nat) (M : Nat) (s : State) : Option (State × List (Option Nat)) :=
  if 0 < M then some (s, (List.replicate M none).set 0 (some o)) else none

/-- The choice of the preconditioners for the columns of the Schur complement (elasticity_upscale_impl.hpp:933-972); `own` is `upre[0]`. -/
def schurObjects (mp : MortarPre) (pre : Pre) (own : Nat) (M : Nat) (s : State) : Option (State × List (Option Nat)) :=
  if mp = .schur ∨ (mp = .schurAmg ∧ pre = .amg) ∨ (mp = .schurSchwarz ∧ pre = .schwarz) ∨ (mp = .schurTwolevel ∧ pre = .twolevel) then
    if s.copy then fillClones own M s else fillOne own M s
  else if mp = .schurAmg then
    let r := create (.amg1 .ssor) s
    fillClones r.2 M r.1
  else if mp = .schurSchwarz then
    let r := create .schwarz s
    fillOne r.2 M r.1
  else if mp = .schurTwolevel then
    let r := create (.amg2 .ssor) s
    fillClones r.2 M r.1
  else some (s, List.replicate M none)

/-- The columns of the Schur complement, in five groups, with the object that each uses (elasticity_upscale_impl.hpp:930, 973-980). -/
def columns (M : Nat) (copy : Bool) (pc : List (Option Nat)) : Option (List (Nat × Nat)) :=
  ((List.range 5).mapM (Coloring.chunk M 5)).bind fun gs =>
    (gs.flatMap fun p => List.range' p.1 (p.2 - p.1)).mapM fun i => (pc[if copy then i else 0]?).bind fun o => o.map fun o => (i, o)

/-- A solver and the preconditioner object of the elasticity block that it uses. -/
inductive Solver where
  | cg (pc : Nat)
  | minres (pc : Nat)
  | gmres (pc : Nat)
  | uzawa (pc : Nat)
  | lu
  deriving DecidableEq

/-- One turn of the loop over the solvers: a clone for each but the first if `copy` is set (elasticity_upscale_impl.hpp:1021-1022, 1045-1046). State, `upre` and the objects used. -/
def prepareStep (own : Nat) (st : State × List Nat × List Nat) (i : Nat) : Option (State × List Nat × List Nat) :=
  let r : Option (State × List Nat) := if st.1.copy && i != 0 then (clone own st.1).map fun r => (r.1, st.2.1 ++ [r.2]) else some (st.1, st.2.1)
  r.bind fun s => (s.2[if st.1.copy then i else 0]?).map fun o => (s.1, s.2, st.2.2 ++ [o])

/-- One object for each solver (elasticity_upscale_impl.hpp:1020-1025, 1044-1048). -/
def prepare (threads : Nat) (own : Nat) (s : State) : Option (State × List Nat) :=
  ((List.range threads).foldlM (prepareStep own) (s, [own], [])).map fun st => (st.1, st.2.2)

/-- What has been set up: objects, columns of the Schur complement, solvers (`tsolver`), size of the right-hand sides. -/
structure Setup where
  heap : List Family
  columns : List (Nat × Nat)
  solvers : List Solver
  size : Nat
  deriving DecidableEq

variable {K : Type}

/-- The Schur complement (elasticity_upscale_impl.hpp:926-981); the diagonal approximation for `simple` uses no object (lines 982-1004). -/
def schur (l : LinSol K) (M : Nat) (own : Nat) (s : State) : Option (State × List (Nat × Nat)) :=
  if l.mortarpre = .simple then some (s, [])
  else (schurObjects l.mortarpre l.precond own M s).bind fun r => (columns M r.1.copy r.2).map fun c => (r.1, c)

/-- Mortar couplings in use (elasticity_upscale_impl.hpp:923-1042). -/
def setupMortar (l : LinSol K) (threads N M : Nat) (own : Nat) (s : State) : Option Setup :=
  (schur l M own s).bind fun r =>
    if l.uzawa then some ⟨r.1.heap, r.2, [.uzawa own], N + M⟩
    else (prepare threads own r.1).map fun q => ⟨q.1.heap, r.2, q.2.map fun o => if l.symmetric then .minres o else .gmres o, N + M⟩

/-- `setupSolvers` (elasticity_upscale_impl.hpp:907-1086). `N` is the size of the operator, the coupling matrix has `rows` rows and `M` columns; `threads` is the largest number of
threads. The size after `augment` is that of matrixops.cpp:131-136 with the arguments of the call. -/
def setupSolvers (fam : Family) (l : LinSol K) (threads N rows M : Nat) : Option Setup :=
  match l.type with
  | .iterative =>
    let r := create fam ⟨[], false⟩
    if rows ≠ 0 then setupMortar l threads N M r.2 r.1
    else (prepare threads r.2 r.1).map fun p => ⟨p.1.heap, [], p.2.map .cg, N⟩
  | .direct => some ⟨[], [], List.replicate threads .lu, if rows ≠ 0 then (if N + M > (if rows > N then rows else N) then N + M else if rows > N then rows else N) else N⟩

/-- What a solver does: a vector and whether it has converged, or an exception of the solver library that leaves a vector. -/
inductive Applied (V : Type) where
  | done (x : V) (converged : Bool)
  | error (x : V)

/-- `solve` (elasticity_upscale_impl.hpp:1088-1107): the solution that is kept and whether a message is printed; `none`: there is no solver for this thread. -/
def solve {V : Type} (tsolver : List (V → V → Applied V)) (zero : V) (thread : Nat) (b : V) : Option (V × Bool) :=
  (tsolver[thread]?).map fun f => match f zero b with
    | .done x _ => (x, false)
    | .error x => (x, true)

end Verif.ElasticSolvers
