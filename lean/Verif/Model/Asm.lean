import Mathlib.Algebra.Order.Field.Basic
import Mathlib.Algebra.Order.Group.Abs
import Mathlib.Data.List.Basic

/-!
Model of `opm/elasticity/asmhandler.hpp`, `opm/elasticity/asmhandler_impl.hpp` and of the class `MPC` of
`opm/elasticity/mpc.hh`.

`double` is an ordered field. Maps are functions to `Option`. Local directions count from 0 (`MPC::DOF::dof` counts from 1).
Vectors of equations and the sparse matrix are functions of the equation number; that the sparsity pattern covers every entry
that is assembled is the subject of `Verif.Props.AsmForm`. Deletion of rejected constraints is not modelled.
-/

namespace Verif.Asm

variable {K : Type}

/-- Entry of `fixedNodes` (asmhandler.hpp:206-209): directions as a bit mask (mpc.hh:23-26) and values. -/
structure Fixed (K : Type) where
  dir : Nat
  val : Nat → K

/-- `MPC::DOF` (mpc.hh:68-85) of a master. -/
structure Master (K : Type) where
  node : Nat
  dof : Nat
  coeff : K

/-- `MPC` (mpc.hh:58-180): slave, its constant, masters. -/
structure Mpc (K : Type) where
  node : Nat
  dof : Nat
  offset : K
  masters : List (Master K)

/-- `ASMHandler` without matrix and vector (asmhandler.hpp:33-36, 198-232). -/
structure Handler (K : Type) where
  dim : Nat
  nodes : Nat
  fixed : Nat → Option (Fixed K)
  mpcs : Nat → Option (Mpc K)
  meqn : List (Option Nat)
  maxeqn : Nat

/-- Position of an unknown, `node*dim+dof`. -/
def key (dim node dof : Nat) : Nat := node * dim + dof

/-- A new handler (asmhandler.hpp:47-49). -/
def Handler.new (dim nodes : Nat) : Handler K := ⟨dim, nodes, fun _ => none, fun _ => none, [], 0⟩

/-- New entry for a node (asmhandler_impl.hpp:217-231). -/
def mergeFixed (dim : Nat) (old : Option (Fixed K)) (e : Fixed K) : Fixed K :=
  match old with
  | none => e
  | some f =>
    if f.dir = e.dir then e
    else ⟨f.dir ||| e.dir, fun i => if i < dim ∧ e.dir.testBit i then e.val i else f.val i⟩

/-- `updateFixedNode` (asmhandler_impl.hpp:213-232). -/
def updateFixedNode (h : Handler K) (node : Nat) (e : Fixed K) : Handler K :=
  { h with fixed := fun k => if k = node then some (mergeFixed h.dim (h.fixed node) e) else h.fixed k }

/-- The direction of a node is prescribed (`it->second.first & flag`). -/
def fixedDof (h : Handler K) (node dof : Nat) : Bool :=
  match h.fixed node with
  | none => false
  | some f => f.dir.testBit dof

/-- `addMPC` (asmhandler_impl.hpp:186-202); `insert` keeps an existing constraint. -/
def addMPC (h : Handler K) (m : Mpc K) : Handler K :=
  if fixedDof h m.node m.dof then h
  else
    { h with mpcs := fun k =>
        if k = key h.dim m.node m.dof ∧ h.mpcs k = none then some m else h.mpcs k }

/-! ### Numbering -/

/-- One unknown in `preprocess` (asmhandler_impl.hpp:321-345): table so far and next number. -/
def eqnStep (h : Handler K) (node : Nat) (s : List (Option Nat) × Nat) (i : Nat) : List (Option Nat) × Nat :=
  match h.fixed node with
  | none =>
    if (h.mpcs (key h.dim node i)).isNone then (s.1 ++ [some s.2], s.2 + 1) else (s.1 ++ [none], s.2)
  | some f =>
    if f.dir.testBit i then (s.1 ++ [none], s.2)
    else if (h.mpcs (key h.dim node i)).isNone then (s.1 ++ [some s.2], s.2 + 1) else (s.1 ++ [none], s.2)

/-- `preprocess` (asmhandler_impl.hpp:314-348): the table is filled from the front. -/
def preprocess (h : Handler K) : Handler K :=
  let r := (List.range h.nodes).foldl (fun s node => (List.range h.dim).foldl (eqnStep h node) s) (([], h.maxeqn))
  { h with meqn := r.1, maxeqn := r.2 }

/-- `meqn[l]`. -/
def Handler.eqn (h : Handler K) (node dof : Nat) : Option Nat := (h.meqn[key h.dim node dof]?).join

/-! ### Solutions -/

variable [Field K]

/-- Sum over the masters of a constraint (asmhandler_impl.hpp:175-179 and 132-136): masters without equation are skipped. -/
def masterSum (h : Handler K) (u : Nat → K) (init : K) (m : Mpc K) : K :=
  m.masters.foldl (fun r a => match h.eqn a.node a.dof with | some e => r + u e * a.coeff | none => r) init

/-- Zero or the value of the equation (asmhandler_impl.hpp:147-148, 164-165). -/
def eqnValue (h : Handler K) (u : Nat → K) (node dof : Nat) : K :=
  match h.eqn node dof with
  | some e => u e
  | none => 0

/-- Entry of `result` after the first loop of `expandSolution` (asmhandler_impl.hpp:151-169). -/
def expand1 (h : Handler K) (u : Nat → K) (node dof : Nat) : K :=
  match h.fixed node with
  | some f => if f.dir.testBit dof then f.val dof else eqnValue h u node dof
  | none => eqnValue h u node dof

/-- `expandSolution` (asmhandler_impl.hpp:144-184): entry `node*dim+dof` of the result. -/
def expandSolution (h : Handler K) (u : Nat → K) (node dof : Nat) : K :=
  match h.mpcs (key h.dim node dof) with
  | some m => masterSum h u (expand1 h u node dof) m
  | none => expand1 h u node dof

/-- `extractValues` (asmhandler_impl.hpp:112-142): entry `i*dim+n` of the result for the vertex `node`; `none` is `u[-1]`. -/
def extractValue (h : Handler K) (u : Nat → K) (node n : Nat) : Option K :=
  if fixedDof h node n then (h.fixed node).map fun f => f.val n
  else
    match h.mpcs (key h.dim node n) with
    | some m => some (masterSum h u 0 m)
    | none => (h.eqn node n).map u

/-! ### Chains of constraints -/

variable [LinearOrder K]

/-- `addMaster` (mpc.hh:112-115) for a list of masters scaled by `c` (asmhandler_impl.hpp:283-286). -/
def scaledMasters (tol c : K) (l : List (Master K)) : List (Master K) :=
  (l.map fun a => (⟨a.node, a.dof, a.coeff * c⟩ : Master K)).filter fun a => decide (a.coeff < -tol ∨ a.coeff > tol)

/-- The loop of `resolveMPCChain` (asmhandler_impl.hpp:255-311) over masters `i, ..., i+n-1` of the constraint of `s`, `rec`
resolving another constraint. A master has a coefficient in one direction only; the branches for local coordinate systems are
dead. `tol` is `1e-8`. `none`: the constraint has vanished, which does not happen. -/
def resolveLoop (dim : Nat) (tol : K) (rec : Nat → (Nat → Option (Mpc K)) → Option (Nat → Option (Mpc K))) (s : Nat) :
    Nat → Nat → (Nat → Option (Mpc K)) → Option (Nat → Option (Mpc K))
  | 0, _, m => some m
  | n + 1, i, m =>
    (m s).bind fun mpc => (mpc.masters[i]?).bind fun a =>
      if |a.coeff| > tol then
        if (m (key dim a.node a.dof)).isSome then
          (rec (key dim a.node a.dof) m).bind fun m1 => (m1 (key dim a.node a.dof)).bind fun mpc2 => (m1 s).bind fun mpc1 =>
            let new : Mpc K := { mpc1 with
              offset := mpc1.offset + mpc2.offset * a.coeff
              masters := (mpc1.masters ++ scaledMasters tol a.coeff mpc2.masters).eraseIdx i }
            resolveLoop dim tol rec s n i fun k => if k = s then some new else m1 k
        else resolveLoop dim tol rec s n (i + 1) m
      else
        resolveLoop dim tol rec s n i fun k => if k = s then some { mpc with masters := mpc.masters.eraseIdx i } else m k

/-- `resolveMPCChain` (asmhandler_impl.hpp:249-312) for the constraint of `s`; `none` if the depth of the recursion exceeds
`fuel`. -/
def resolveChain (dim : Nat) (tol : K) : Nat → Nat → (Nat → Option (Mpc K)) → Option (Nat → Option (Mpc K))
  | 0, _, _ => none
  | fuel + 1, s, m =>
    match m s with
    | none => some m
    | some mpc => resolveLoop dim tol (resolveChain dim tol fuel) s mpc.masters.length 0 m

/-- `resolveMPCChains` (asmhandler.hpp:168-173): all constraints in the order of their slaves. -/
def resolveChains (tol : K) (fuel : Nat) (h : Handler K) : Option (Handler K) :=
  (((List.range (h.nodes * h.dim)).filter fun s => (h.mpcs s).isSome).foldlM
    (fun m s => resolveChain h.dim tol fuel s m) h.mpcs).map fun m => { h with mpcs := m }

/-! ### Assembly -/

/-- An element: nodes of its vertices, element matrix, element load vector. -/
structure Element (K : Type) where
  vertex : List Nat
  mat : Nat → Nat → K
  load : Nat → K

/-- Matrix and load vector. `touched` lists the entries of the sparse matrix that have been accessed: all of them must be in
its pattern. -/
structure Sys (K : Type) where
  A : Nat → Nat → K
  b : Nat → K
  touched : List (Nat × Nat)

/-- `A[row][col] += v`. -/
def Sys.add (s : Sys K) (row col : Nat) (v : K) : Sys K :=
  { s with A := fun i j => if i = row ∧ j = col then s.A i j + v else s.A i j, touched := (row, col) :: s.touched }

/-- One column in `addDOF` (asmhandler_impl.hpp:64-77). -/
def addCol (h : Handler K) (e : Element K) (row erow : Nat) (scale : K) (s : Sys K) (q : Nat × Nat × Nat) : Sys K :=
  match h.mpcs (key h.dim q.2.1 q.2.2) with
  | some m =>
    m.masters.foldl (fun s a => match h.eqn a.node a.dof with
      | some c => s.add row c (scale * a.coeff * e.mat erow (q.1 * h.dim + q.2.2))
      | none => s) s
  | none =>
    match h.eqn q.2.1 q.2.2 with
    | some c => s.add row c (scale * e.mat erow (q.1 * h.dim + q.2.2))
    | none => s

/-- All unknowns of an element: index of the vertex, node, direction. -/
def unknowns (dim : Nat) (e : Element K) : List (Nat × Nat × Nat) :=
  e.vertex.zipIdx.flatMap fun p => (List.range dim).map fun l => (p.2, p.1, l)

/-- `addDOF` (asmhandler_impl.hpp:51-81) with matrix and load vector. -/
def addDOF (h : Handler K) (e : Element K) (row : Option Nat) (erow : Nat) (scale : K) (s : Sys K) : Sys K :=
  match row with
  | none => s
  | some r =>
    let s := (unknowns h.dim e).foldl (addCol h e r erow scale) s
    { s with b := fun i => if i = r then s.b i + scale * e.load erow else s.b i }

/-- One row of the element in `addElement` (asmhandler_impl.hpp:94-108). `XYZ` is `7`. -/
def addRow (h : Handler K) (e : Element K) (s : Sys K) (q : Nat × Nat × Nat) : Sys K :=
  match h.fixed q.2.1 with
  | some f => if f.dir = 7 then s else go
  | none => go
where
  go : Sys K :=
    match h.mpcs (key h.dim q.2.1 q.2.2) with
    | some m => m.masters.foldl (fun s a => addDOF h e (h.eqn a.node a.dof) (q.1 * h.dim + q.2.2) a.coeff s) s
    | none => addDOF h e (h.eqn q.2.1 q.2.2) (q.1 * h.dim + q.2.2) 1 s

/-- `addElement` (asmhandler_impl.hpp:83-110). -/
def addElement (h : Handler K) (s : Sys K) (e : Element K) : Sys K := (unknowns h.dim e).foldl (addRow h e) s

/-- Assembly over the cells of the grid. -/
def assemble (h : Handler K) (es : List (Element K)) : Sys K := es.foldl (addElement h) ⟨fun _ _ => 0, fun _ => 0, []⟩

/-! ### Sparsity pattern -/

/-- One column in `nodeAdjacency` (asmhandler_impl.hpp:358-371); the pattern is the list of its entries. -/
def patCol (h : Handler K) (row : Nat) (pat : List (Nat × Nat)) (q : Nat × Nat × Nat) : List (Nat × Nat) :=
  match h.mpcs (key h.dim q.2.1 q.2.2) with
  | some m => m.masters.foldl (fun pat a => match h.eqn a.node a.dof with | some c => (row, c) :: pat | none => pat) pat
  | none => match h.eqn q.2.1 q.2.2 with | some c => (row, c) :: pat | none => pat

/-- `nodeAdjacency` (asmhandler_impl.hpp:350-373). -/
def nodeAdjacency (h : Handler K) (e : Element K) (row : Option Nat) (pat : List (Nat × Nat)) : List (Nat × Nat) :=
  match row with
  | none => pat
  | some r => (unknowns h.dim e).foldl (patCol h r) pat

/-- One row of a cell in `determineAdjacencyPattern` (asmhandler_impl.hpp:391-402). -/
def patRow (h : Handler K) (e : Element K) (pat : List (Nat × Nat)) (q : Nat × Nat × Nat) : List (Nat × Nat) :=
  match h.mpcs (key h.dim q.2.1 q.2.2) with
  | some m => m.masters.foldl (fun pat a => nodeAdjacency h e (h.eqn a.node a.dof) pat) pat
  | none => nodeAdjacency h e (h.eqn q.2.1 q.2.2) pat

/-- `determineAdjacencyPattern` (asmhandler_impl.hpp:375-408). -/
def determinePattern (h : Handler K) (es : List (Element K)) : List (Nat × Nat) :=
  es.foldl (fun pat e => (unknowns h.dim e).foldl (patRow h e) pat) []

end Verif.Asm
