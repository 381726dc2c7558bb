import Verif.Model.Asm

/-!
Model of `Schwarz::setup2` (opm/elasticity/elasticity_preconditioners.cpp:37-73): the subdomains of the Schwarz preconditioner.

Sets of equations are lists without repetitions. `cps`, the number of columns per subdomain, is 1 in the code and has been
dropped. The preconditioner itself is a class of the solver library.
-/

namespace Verif.Schwarz

open Verif.Asm

variable {K : Type}

/-- A cell (elasticity_preconditioners.cpp:47-51): the first two of its logical Cartesian coordinates and its vertices. -/
structure Cell where
  i : Nat
  j : Nat
  vertex : List Nat

/-- `rowix` (elasticity_preconditioners.cpp:51). -/
def rowix (nel1 : Nat) (c : Cell) : Nat := c.i + nel1 * c.j

/-- Equations that are inserted for direction `m` of node `idx` (elasticity_preconditioners.cpp:56-66): those of the masters
in direction `m`, or its own. -/
def dofEquations (h : Handler K) (idx m : Nat) : List Nat :=
  match h.mpcs (key h.dim idx m) with
  | some mpc => mpc.masters.filterMap fun a => h.eqn a.node m
  | none => (h.eqn idx m).toList

/-- `rows[k].insert(e)`; `none` is an access beyond the end. -/
def insertAt (k : Nat) (rows : List (List Nat)) (e : Nat) : Option (List (List Nat)) :=
  (rows[k]?).map fun s => rows.set k (s.insert e)

/-- The body of the loop over the cells (elasticity_preconditioners.cpp:49-69). -/
def addCell (h : Handler K) (nel1 : Nat) (rows : List (List Nat)) (c : Cell) : Option (List (List Nat)) :=
  (c.vertex.flatMap fun idx => (List.range 3).flatMap fun m => dofEquations h idx m).foldlM (insertAt (rowix nel1 c)) rows

/-- The subdomains (elasticity_preconditioners.cpp:41-70). -/
def subdomains (h : Handler K) (nel1 nel2 : Nat) (cells : List Cell) : Option (List (List Nat)) :=
  cells.foldlM (addCell h nel1) (List.replicate (nel1 * nel2) [])

end Verif.Schwarz
