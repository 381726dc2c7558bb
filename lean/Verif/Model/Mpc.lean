import Mathlib.Algebra.Order.Field.Basic
import Mathlib.Data.List.Basic

/-!
Model of `opm/elasticity/mpc.hh` and `opm/elasticity/mpc.cpp`: constraints, their order in a set and their text. (The class as it is used by the
assembly is in `Model/Asm.lean`.)

`C` is the type of coefficients: `Verif.Compare.Dbl` where their comparison matters, an ordered field where they are numbers. Directions count
from 1. Text is a list of pieces; how numbers are written is not modelled.
-/

namespace Verif.Mpc

/-- `MPC::DOF` (mpc.hh:62-84). -/
structure Dof (C : Type) where
  node : Int
  dof : Int
  coeff : C
deriving DecidableEq

/-- `MPC` (mpc.hh:58-153): the slave with its constant, and the masters. -/
structure Constraint (C : Type) where
  slave : Dof C
  master : List (Dof C)
deriving DecidableEq

section order

variable {C : Type}

/-- `operator<` of `MPC::DOF` (mpc.cpp:25-36); `only` is `MPC::Less::compareSlaveDofOnly`, `lt` the comparison of coefficients. -/
def Dof.less (only : Bool) (lt : C → C → Bool) (a b : Dof C) : Bool :=
  if a.node < b.node then true
  else if a.node > b.node then false
  else if a.dof < b.dof then true
  else if a.dof > b.dof then false
  else if only then false
  else lt a.coeff b.coeff

/-- The loop over the masters and the comparison of their numbers (mpc.cpp:49-57), as recursion over both lists. -/
def mastersLess (only : Bool) (lt : C → C → Bool) : List (Dof C) → List (Dof C) → Bool
  | [], r => decide (0 < r.length)
  | _ :: _, [] => false
  | a :: l, b :: r =>
    if a.less only lt b then true
    else if b.less only lt a then false
    else mastersLess only lt l r

/-- `MPC::Less::operator()` (mpc.cpp:39-58); `none` is the null pointer. -/
def less (only : Bool) (lt : C → C → Bool) (lhs rhs : Option (Constraint C)) : Bool :=
  match rhs with
  | none => false
  | some r =>
    match lhs with
    | none => true
    | some l =>
      if l.slave.less only lt r.slave then true
      else if r.slave.less only lt l.slave then false
      else if only then false
      else mastersLess only lt l.master r.master

/-- `std::set::insert`: an element that is equivalent to one of the set is not inserted; otherwise it gets its place in the order. -/
def insert {α : Type} (before : α → α → Bool) (s : List α) (x : α) : List α :=
  if s.any fun y => !before x y && !before y x then s
  else s.takeWhile (fun y => before y x) ++ x :: s.dropWhile fun y => before y x

/-- An `MPCSet` (mpc.hh:156) after insertions. -/
def setOf (only : Bool) (lt : C → C → Bool) (l : List (Option (Constraint C))) : List (Option (Constraint C)) := l.foldl (insert (less only lt)) []

end order

section edit

variable {K : Type} [Field K] [LinearOrder K]

/-- The constructor (mpc.hh:101). -/
def Constraint.new (n d : Int) (c : K) : Constraint K := ⟨⟨n, d, c⟩, []⟩

/-- `addMaster` (mpc.hh:109-112). -/
def Constraint.addMaster (m : Constraint K) (n d : Int) (c tol : K) : Constraint K :=
  if c < -tol ∨ c > tol then { m with master := m.master ++ [⟨n, d, c⟩] } else m

/-- `updateMaster` (mpc.hh:115-119). -/
def Constraint.updateMaster (m : Constraint K) (pos : Nat) (c : K) : Constraint K :=
  { m with master := m.master.zipIdx.map fun e => if e.2 = pos then { e.1 with coeff := c } else e.1 }

/-- `removeMaster` (mpc.hh:122-126). -/
def Constraint.removeMaster (m : Constraint K) (pos : Nat) : Constraint K := { m with master := m.master.eraseIdx pos }

/-- `addOffset` (mpc.hh:129). -/
def Constraint.addOffset (m : Constraint K) (offset : K) : Constraint K := { m with slave := { m.slave with coeff := m.slave.coeff + offset } }

/-- `setSlaveCoeff` (mpc.hh:132). -/
def Constraint.setSlaveCoeff (m : Constraint K) (c0 : K) : Constraint K := { m with slave := { m.slave with coeff := c0 } }

/-- A piece of text. -/
inductive Piece (K : Type) where
  | text (s : String)
  | int (n : Int)
  | num (x : K)
deriving DecidableEq

/-- A term of the sum (mpc.cpp:74-82); `first` is the condition `i == 0 && mpc.slave.coeff == 0`. -/
def printTerm (first : Bool) (m : Dof K) : List (Piece K) :=
  (if first then [.num m.coeff]
  else if m.coeff ≥ 0 then [.text " + ", .num m.coeff]
  else [.text " - ", .num (-m.coeff)]) ++ [.text "*(", .int m.node, .text ",", .int m.dof, .text ")"]

/-- `operator<<` of `MPC` (mpc.cpp:63-85). -/
def print (m : Constraint K) : List (Piece K) :=
  [.text "Slave ", .int m.slave.node, .text ",", .int m.slave.dof] ++
    (if m.slave.coeff ≠ 0 then
      [.text " = ", .num m.slave.coeff] ++ (m.master.zipIdx.map fun e => printTerm false e.1).flatten ++ [.text "\n"]
    else if m.master = [] then [.text " = 0", .text "\n"]
    else [.text " = "] ++ (m.master.zipIdx.map fun e => printTerm (e.2 = 0) e.1).flatten ++ [.text "\n"])

/-- `operator<<` of `MPC::DOF` (mpc.cpp:87-90): `char('w'+d.dof)`. -/
def printDof (d : Dof K) : List (Piece K) :=
  [.text "u_", .text (Char.ofNat ('w'.toNat + d.dof.toNat)).toString, .text " in node ", .int d.node]

end edit

end Verif.Mpc
