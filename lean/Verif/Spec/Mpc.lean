import Verif.Model.Mpc
import Verif.Model.Compare
import Mathlib.Algebra.BigOperators.Group.List.Basic

/-!
Specification of constraints as equations, of their text, and of a set that has one element for each constraint.
-/

namespace Verif.Mpc.Spec

open Verif.Compare

/-- No coefficient of the constraint is `nan`. -/
def Numbers {K : Type} (m : Option (Constraint (Dbl K))) : Prop :=
  ∀ c, m = some c → c.slave.coeff ≠ .nan ∧ ∀ d ∈ c.master, d.coeff ≠ .nan

/-- The unknown that a constraint is about. -/
def unknown {C : Type} (m : Option (Constraint C)) : Option (Int × Int) := m.map fun c => (c.slave.node, c.slave.dof)

/-- `before` orders the elements that satisfy `P`, and elements without order between them are those related by `same`. -/
structure Orders {α : Type} (before : α → α → Bool) (P : α → Prop) (same : α → α → Prop) : Prop where
  irrefl : ∀ a, P a → before a a = false
  trans : ∀ a b c, P a → P b → P c → before a b = true → before b c = true → before a c = true
  same_iff : ∀ a b, P a → P b → (before a b = false ∧ before b a = false ↔ same a b)

variable {K : Type} [Field K] [LinearOrder K]

/-- The value that the constraint gives the slave: `c_0 + c_1 m_1 + ... + c_n m_n`. -/
def value (u : Int → Int → K) (m : Constraint K) : K := m.slave.coeff + (m.master.map fun d => d.coeff * u d.node d.dof).sum

/-- Text that is a sum of a number and multiples of unknowns, and its value. -/
inductive Sum (u : Int → Int → K) : List (Piece K) → K → Prop
  | const (c : K) : Sum u [.num c] c
  | term (c : K) (n d : Int) : Sum u [.num c, .text "*(", .int n, .text ",", .int d, .text ")"] (c * u n d)
  | plus (t : List (Piece K)) (x c : K) (n d : Int) (h : Sum u t x) :
      Sum u (t ++ [.text " + ", .num c, .text "*(", .int n, .text ",", .int d, .text ")"]) (x + c * u n d)
  | minus (t : List (Piece K)) (x c : K) (n d : Int) (h : Sum u t x) :
      Sum u (t ++ [.text " - ", .num c, .text "*(", .int n, .text ",", .int d, .text ")"]) (x - c * u n d)

/-- Text that is an equation for the unknown `n`, `d` with right hand side `x`. -/
inductive Equation (u : Int → Int → K) : List (Piece K) → Int → Int → K → Prop
  | zero (n d : Int) : Equation u [.text "Slave ", .int n, .text ",", .int d, .text " = 0", .text "\n"] n d 0
  | sum (n d : Int) (t : List (Piece K)) (x : K) (h : Sum u t x) :
      Equation u ([.text "Slave ", .int n, .text ",", .int d, .text " = "] ++ t ++ [.text "\n"]) n d x

end Verif.Mpc.Spec
