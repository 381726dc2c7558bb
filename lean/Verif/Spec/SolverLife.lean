import Verif.Model.SolverLife

/-!
What a history of calls says, read off the list of calls: the most recent value given for a quantity.
-/

namespace Verif.SolverLife.Spec

variable {K R B α : Type}

/-- The most recent value that the calls give for a quantity, or the default. -/
def latest (tells : Call K R B → Option α) (default : α) (h : List (Call K R B)) : α := (h.reverse.findSome? tells).getD default

/-- The parameter group of a call. -/
def group : Call K R B → Option (Params K)
  | .init p => some p
  | .initWith p _ => some p
  | _ => none

/-- What a call says about a number, an integer and a flag. -/
def num (name : String) (c : Call K R B) : Option K := (group c).bind fun p => p.num name
def int (name : String) (c : Call K R B) : Option Int := (group c).bind fun p => p.int name
def flag (name : String) (c : Call K R B) : Option Bool := (group c).bind fun p => p.flag name

/-- What a call says about the Courant number. -/
def courant : Call K R B → Option K
  | .courant x => some x
  | c => num "courant_number" c

/-- The objects of a call that sets the solver up. -/
def objects : Call K R B → Option Objs
  | .initWith _ o => some o
  | .initObj o => some o
  | _ => none

/-- Reservoir properties and boundary conditions at an address after some calls. -/
def rockAfter (w : World K R B) (h : List (Call K R B)) (a : Nat) : R :=
  latest (fun c => match c with | .setRock a' v => if a = a' then some v else none | _ => none) (w.rock a) h
def bcAfter (w : World K R B) (h : List (Call K R B)) (a : Nat) : B :=
  latest (fun c => match c with | .setBC a' v => if a = a' then some v else none | _ => none) (w.bc a) h

/-- The pore volumes of a grid with given reservoir properties. -/
def IsPoreVolumes [Mul K] (poro : R → Nat → K) (vols : List K) (rock : R) (pv : List K) : Prop :=
  pv.length = vols.length ∧ ∀ (i : Nat) (v : K), vols[i]? = some v → pv[i]? = some (v * poro rock i)

end Verif.SolverLife.Spec
