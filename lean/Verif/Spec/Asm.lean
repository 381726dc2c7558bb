import Verif.Model.Asm
import Mathlib.Algebra.BigOperators.Group.Finset.Basic

/-! What C39 and C42 say about unknowns, constraints and prescribed values. -/

namespace Verif.Asm

variable {K : Type}

/-- The direction `i` of node `n` has a prescribed value. -/
def Prescribed (h : Handler K) (n i : Nat) : Prop := ∃ f, h.fixed n = some f ∧ f.dir.testBit i = true

/-- The unknown is the slave of a constraint. -/
def Slave (h : Handler K) (n i : Nat) : Prop := ∃ m, h.mpcs (n * h.dim + i) = some m

/-- An unknown of the grid. -/
def Unknown (h : Handler K) (n i : Nat) : Prop := n < h.nodes ∧ i < h.dim

/-- The prescriptions of direction `i` of node `n` in a sequence of calls, in order. -/
def prescriptions (n i : Nat) (calls : List (Nat × Fixed K)) : List (Fixed K) :=
  (calls.filter fun c => decide (c.1 = n) && c.2.dir.testBit i).map (·.2)

/-- What a user can call before the assembly. -/
inductive Call (K : Type) where
  | fix (node : Nat) (e : Fixed K)
  | constrain (m : Mpc K)

/-- The calls, in order. -/
def runCalls (h : Handler K) (calls : List (Call K)) : Handler K :=
  calls.foldl (fun h c => match c with | .fix n e => updateFixedNode h n e | .constrain m => addMPC h m) h

end Verif.Asm

namespace Verif.Asm

variable {K : Type} [Field K]

/-- Right-hand side of a constraint for values `v` of all unknowns (mpc.hh:38-39). -/
def Mpc.value (dim : Nat) (m : Mpc K) (v : Nat → K) : K :=
  m.offset + (m.masters.map fun a => a.coeff * v (a.node * dim + a.dof)).sum

/-- A constraint that ties a slave to one master with the same value. -/
def Tie (c : Mpc K) : Prop := ∃ a, c.masters = [a] ∧ a.coeff = 1

/-- No cycles: masters come before their slaves in some ranking of the unknowns. -/
def Ranked (dim : Nat) (rank : Nat → Nat) (m : Nat → Option (Mpc K)) : Prop :=
  ∀ s c, m s = some c → ∀ a ∈ c.masters, rank (a.node * dim + a.dof) < rank s

/-- Number of masters of an unknown, zero if it is not constrained. -/
def masterCount (m : Nat → Option (Mpc K)) (k : Nat) : Nat := match m k with | some c => c.masters.length | none => 0

/-- The same constraints with all prescribed values replaced by zero. -/
def homogeneous (h : Handler K) : Handler K := { h with fixed := fun n => (h.fixed n).map fun f => ⟨f.dir, fun _ => 0⟩ }

/-- Entry `p` of the values at the vertices of an element: direction `p % dim` of vertex `p / dim`. -/
def vertexValue (dim : Nat) (e : Element K) (v : Nat → Nat → K) (p : Nat) : K := v (e.vertex.getD (p / dim) 0) (p % dim)

/-- Bilinear form of an element for two fields. -/
def elementForm (dim : Nat) (e : Element K) (v w : Nat → Nat → K) : K :=
  ∑ p ∈ Finset.range (e.vertex.length * dim), ∑ q ∈ Finset.range (e.vertex.length * dim),
    vertexValue dim e v p * e.mat p q * vertexValue dim e w q

/-- Work of the load of an element. -/
def elementLoad (dim : Nat) (e : Element K) (v : Nat → Nat → K) : K :=
  ∑ p ∈ Finset.range (e.vertex.length * dim), vertexValue dim e v p * e.load p

end Verif.Asm
