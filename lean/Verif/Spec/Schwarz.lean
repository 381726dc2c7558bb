import Verif.Spec.Asm
import Verif.Model.Schwarz

/-!
Specification of the subdomains of the Schwarz preconditioner.
-/

namespace Verif.Schwarz.Spec

open Verif.Asm

variable {K : Type}

/-- Every constraint ties an unknown to unknowns of the same direction. -/
def SameDirection (h : Handler K) : Prop :=
  ∀ n i c, i < h.dim → h.mpcs (n * h.dim + i) = some c → ∀ a ∈ c.masters, a.dof = i

/-- Equation `e` takes part in the value of direction `i` of node `n`: it is its own or that of a master. -/
def TakesPart (h : Handler K) (n i e : Nat) : Prop :=
  (h.mpcs (n * h.dim + i) = none ∧ h.eqn n i = some e) ∨ ∃ c, h.mpcs (n * h.dim + i) = some c ∧ ∃ a ∈ c.masters, h.eqn a.node a.dof = some e

/-- Equation `e` takes part in the values at the vertices of a cell of column `(i, j)`. -/
def InColumn (h : Handler K) (cells : List Cell) (i j e : Nat) : Prop :=
  ∃ c ∈ cells, c.i = i ∧ c.j = j ∧ ∃ n ∈ c.vertex, ∃ m < 3, TakesPart h n m e

end Verif.Schwarz.Spec
