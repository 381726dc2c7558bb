import Verif.Model.Reservoir
import Mathlib.Data.Fin.VecNotation

/-!
What the permeability input means.
-/

namespace Verif.Reservoir

/-- Row and column of a component. -/
def rowOf (p : Fin 9) : Nat := p.val / 3
def colOf (p : Fin 9) : Nat := p.val % 3

/-- The component with row and column exchanged. -/
def mirror : Fin 9 → Fin 9 := ![0, 3, 6, 1, 4, 7, 2, 5, 8]

/-- The diagonal component of a row or column. -/
def diagOf : Nat → Fin 9
  | 0 => 0
  | 1 => 4
  | _ => 8

/-- A component off the diagonal. -/
def Off (p : Fin 9) : Prop := rowOf p ≠ colOf p

instance (p : Fin 9) : Decidable (Off p) := by unfold Off; infer_instance

/-- A set of components is admissible if each given off-diagonal component comes with the diagonal components of its row and column. -/
def Admissible (has : Fin 9 → Bool) : Prop :=
  ∀ p, has p = true → Off p → has (diagOf (rowOf p)) = true ∧ has (diagOf (colOf p)) = true

/-- The first given component of a list. -/
def firstOf (has : Fin 9 → Bool) (l : List (Fin 9)) : Option (Fin 9) := l.find? fun p => has p

/-- The component whose values are used at a position: the diagonal component itself or, if it is missing, the first given one of the
others; off the diagonal the one below the diagonal if it is given, else the one above. -/
def sourceOf (has : Fin 9 → Bool) : Fin 9 → Option (Fin 9) :=
  ![firstOf has [0, 4, 8], firstOf has [3, 1], firstOf has [6, 2],
    firstOf has [3, 1], firstOf has [4, 0, 8], firstOf has [7, 5],
    firstOf has [6, 2], firstOf has [7, 5], firstOf has [8, 0, 4]]

/-- The tensor of a cell from the numbers written for it. -/
def reconstruct {K : Type} [Zero K] (k : Kind) (l : List K) : List K :=
  match k with
  | .tensor => l
  | .diagonal => (List.range 9).map fun p => if p / 3 = p % 3 then l.getD (p / 3) 0 else 0
  | _ => (List.range 9).map fun p => if p / 3 = p % 3 then l.getD 0 0 else 0

/-- How many numbers are written for a cell. -/
def perCell : Kind → Nat
  | .tensor => 9
  | .diagonal => 3
  | _ => 1

end Verif.Reservoir
