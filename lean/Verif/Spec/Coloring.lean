/-!
Specification of the element colouring and of the work chunks.
-/

namespace Verif.Coloring

/-- Cells `g` and `h` of a logically Cartesian grid with `n1` times `n2` cells in each layer have a common corner: their
positions differ by at most one in each direction. -/
def Touch (n1 n2 g h : Nat) : Prop :=
  (g % n1 ≤ h % n1 + 1 ∧ h % n1 ≤ g % n1 + 1) ∧
  (g / n1 % n2 ≤ h / n1 % n2 + 1 ∧ h / n1 % n2 ≤ g / n1 % n2 + 1) ∧
  (g / n1 / n2 ≤ h / n1 / n2 + 1 ∧ h / n1 / n2 ≤ g / n1 / n2 + 1)

/-- No two elements given to different threads of one colour have a common corner. -/
def RaceFree (n1 n2 : Nat) (globalCell : List Nat) (colour : List (List Nat)) : Prop :=
  ∀ t u : Nat, t ≠ u → ∀ p q : Nat, p ∈ colour.getD t [] → q ∈ colour.getD u [] →
    ∀ g h : Nat, globalCell[p]? = some g → globalCell[q]? = some h → ¬ Touch n1 n2 g h

/-- The items of the half open intervals, one interval after the other. -/
def items (chunks : List (Nat × Nat)) : List Nat := chunks.flatMap fun p => List.range' p.1 (p.2 - p.1)

/-- Elements that are left over when strips of equal width are cut across direction `d`: the rest of the division times the
elements of a layer. -/
def leftover (n1 n2 n3 parts : Nat) : Nat → Nat
  | 0 => (n1 % parts) * (n2 * n3)
  | 1 => (n2 % parts) * (n1 * n3)
  | _ => (n3 % parts) * (n1 * n2)

/-- Number of elements along a direction. -/
def along (n1 n2 n3 : Nat) : Nat → Nat
  | 0 => n1
  | 1 => n2
  | _ => n3

end Verif.Coloring
