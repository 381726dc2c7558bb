import Mathlib.Algebra.Order.Field.Basic
import Mathlib.Data.Fin.VecNotation
import Mathlib.Algebra.BigOperators.Group.List.Basic

/-! What C105 says about quadrilaterals. The corners are numbered like those of the unit square in the order of Dune: `(0,0)`, `(1,0)`, `(0,1)`, `(1,1)`. -/

namespace Verif.QuadGeo.Spec

variable {K : Type} [Field K] [LinearOrder K]

/-- Cross product of the vectors from `a` to `b` and from `a` to `d`. -/
def cross (a b d : K × K) : K := (b.1 - a.1) * (d.2 - a.2) - (d.1 - a.1) * (b.2 - a.2)

/-- A strictly convex quadrilateral, whose boundary runs through the corners 0, 1, 3, 2: it turns in the same direction at each of them. -/
def Convex (c : Fin 4 → K × K) : Prop :=
  (0 < cross (c 0) (c 1) (c 2) ∧ 0 < cross (c 1) (c 3) (c 0) ∧ 0 < cross (c 3) (c 2) (c 1) ∧ 0 < cross (c 2) (c 0) (c 3)) ∨
  (cross (c 0) (c 1) (c 2) < 0 ∧ cross (c 1) (c 3) (c 0) < 0 ∧ cross (c 3) (c 2) (c 1) < 0 ∧ cross (c 2) (c 0) (c 3) < 0)

/-- The area: that of the two triangles on either side of a diagonal. -/
def area (c : Fin 4 → K × K) : K := |cross (c 0) (c 1) (c 3)| / 2 + |cross (c 0) (c 3) (c 2)| / 2

/-- A point of the unit square. -/
def InSquare (p : K × K) : Prop := 0 ≤ p.1 ∧ p.1 ≤ 1 ∧ 0 ≤ p.2 ∧ p.2 ≤ 1

/-- The bilinear function with the values `f` at the corners. -/
def interp (f : Fin 4 → K) (u v : K) : K := (1 - u) * (1 - v) * f 0 + u * (1 - v) * f 1 + (1 - u) * v * f 2 + u * v * f 3

/-- The bilinear interpolation of the corners. -/
def blend (c : Fin 4 → K × K) (p : K × K) : K × K := (interp (fun i => (c i).1) p.1 p.2, interp (fun i => (c i).2) p.1 p.2)

/-- A quadrature rule on the unit square that integrates affine functions exactly. -/
def AffineRule (rule : List ((K × K) × K)) : Prop :=
  (rule.map fun r => r.2).sum = 1 ∧ (rule.map fun r => r.2 * r.1.1).sum = 1 / 2 ∧ (rule.map fun r => r.2 * r.1.2).sum = 1 / 2

/-- Opposite sides are parallel and equally long. -/
def Parallelogram (c : Fin 4 → K × K) : Prop := (c 0).1 + (c 3).1 = (c 1).1 + (c 2).1 ∧ (c 0).2 + (c 3).2 = (c 1).2 + (c 2).2

/-- The range in which a local coordinate is accepted. -/
def Accepted (p : K × K) : Prop := 0 ≤ p.1 ∧ p.1 ≤ 1 + 1 / 10000 ∧ 0 ≤ p.2 ∧ p.2 ≤ 1 + 1 / 10000

end Verif.QuadGeo.Spec
