import Verif.Model.BoundaryGrid

/-!
Specification of boundary grids: the bilinear map of a quad, well shaped quads, and the nodes of a uniform grid.
-/

namespace Verif.BGrid

variable {K : Type} [Field K] [LinearOrder K]

/-- The bilinear map in monomial form, with `x = v₀ + a₁ ξ + a₂ η + a₀ ξ η`, for one coordinate `f` of the vertices. -/
def bilinear (f : Fin 4 → K) (xi eta : K) : K :=
  f 0 + (f 1 - f 0) * xi + (f 3 - f 0) * eta + (f 0 - f 1 + f 2 - f 3) * (xi * eta)

/-- Jacobian determinant of the bilinear map with coordinates `f` and `g` of the vertices. -/
def jacobian (f g : Fin 4 → K) (xi eta : K) : K :=
  ((f 1 - f 0) + (f 0 - f 1 + f 2 - f 3) * eta) * ((g 3 - g 0) + (g 0 - g 1 + g 2 - g 3) * xi) -
  ((f 3 - f 0) + (f 0 - f 1 + f 2 - f 3) * xi) * ((g 1 - g 0) + (g 0 - g 1 + g 2 - g 3) * eta)

/-- Coordinates of the vertices. -/
def Quad.xs (q : Quad K) : Fin 4 → K := fun i => (q.v i).c.1
/-- Coordinates of the vertices. -/
def Quad.ys (q : Quad K) : Fin 4 → K := fun i => (q.v i).c.2

/-- A quantity that is compared with a tolerance is zero or exceeds it. -/
def Clear (tol v : K) : Prop := v = 0 ∨ tol < |v|

/-- Residual of the equation `A₀ x y + A₁ x + A₂ y = A₃`. -/
def resid (A : Fin 4 → K) (x y : K) : K := A 0 * (x * y) + A 1 * x + A 2 * y - A 3

/-- What is used of the square root. -/
def IsSqrt (sqrt : K → K) : Prop := ∀ x, 0 < x → 0 ≤ sqrt x ∧ sqrt x * sqrt x = x

/-- `c` lies in the box up to `t`. -/
def InBox (c lo hi : K × K) (t : K) : Prop := lo.1 - t ≤ c.1 ∧ c.1 ≤ hi.1 + t ∧ lo.2 - t ≤ c.2 ∧ c.2 ≤ hi.2 + t

/-- The box of a quad is the smallest one that holds its vertices. -/
def Boxed (q : Quad K) : Prop :=
  (∀ m, q.lo.1 ≤ (q.v m).c.1 ∧ (q.v m).c.1 ≤ q.hi.1 ∧ q.lo.2 ≤ (q.v m).c.2 ∧ (q.v m).c.2 ≤ q.hi.2) ∧
  (∃ m, (q.v m).c.1 = q.lo.1) ∧ (∃ m, (q.v m).c.1 = q.hi.1) ∧ (∃ m, (q.v m).c.2 = q.lo.2) ∧ ∃ m, (q.v m).c.2 = q.hi.2

/-- The common discriminant of the quadratic equations for `x` and for `y` that follow from the two bilinear equations. -/
def disc (A B : Fin 4 → K) : K :=
  (B 0 * A 3 - A 0 * B 3 - (A 1 * B 2 - B 1 * A 2)) * (B 0 * A 3 - A 0 * B 3 - (A 1 * B 2 - B 1 * A 2)) -
    4 * (A 0 * B 1 - B 0 * A 1) * (B 2 * A 3 - A 2 * B 3)

/-- Node number of the grid point `(a,b)`: natural order along the first direction. -/
def nodeNo (k1 a b : Nat) : Nat := b * (k1 + 1) + a

/-- Position of the grid point `(a,b)`. -/
def gridPoint (min max : K × K) (k1 k2 a b : Nat) : K × K :=
  (min.1 + (a : K) * ((max.1 - min.1) / (k1 : K)), min.2 + (b : K) * ((max.2 - min.2) / (k2 : K)))

/-- Corners of a quad relative to its first corner: counterclockwise, or in the order of Dune. -/
def cornerOf (dc : Bool) : Fin 4 → Nat × Nat :=
  if dc then ![(0, 0), (1, 0), (0, 1), (1, 1)] else ![(0, 0), (1, 0), (1, 1), (0, 1)]

end Verif.BGrid
