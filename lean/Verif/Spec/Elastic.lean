import Mathlib.Algebra.Order.Field.Basic
import Mathlib.LinearAlgebra.Matrix.Notation
import Mathlib.Data.Fin.VecNotation

/-!
Linear elasticity in the order xx, yy, zz, xy, xz, yz, with engineering shear strains.
-/

namespace Verif.Elastic.Spec

variable {K : Type} [Field K]

/-- Hooke's law with Lamé's first parameter `lam` and shear modulus `mu`: stress as a function of strain. -/
def Hooke (lam mu : K) (C : Fin 6 → Fin 6 → K) : Prop :=
  ∀ e : Fin 6 → K, (Matrix.of C).mulVec e =
    ![lam * (e 0 + e 1 + e 2) + 2 * mu * e 0,
      lam * (e 0 + e 1 + e 2) + 2 * mu * e 1,
      lam * (e 0 + e 1 + e 2) + 2 * mu * e 2,
      mu * e 3, mu * e 4, mu * e 5]

/-- Plane strain: Hooke's law for a strain without components in z direction; order xx, yy, xy. -/
def HookePlane (lam mu : K) (C : Fin 3 → Fin 3 → K) : Prop :=
  ∀ e : Fin 3 → K, (Matrix.of C).mulVec e =
    ![lam * (e 0 + e 1) + 2 * mu * e 0, lam * (e 0 + e 1) + 2 * mu * e 1, mu * e 2]

/-- Exchange of the Voigt order (xx, yy, zz, yz, xz, xy) and the order used here. -/
def voigt : Fin 6 → Fin 6 := ![0, 1, 2, 5, 4, 3]

/-- The upper triangle of a 6 x 6 matrix, row by row. -/
def upper (M : Fin 6 → Fin 6 → K) : List K :=
  [M 0 0, M 0 1, M 0 2, M 0 3, M 0 4, M 0 5, M 1 1, M 1 2, M 1 3, M 1 4, M 1 5, M 2 2, M 2 3, M 2 4, M 2 5,
    M 3 3, M 3 4, M 3 5, M 4 4, M 4 5, M 5 5]

/-- Strain of a displacement gradient `H d e` (displacement `d`, derivative `e`). -/
def strain3 (H : Fin 3 → Fin 3 → K) : Fin 6 → K :=
  ![H 0 0, H 1 1, H 2 2, H 0 1 + H 1 0, H 0 2 + H 2 0, H 1 2 + H 2 1]

/-- Strain in the plane, order xx, yy, xy. -/
def strain2 (H : Fin 2 → Fin 2 → K) : Fin 3 → K := ![H 0 0, H 1 1, H 0 1 + H 1 0]

end Verif.Elastic.Spec
