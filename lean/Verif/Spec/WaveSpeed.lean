import Verif.Model.WaveSpeed
import Mathlib.LinearAlgebra.Matrix.Determinant.Basic

/-!
Specification of wave speeds: an elastic tensor in Voigt notation, its Christoffel matrix, the spectrum of a matrix.
-/

namespace Verif.Wave.Spec

/-- Voigt notation: 11, 22, 33, 23, 13, 12. -/
def voigt (i j : Fin 3) : Fin 6 := (![![0, 5, 4], ![5, 1, 3], ![4, 3, 2]] : Fin 3 → Fin 3 → Fin 6) i j

/-- The three eigenvalues of a matrix, in any order: the roots of its characteristic polynomial. -/
def IsSpectrum (E : Fin 3 → Fin 3 → ℝ) (l : List ℝ) : Prop :=
  ∃ a b c, l = [a, b, c] ∧ ∀ t : ℝ, Matrix.det (Matrix.of fun i j => E i j - if i = j then t else 0) = (a - t) * (b - t) * (c - t)

/-- The tensor of an isotropic material in Voigt notation. -/
def isotropic (lam mu : ℝ) (a b : Fin 6) : ℝ := if a.val < 3 ∧ b.val < 3 then lam + (if a = b then 2 * mu else 0) else if a = b then mu else 0

/-- Positive strain energy. -/
def Positive (C : Fin 6 → Fin 6 → ℝ) : Prop := ∀ e : Fin 6 → ℝ, e ≠ 0 → 0 < ∑ a, ∑ b, e a * C a b * e b

/-- A unit vector. -/
def Unit3 (n : Fin 3 → ℝ) : Prop := n 0 * n 0 + n 1 * n 1 + n 2 * n 2 = 1

end Verif.Wave.Spec
