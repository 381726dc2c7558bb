import Mathlib.Algebra.BigOperators.Fin
import Mathlib.Algebra.Field.Defs

/-!
Theory of laminates (Backus 1962): layers of thickness `h l` and elasticity matrix `D l` on top of each other under a mean strain.
Components of strain and stress are numbered 0 = xx, 1 = yy, 2 = zz, 3 = xy, 4 = xz, 5 = yz.
-/

namespace Verif.Layers

variable {K : Type} [Field K]

/-- Stress of an elasticity matrix at a strain. -/
def stress (D : Fin 6 → Fin 6 → K) (t : Fin 6 → K) (i : Fin 6) : K := ∑ k, D i k * t k

/-- The strains `t l` of `n` layers under the mean strain `x`: in the plane of the layers every layer is strained like the whole, the
mean strain is `x`, and neighbouring layers exert the same traction on each other. -/
structure Laminate (n : Nat) (h : Nat → K) (D : Nat → Fin 6 → Fin 6 → K) (x : Fin 6 → K) (t : Nat → Fin 6 → K) : Prop where
  plane : ∀ l < n, ∀ i ∈ [(0 : Fin 6), 1, 3], t l i = x i
  mean : ∀ i, ∑ l ∈ Finset.range n, h l * t l i = (∑ l ∈ Finset.range n, h l) * x i
  traction : ∀ l < n, ∀ m < n, ∀ i ∈ [(2 : Fin 6), 4, 5], stress (D l) (t l) i = stress (D m) (t m) i

/-- The matrix `R` gives the mean stresses of the layers, for every mean strain. -/
def Effective (n : Nat) (h : Nat → K) (D : Nat → Fin 6 → Fin 6 → K) (R : Fin 6 → Fin 6 → K) : Prop :=
  ∀ x t, Laminate n h D x t → ∀ i, (∑ l ∈ Finset.range n, h l) * stress R x i = ∑ l ∈ Finset.range n, h l * stress (D l) (t l) i

end Verif.Layers
