import Mathlib.LinearAlgebra.Matrix.ToLin
import Mathlib.LinearAlgebra.Dual.Lemmas
import Mathlib.Algebra.BigOperators.Fin

/-! Solvability of linear systems. -/

namespace Verif.Solvable

variable {K : Type} [Field K]

/-- A system has a solution if its right-hand side is orthogonal to everything the columns are orthogonal to. -/
theorem exists_solution (N : Nat) (A : Nat → Nat → K) (b : Nat → K)
    (h : ∀ y : Nat → K, (∀ x : Nat → K, ∑ r ∈ Finset.range N, ∑ c ∈ Finset.range N, y r * A r c * x c = 0) →
      ∑ r ∈ Finset.range N, y r * b r = 0) :
    ∃ x : Nat → K, ∀ r < N, ∑ c ∈ Finset.range N, A r c * x c = b r := by
  let L : (Fin N → K) →ₗ[K] (Fin N → K) := Matrix.mulVecLin (Matrix.of fun r c => A r c)
  let ext : (Fin N → K) → Nat → K := fun x k => if hk : k < N then x ⟨k, hk⟩ else 0
  have hext : ∀ x (k : Fin N), ext x k = x k := fun x k => by simp [ext]
  by_cases hb : (fun r : Fin N => b r) ∈ LinearMap.range L
  · obtain ⟨x, hx⟩ := hb
    refine ⟨ext x, fun r hr => ?_⟩
    have := congrFun hx ⟨r, hr⟩
    rw [Finset.sum_range]
    simp only [hext]
    exact this
  · exfalso
    obtain ⟨f, hf, hle⟩ := Submodule.exists_le_ker_of_notMem (p := LinearMap.range L) hb
    let y : Fin N → K := fun r => f (Pi.single r 1)
    have hy : ∀ z : Fin N → K, f z = ∑ r, y r * z r := by
      intro z
      conv_lhs => rw [← Finset.univ_sum_single z]
      rw [map_sum]
      refine Finset.sum_congr rfl fun r _ => ?_
      have : (Pi.single r (z r) : Fin N → K) = z r • Pi.single r 1 := by
        rw [← Pi.single_smul]; simp
      rw [this, map_smul, smul_eq_mul, mul_comm]
    have h1 := h (ext y) (fun x => by
      have h2 : f (L fun c => x c) = 0 := hle ⟨_, rfl⟩
      rw [hy] at h2
      rw [Finset.sum_range, ← h2]
      refine Finset.sum_congr rfl fun r _ => ?_
      rw [hext, Finset.sum_range]
      change _ = y r * ∑ c : Fin N, A r c * x c
      rw [Finset.mul_sum]
      exact Finset.sum_congr rfl fun c _ => by ring)
    rw [Finset.sum_range] at h1
    simp only [hext] at h1
    exact hf (by rw [hy]; exact h1)

end Verif.Solvable
