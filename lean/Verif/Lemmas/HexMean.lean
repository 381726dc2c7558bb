import Verif.Spec.ElasticUpscale
import Mathlib.Tactic.Ring
import Mathlib.Tactic.FieldSimp
import Mathlib.Tactic.LinearCombination

/-!
Integral of a derivative over a hexahedron: a sum over its six faces. The list of the coefficients of the integrand was computed by a
script; `ring` checks it.
-/

namespace Verif.ElasticUp

variable {K : Type} [Field K]

/-- A rule that is exact for monomials is exact for polynomials. -/
theorem rule_poly (rule : List (K × (Fin 3 → K))) (hr : ExactRule rule) (L : List (Nat × Nat × Nat × K))
    (hL : ∀ t ∈ L, t.1 ≤ 2 ∧ t.2.1 ≤ 2 ∧ t.2.2.1 ≤ 2) :
    (rule.map fun p => p.1 * (L.map fun t => t.2.2.2 * (p.2 0 ^ t.1 * p.2 1 ^ t.2.1 * p.2 2 ^ t.2.2.1)).sum).sum =
      (L.map fun t => t.2.2.2 * (1 / ((t.1 + 1 : K) * (t.2.1 + 1) * (t.2.2.1 + 1)))).sum := by
  induction L with
  | nil => simp
  | cons t L ih =>
    simp only [List.map_cons, List.sum_cons]
    rw [List.map_congr_left (fun p _ => mul_add _ _ _), List.sum_map_add, ih fun t ht => hL t (List.mem_cons_of_mem _ ht)]
    congr 1
    obtain ⟨h1, h2, h3⟩ := hL t List.mem_cons_self
    rw [← hr _ _ _ h1 h2 h3, ← List.sum_map_mul_left]
    congr 1
    apply List.map_congr_left
    intro p _
    ring

/-- Coefficients of the determinant of the gradients of three trilinear functions. -/
def detCoeffs (a0 a1 a2 a3 a4 a5 a6 a7 b0 b1 b2 b3 b4 b5 b6 b7 c0 c1 c2 c3 c4 c5 c6 c7 : K) : List (Nat × Nat × Nat × K) :=
  [ (0, 0, 0, a1 * (b2 * c4 - b4 * c2) + a2 * (b4 * c1 - b1 * c4) + a4 * (b1 * c2 - b2 * c1)),
    (0, 0, 1, a1 * (b6 * c4 - b4 * c6) + a2 * (b4 * c5 - b5 * c4) + a4 * (b1 * c6 + b5 * c2 - b2 * c5 - b6 * c1) + a5 * (b2 * c4 - b4 * c2) + a6 * (b4 * c1 - b1 * c4)),
    (0, 0, 2, a4 * (b5 * c6 - b6 * c5) + a5 * (b6 * c4 - b4 * c6) + a6 * (b4 * c5 - b5 * c4)),
    (0, 1, 0, a1 * (b2 * c6 - b6 * c2) + a2 * (b4 * c3 + b6 * c1 - b1 * c6 - b3 * c4) + a3 * (b2 * c4 - b4 * c2) + a4 * (b3 * c2 - b2 * c3) + a6 * (b1 * c2 - b2 * c1)),
    (0, 1, 1, a2 * (b4 * c7 + b6 * c5 - b5 * c6 - b7 * c4) + a3 * (b6 * c4 - b4 * c6) + a4 * (b3 * c6 + b7 * c2 - b2 * c7 - b6 * c3) + a5 * (b2 * c6 - b6 * c2) + a6 * (b4 * c3 - b3 * c4 + b5 * c2 - b2 * c5) + a7 * (b2 * c4 - b4 * c2)),
    (0, 1, 2, a4 * (b7 * c6 - b6 * c7) + a6 * (b4 * c7 - b7 * c4) + a7 * (b6 * c4 - b4 * c6)),
    (0, 2, 0, a2 * (b6 * c3 - b3 * c6) + a3 * (b2 * c6 - b6 * c2) + a6 * (b3 * c2 - b2 * c3)),
    (0, 2, 1, a2 * (b6 * c7 - b7 * c6) + a6 * (b7 * c2 - b2 * c7) + a7 * (b2 * c6 - b6 * c2)),
    (1, 0, 0, a1 * (b2 * c5 + b3 * c4 - b4 * c3 - b5 * c2) + a2 * (b5 * c1 - b1 * c5) + a3 * (b4 * c1 - b1 * c4) + a4 * (b1 * c3 - b3 * c1) + a5 * (b1 * c2 - b2 * c1)),
    (1, 0, 1, a1 * (b6 * c5 + b7 * c4 - b4 * c7 - b5 * c6) + a3 * (b4 * c5 - b5 * c4) + a4 * (b1 * c7 + b5 * c3 - b3 * c5 - b7 * c1) + a5 * (b3 * c4 - b4 * c3 + b1 * c6 - b6 * c1) + a6 * (b5 * c1 - b1 * c5) + a7 * (b4 * c1 - b1 * c4)),
    (1, 0, 2, a4 * (b5 * c7 - b7 * c5) + a5 * (b7 * c4 - b4 * c7) + a7 * (b4 * c5 - b5 * c4)),
    (1, 1, 0, a1 * (b2 * c7 + b3 * c6 - b6 * c3 - b7 * c2) + a2 * (b5 * c3 + b7 * c1 - b1 * c7 - b3 * c5) + a3 * (b2 * c5 - b5 * c2 + b6 * c1 - b1 * c6) + a5 * (b3 * c2 - b2 * c3) + a6 * (b1 * c3 - b3 * c1) + a7 * (b1 * c2 - b2 * c1)),
    (1, 1, 1, a3 * (2 * b6 * c5 - 2 * b5 * c6) + a5 * (2 * b3 * c6 - 2 * b6 * c3) + a6 * (2 * b5 * c3 - 2 * b3 * c5)),
    (1, 1, 2, a5 * (-b6 * c7 + b7 * c6) + a6 * (b5 * c7 - b7 * c5) + a7 * (b6 * c5 - b5 * c6)),
    (1, 2, 0, a2 * (b7 * c3 - b3 * c7) + a3 * (b2 * c7 - b7 * c2) + a7 * (b3 * c2 - b2 * c3)),
    (1, 2, 1, a3 * (b6 * c7 - b7 * c6) + a6 * (b7 * c3 - b3 * c7) + a7 * (b3 * c6 - b6 * c3)),
    (2, 0, 0, a1 * (b3 * c5 - b5 * c3) + a3 * (b5 * c1 - b1 * c5) + a5 * (b1 * c3 - b3 * c1)),
    (2, 0, 1, a1 * (b7 * c5 - b5 * c7) + a5 * (b1 * c7 - b7 * c1) + a7 * (b5 * c1 - b1 * c5)),
    (2, 1, 0, a1 * (b3 * c7 - b7 * c3) + a3 * (b7 * c1 - b1 * c7) + a7 * (b1 * c3 - b3 * c1)),
    (2, 1, 1, a3 * (b7 * c5 - b5 * c7) + a5 * (b3 * c7 - b7 * c3) + a7 * (-b3 * c5 + b5 * c3))]

/-- Flux of `v` through a bilinear face, for functions `v0 + v1 s + v2 t + v3 s t` (and the same for `y` and `z`). -/
def faceFlux (v0 v1 v2 v3 y1 y2 y3 z1 z2 z3 : K) : K :=
  v0 * ((y1 * z2 - y2 * z1) + (y1 * z3 - y3 * z1) / 2 + (y3 * z2 - y2 * z3) / 2) +
  v1 * ((y1 * z2 - y2 * z1) / 2 + (y1 * z3 - y3 * z1) / 3 + (y3 * z2 - y2 * z3) / 4) +
  v2 * ((y1 * z2 - y2 * z1) / 2 + (y1 * z3 - y3 * z1) / 4 + (y3 * z2 - y2 * z3) / 3) +
  v3 * ((y1 * z2 - y2 * z1) / 4 + (y1 * z3 - y3 * z1) / 6 + (y3 * z2 - y2 * z3) / 6)

theorem det_poly (a0 a1 a2 a3 a4 a5 a6 a7 b0 b1 b2 b3 b4 b5 b6 b7 c0 c1 c2 c3 c4 c5 c6 c7 x y z : K) :
    (a1 + a3 * y + a5 * z + a7 * y * z) * ((b2 + b3 * x + b6 * z + b7 * x * z) * (c4 + c5 * x + c6 * y + c7 * x * y) -
        (b4 + b5 * x + b6 * y + b7 * x * y) * (c2 + c3 * x + c6 * z + c7 * x * z)) +
      (a2 + a3 * x + a6 * z + a7 * x * z) * ((b4 + b5 * x + b6 * y + b7 * x * y) * (c1 + c3 * y + c5 * z + c7 * y * z) -
        (b1 + b3 * y + b5 * z + b7 * y * z) * (c4 + c5 * x + c6 * y + c7 * x * y)) +
      (a4 + a5 * x + a6 * y + a7 * x * y) * ((b1 + b3 * y + b5 * z + b7 * y * z) * (c2 + c3 * x + c6 * z + c7 * x * z) -
        (b2 + b3 * x + b6 * z + b7 * x * z) * (c1 + c3 * y + c5 * z + c7 * y * z)) =
      ((detCoeffs a0 a1 a2 a3 a4 a5 a6 a7 b0 b1 b2 b3 b4 b5 b6 b7 c0 c1 c2 c3 c4 c5 c6 c7).map fun t =>
        t.2.2.2 * (x ^ t.1 * y ^ t.2.1 * z ^ t.2.2.1)).sum := by
  simp only [detCoeffs, List.map_cons, List.map_nil, List.sum_cons, List.sum_nil, pow_zero, pow_one, one_mul, mul_one]
  ring

theorem det_faces [CharZero K] (a0 a1 a2 a3 a4 a5 a6 a7 b0 b1 b2 b3 b4 b5 b6 b7 c0 c1 c2 c3 c4 c5 c6 c7 : K) :
    ((detCoeffs a0 a1 a2 a3 a4 a5 a6 a7 b0 b1 b2 b3 b4 b5 b6 b7 c0 c1 c2 c3 c4 c5 c6 c7).map fun t =>
        t.2.2.2 * (1 / ((t.1 + 1 : K) * (t.2.1 + 1) * (t.2.2.1 + 1)))).sum =
      (faceFlux (a0 + a1) (a2 + a3) (a4 + a5) (a6 + a7) (b2 + b3) (b4 + b5) (b6 + b7) (c2 + c3) (c4 + c5) (c6 + c7) -
        faceFlux a0 a2 a4 a6 b2 b4 b6 c2 c4 c6) +
      (faceFlux (a0 + a2) (a4 + a6) (a1 + a3) (a5 + a7) (b4 + b6) (b1 + b3) (b5 + b7) (c4 + c6) (c1 + c3) (c5 + c7) -
        faceFlux a0 a4 a1 a5 b4 b1 b5 c4 c1 c5) +
      (faceFlux (a0 + a4) (a1 + a5) (a2 + a6) (a3 + a7) (b1 + b5) (b2 + b6) (b3 + b7) (c1 + c5) (c2 + c6) (c3 + c7) -
        faceFlux a0 a1 a2 a3 b1 b2 b3 c1 c2 c3) := by
  simp only [detCoeffs, faceFlux, List.map_cons, List.map_nil, List.sum_cons, List.sum_nil, Nat.cast_zero, Nat.cast_one,
    Nat.cast_ofNat]
  norm_num
  ring

end Verif.ElasticUp
