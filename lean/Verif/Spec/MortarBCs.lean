import Verif.Model.MortarBCs
import Verif.Spec.Asm

/-!
Specification for the mortar conditions: integrals of displacements against multipliers over a side.
-/

namespace Verif.Asm.MortarSpec

variable {K : Type} [Field K]

/-- The integral of the displacements `v` (by node and direction) times the multiplier field `μ` (by column and row of the multiplier nodes and direction) over a
side with `n` columns of quads, for multipliers of order one horizontally and `p` vertically. The field is periodic: the right edge of the last element has the values of the
left edge of the first, and, for an order above one, the top row those of the bottom row. -/
def sideIntegral (n p : Nat) (cols : List (List (MortarQuad K))) (v : Nat → Nat → K) (μ : Nat → Nat → Nat → K) : K :=
  ((List.range n).map fun e => ((cols.getD e []).map fun q =>
    ∑ d ∈ Finset.range 3, ∑ i ∈ Finset.range q.vertex.length, ∑ i2 ∈ Finset.range (p + 1), ∑ i1 ∈ Finset.range 2,
      v (q.vertex.getD i 0) d * q.mat i (i2 * 2 + i1) * μ ((e + i1) % n) (if i2 = p ∧ p > 1 then 0 else i2) d).sum).sum

/-- Two sides match: the quads have the same local matrices, and corresponding vertices move alike. -/
def Matching (v : Nat → Nat → K) (a b : List (List (MortarQuad K))) : Prop :=
  List.Forall₂ (List.Forall₂ fun q q' : MortarQuad K => q.vertex.length = q'.vertex.length ∧ q.mat = q'.mat ∧
    ∀ i < q.vertex.length, ∀ d < 3, v (q.vertex.getD i 0) d = v (q'.vertex.getD i 0) d) a b

end Verif.Asm.MortarSpec
