import Verif.Model.Mortar
import Verif.Model.BoundaryFaces

/-!
Model of the steps 4 to 6 of `periodicBCsMortar` (`opm/elasticity/elasticity_upscale_impl.hpp` 855-890): the coupling block of the mortar method from the four
vertical sides.

Simplifications: the sides are given as columns of quads with their local matrices (`lE` of `assembleBBlockMortar`), the handler as it is after
`A.initForAssembly()`; the uniform multiplier grids enter by their number of elements. Outcome `none` is undefined behaviour: reading past the end of a vector, or an
entry outside of the pattern.
-/

namespace Verif.Asm

open Verif.BGrid

variable {K : Type}

/-- The quads of the four sides, column by column (`master[0]` to `master[3]`, elasticity_upscale_impl.hpp:845-852). -/
structure Sides (K : Type) where
  left : List (List (MortarQuad K))
  right : List (List (MortarQuad K))
  front : List (List (MortarQuad K))
  back : List (List (MortarQuad K))

/-- The pattern after the four calls of `addBBlockMortar` (elasticity_upscale_impl.hpp:867-870); `lx` and `ly` are the multipliers of the elements and `eqns` is
returned by the second call. -/
def mortarPatterns (h : Handler K) (lx ly : List (List Int)) (eqns : Nat) (S : Sides K) : Option (List (Nat × Nat)) :=
  (mortarPattern h lx S.left 0 []).bind fun p =>
  (mortarPattern h lx S.right 0 p).bind fun p =>
  (mortarPattern h ly S.front eqns p).bind fun p =>
  mortarPattern h ly S.back eqns p

variable [Field K]

/-- The four calls of `assembleBBlockMortar` (elasticity_upscale_impl.hpp:877-884) from the zero matrix. -/
def mortarAssembly (h : Handler K) (lx ly : List (List Int)) (eqns : Nat) (S : Sides K) : Option (Sys K) :=
  (assembleMortar h lx S.left 0 1 ⟨fun _ _ => 0, fun _ => 0, []⟩).bind fun B =>
  (assembleMortar h lx S.right 0 (-1) B).bind fun B =>
  (assembleMortar h ly S.front eqns 1 B).bind fun B =>
  assembleMortar h ly S.back eqns (-1) B

/-- Steps 4 to 6 (elasticity_upscale_impl.hpp:855-884): the matrix `B` and its number of columns. -/
def mortarBlock (h : Handler K) (n1 n2 p1 p2 : Nat) (S : Sides K) : Option (Sys K × Nat) :=
  (renumber n2 (1 + 1) (p2 + 1)).bind fun lx =>
  (renumber n1 (1 + 1) (p1 + 1)).bind fun ly =>
  (mortarPatterns h lx.1 ly.1 (3 * lx.2) S).bind fun pat =>
  (mortarAssembly h lx.1 ly.1 (3 * lx.2) S).bind fun B =>
  if (∀ t ∈ pat, t.1 < h.maxeqn ∧ t.2 < 3 * lx.2 + 3 * ly.2) ∧ ∀ t ∈ B.touched, t ∈ pat then some (B, 3 * lx.2 + 3 * ly.2) else none

end Verif.Asm
