import Verif.Model.Asm

/-!
Model of the coupling block between displacements and multipliers (`opm/elasticity/elasticity_upscale_impl.hpp`, `addBBlockMortar` and
`assembleBBlockMortar`). The local matrices `lE` (quadrature over a quad) are given.
-/

namespace Verif.Asm

variable {K : Type}

/-- A quad of a boundary grid: the nodes of its vertices and its local coupling matrix `lE` (elasticity_upscale_impl.hpp:306-330). -/
structure MortarQuad (K : Type) where
  vertex : List Nat
  mat : Nat → Nat → K

/-- The rows of an unknown (elasticity_upscale_impl.hpp:335-339, 347-349): the equations of the masters of a constraint in the same
direction, or its own equation. -/
def mortarRows (h : Handler K) (node d : Nat) : List Nat :=
  match h.mpcs (key h.dim node d) with
  | some m => m.masters.filterMap fun a => h.eqn a.node d
  | none => (h.eqn node d).toList

/-- The columns (elasticity_upscale_impl.hpp:340-343, 350-353): index of the multiplier in the element and its column. -/
def mortarCols (ln : List Int) (colofs d : Nat) : List (Nat × Nat) :=
  ln.zipIdx.filterMap fun (p : Int × Nat) => if p.1 * 3 + d > -1 then some (p.2, (p.1 * 3 + d).toNat + colofs) else none

/-- The directions and vertices of a quad in the order of the loops. -/
def mortarDofs (q : MortarQuad K) : List (Nat × Nat × Nat) :=
  (List.range 3).flatMap fun d => q.vertex.zipIdx.map fun v => (d, v.1, v.2)

/-- The columns of boundary quads paired with the multipliers of the element of the multiplier grid: `none` if there are fewer columns than
elements (`colGrids[p]` past the end). -/
def pillars (cols : List (List (MortarQuad K))) (lnodes : List (List Int)) : Option (List (List Int × MortarQuad K)) :=
  if lnodes.length ≤ cols.length then
    some ((lnodes.zip cols).flatMap fun p => p.2.map fun q => (p.1, q))
  else none

variable [Field K]

/-- `lE` of a quad added to `B` (elasticity_upscale_impl.hpp:332-358). -/
def addMortarQuad (h : Handler K) (colofs : Nat) (alpha : K) (s : Sys K) (p : List Int × MortarQuad K) : Sys K :=
  (mortarDofs p.2).foldl (fun s t =>
    (mortarRows h t.2.1 t.1).foldl (fun s r =>
      (mortarCols p.1 colofs t.1).foldl (fun s c => s.add r c.2 (alpha * p.2.mat t.2.2 c.1)) s) s) s

/-- `assembleBBlockMortar` (elasticity_upscale_impl.hpp:279-363) on top of `B`. -/
def assembleMortar (h : Handler K) (lnodes : List (List Int)) (cols : List (List (MortarQuad K))) (colofs : Nat) (alpha : K) (B : Sys K) :
    Option (Sys K) :=
  (pillars cols lnodes).map fun ps => ps.foldl (addMortarQuad h colofs alpha) B

/-- `addBBlockMortar` (elasticity_upscale_impl.hpp:232-277): the pattern. -/
def mortarPattern (h : Handler K) (lnodes : List (List Int)) (cols : List (List (MortarQuad K))) (colofs : Nat)
    (pat : List (Nat × Nat)) : Option (List (Nat × Nat)) :=
  (pillars cols lnodes).map fun ps => ps.foldl (fun pat p =>
    (p.2.vertex).foldl (fun pat v => (List.range 3).foldl (fun pat d =>
      (mortarRows h v d).foldl (fun pat r =>
        (mortarCols p.1 colofs d).foldl (fun pat c => (r, c.2) :: pat) pat) pat) pat) pat) pat

end Verif.Asm
