import Mathlib.Algebra.BigOperators.Fin
import Verif.Model.Materials
import Verif.Model.Shape

/-!
Model of `opm/elasticity/elasticity_impl.hpp` and of the element loops `assemble` (element matrices and load vectors) and
`averageStress` of `opm/elasticity/elasticity_upscale_impl.hpp`.

Unknown `dim * f + d` of an element is displacement `d` of its node `f`. Simplifications: `double` is a linearly ordered
field; the quadrature rule and the geometry (integration element, inverse transposed Jacobian) are given; colouring, the
scatter into the global system (see the model of `ASMHandler`) and printing are left out.
-/

namespace Verif.Elastic

open Verif.Upscale (quot)

variable {K : Type} [Field K]

/-- Gradients in physical coordinates (elasticity_impl.hpp:30-32): `Jinv.mv(basis[f].evaluateGradient(point), dNdX[f])`. -/
def dNdX {dim : Nat} (Jinv : Fin dim → Fin dim → K) (grad : Fin dim → K) (r : Fin dim) : K := ∑ e, Jinv r e * grad e

/-- Derivative `e` of function `f` of a set at a reference point: `basis[f].evaluateGradient(point)[e]`. -/
def refGrad {dim : Nat} (F : List (Shape.Linear K dim)) (x : Fin dim → K) (f : Nat) (e : Fin dim) : K :=
  match F[f]? with
  | none => 0
  | some s => s.grad x e

/-- All gradients in physical coordinates (elasticity_impl.hpp:29-32). -/
def physGrad {dim : Nat} (F : List (Shape.Linear K dim)) (Jinv : Fin dim → Fin dim → K) (x : Fin dim → K)
    (f e : Nat) : K :=
  if h : e < dim then dNdX Jinv (refGrad F x f) ⟨e, h⟩ else 0

/-- The assignments `temp[INDEX(i,j)][f] = dNdX[f][e]` for dimension 3, as `(i, j, e)` (elasticity_impl.hpp:41-53). -/
def writes3 : List (Nat × Nat × Nat) :=
  [(0, 0, 0), (1, 1, 1), (2, 2, 2), (3, 0, 1), (3, 1, 0), (4, 0, 2), (4, 2, 0), (5, 1, 2), (5, 2, 1)]

/-- The same for dimension 2 (elasticity_impl.hpp:58-66). -/
def writes2 : List (Nat × Nat × Nat) := [(0, 0, 0), (1, 1, 1), (2, 0, 1), (2, 1, 0)]

/-- The matrix `temp` after the assignments; `INDEX(i,j)` is `i + comp * j`. -/
def tempMat (comp : Nat) (writes : List (Nat × Nat × Nat)) (g : Nat → Nat → K) (r f : Nat) : K :=
  writes.foldl (fun acc w => if w.1 + comp * w.2.1 = r then g f w.2.2 else acc) 0

/-- The copy loop (elasticity_impl.hpp:68-71): `k` runs over all elements of `B`, column by column. -/
def bmat (comp rows : Nat) (writes : List (Nat × Nat × Nat)) (g : Nat → Nat → K) (i j : Nat) : K :=
  tempMat comp writes g ((comp * j + i) % rows) ((comp * j + i) / rows)

/-- `getBmatrix` for dimension 3 (elasticity_impl.hpp:20-72), `g f e` derivative `e` of function `f`. -/
def B3 (g : Nat → Nat → K) (i : Fin 6) (j : Nat) : K := bmat 6 18 writes3 g i j

/-- `getBmatrix` for dimension 2 (elasticity_impl.hpp:20-72). -/
def B2 (g : Nat → Nat → K) (i : Fin 3) (j : Nat) : K := bmat 3 6 writes2 g i j

/-- Matrix times vector of `N` unknowns. -/
def mulB {c : Nat} (B : Fin c → Nat → K) (N : Nat) (v : Nat → K) (i : Fin c) : K := ∑ j ∈ Finset.range N, B i j * v j

/-- `getStiffnessMatrix` (elasticity_impl.hpp:89-103): `Bᵀ (C B)` times `detJW`. -/
def stiffness {c : Nat} (B : Fin c → Nat → K) (C : Fin c → Fin c → K) (detJW : K) (a b : Nat) : K :=
  (∑ i, B i a * ∑ k, C i k * B k b) * detJW

/-- `getStressVector` (elasticity_impl.hpp:105-114). -/
def stress {c : Nat} (v : Nat → K) (N : Nat) (eps0 : Fin c → K) (B : Fin c → Nat → K) (C : Fin c → Fin c → K)
    (i : Fin c) : K := ∑ k, C i k * (mulB B N v k + eps0 k)

/-- A quadrature point: `detJ * weight` and the matrix `B`. -/
structure QP (K : Type) (c : Nat) where
  w : K
  B : Fin c → Nat → K

/-- Element matrix: the loop over quadrature points (elasticity_upscale_impl.hpp:481, 501-504). -/
def elemK {c : Nat} (C : Fin c → Fin c → K) (pts : List (QP K c)) : Nat → Nat → K :=
  pts.foldl (fun A q => fun a b => A a b + stiffness q.B C q.w a b) fun _ _ => 0

/-- Contribution of one quadrature point to the load vector (elasticity_upscale_impl.hpp:508-511). -/
def loadPoint {c : Nat} (C : Fin c → Fin c → K) (eps0 : Fin c → K) (q : QP K c) (a : Nat) : K :=
  (∑ i, q.B i a * ∑ k, C i k * eps0 k) * (-q.w)

/-- Element load vector (elasticity_upscale_impl.hpp:482, 507-512). -/
def elemLoad {c : Nat} (C : Fin c → Fin c → K) (eps0 : Fin c → K) (pts : List (QP K c)) : Nat → K :=
  pts.foldl (fun E q => fun a => E a + loadPoint C eps0 q a) fun _ => 0

/-- The strain of a load case (elasticity_upscale_impl.hpp:446-449, 532-534). -/
def unitStrain {c : Nat} (loadcase : Nat) (i : Fin c) : K := if i.val = loadcase then 1 else 0

/-- An element of `averageStress`: material, extracted displacements, quadrature points. -/
structure Elem (K : Type) where
  mat : Material K
  v : Nat → K
  pts : List (QP K 6)

/-- The state of `averageStress`: `C` lives outside the loop over elements. -/
structure Avg (K : Type) where
  C : Fin 6 → Fin 6 → K
  sigma : Fin 6 → K
  volume : K

variable [LinearOrder K]

/-- One element of `averageStress` (elasticity_upscale_impl.hpp:538-567). -/
def avgStep (N : Nat) (eps0 : Fin 6 → K) (s : Avg K) (e : Elem K) : Option (Avg K) :=
  (e.mat.constitutive false s.C).map fun r =>
    e.pts.foldl (fun t q => ⟨t.C, fun i => t.sigma i + stress e.v N eps0 q.B t.C i * q.w, t.volume + q.w⟩)
      ⟨r.2, s.sigma, s.volume⟩

/-- `averageStress` (elasticity_upscale_impl.hpp:521-571) for dimension 3: `C0` is the initial content of `C`, `sigma0`
that of the result. `none`: a division by zero. -/
def averageStress (Escale Emin : K) (N : Nat) (C0 : Fin 6 → Fin 6 → K) (sigma0 : Fin 6 → K) (loadcase : Int)
    (els : List (Elem K)) : Option (Fin 6 → K) :=
  if loadcase < 0 ∨ loadcase > 5 then some sigma0
  else
    match els.foldlM (avgStep N (unitStrain loadcase.toNat)) ⟨C0, fun _ => 0, 0⟩ with
    | none => none
    | some s =>
      if s.volume = 0 then none
      else if Escale > 0 then
        if Emin = 0 then none else some fun i => s.sigma i / s.volume / (Escale / Emin)
      else some fun i => s.sigma i / s.volume

end Verif.Elastic
