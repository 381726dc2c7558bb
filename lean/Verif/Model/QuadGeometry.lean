import Verif.Model.BoundaryGrid
import Verif.Model.Shape

/-!
Model of the geometry of boundary quads (`HexGeometry<2,2,GridImp>` in `opm/elasticity/boundarygrid.hh`) and of the local coupling matrices
computed with it (`assembleBBlockMortar` in `opm/elasticity/elasticity_upscale_impl.hpp`).

Functions of Dune are modelled by what they compute in exact arithmetic: `xTRightInvA<2,2>(A,z,x)` solves `xᵀ A = zᵀ` and has no value for a
singular matrix, `sqrtDetAAT<2,2>` is the absolute value of the determinant, `invert` is the inverse and throws for a singular matrix.
`center()` calls a member `Global` that does not exist, so that it cannot be instantiated; it is not modelled.
-/

namespace Verif.QuadGeo

open Verif.Shape

variable {K : Type} [Field K]

/-- The access pattern of the corners (boundarygrid.hh:388-391, 436-439). -/
def pat : Fin 4 → Fin 2 → Fin 2 := ![![0, 0], ![1, 0], ![0, 1], ![1, 1]]

/-- `v[j]` for a `FieldVector<double,2>`. -/
def comp (p : K × K) (j : Fin 2) : K := if j = 0 then p.1 else p.2

/-- `uvw` (boundarygrid.hh:384-386, 432-434). -/
def uvw (l : K × K) (b : Fin 2) : K × K := if b = 0 then (1 - l.1, 1 - l.2) else l

/-- `global` (boundarygrid.hh:381-403). -/
def global (c : Fin 4 → K × K) (l : K × K) : K × K :=
  (List.finRange 4).foldl (fun (xyz : K × K) i =>
    let factor := (List.finRange 2).foldl (fun f j => f * comp (uvw l (pat i j)) j) (1 : K)
    (xyz.1 + (c i).1 * factor, xyz.2 + (c i).2 * factor)) (0, 0)

/-- The factor of a corner in `jacobianTransposed` (boundarygrid.hh:443-448). -/
def derivFactor (l : K × K) (deriv : Fin 2) (i : Fin 4) : K :=
  (List.finRange 2).foldl (fun f j =>
    f * (if j ≠ deriv then comp (uvw l (pat i j)) j else if pat i j = 0 then -1 else 1)) (1 : K)

/-- Row `deriv` of `jacobianTransposed` (boundarygrid.hh:427-455). -/
def jacobianTransposed (c : Fin 4 → K × K) (l : K × K) (deriv : Fin 2) : K × K :=
  (List.finRange 4).foldl (fun (r : K × K) i =>
    (r.1 + (c i).1 * derivFactor l deriv i, r.2 + (c i).2 * derivFactor l deriv i)) (0, 0)

/-- Determinant of a matrix given by its rows. -/
def det2 (r0 r1 : K × K) : K := r0.1 * r1.2 - r1.1 * r0.2

/-- `volume` (boundarygrid.hh:339, 349, 366-369). -/
def volume (c : Fin 4 → K × K) : K := ((c 1).1 - (c 0).1) * ((c 2).2 - (c 0).2)

/-- `HexGeometry(q)` (boundarygrid.hh:344-349): the corners. -/
def ofQuad (q : Verif.BGrid.Quad K) : Fin 4 → K × K := fun i => (q.v i).c

/-- `BoundaryGrid::extract` (boundarygrid.cpp:70-78): the coordinates other than `dir`; a third one would be written out of range. -/
def extract (coord : Fin 3 → K) (dir : Nat) : Option (K × K) :=
  match ((List.finRange 3).filter fun (i : Fin 3) => (i : Nat) ≠ dir).map coord with
  | [a, b] => some (a, b)
  | _ => none

/-- `HexGeometry(q, gv, dir)` (boundarygrid.hh:322-340): each corner is searched among the vertices of the grid (index and position); `none` when there is
no vertex with the index (the end iterator would be used). -/
def ofGrid (verts : List (Nat × (Fin 3 → K))) (nodes : Fin 4 → Nat) (dir : Nat) : Option (Fin 4 → K × K) :=
  ((List.finRange 4).mapM fun i => (verts.find? fun v => v.1 == nodes i).bind fun v => extract v.2 dir).map fun l i => l.getD i (0, 0)

variable [LinearOrder K]

/-- `integrationElement` (boundarygrid.hh:469-475). -/
def integrationElement (c : Fin 4 → K × K) (l : K × K) : K :=
  |det2 (jacobianTransposed c l 0) (jacobianTransposed c l 1)|

/-- `jacobianInverseTransposed` (boundarygrid.hh:457-467): entry `i`, `j`; `none` for a singular matrix. -/
def jacobianInverseTransposed (c : Fin 4 → K × K) (l : K × K) : Option (Fin 2 → Fin 2 → K) :=
  let r0 := jacobianTransposed c l 0
  let r1 := jacobianTransposed c l 1
  let d := det2 r0 r1
  if d = 0 then none else some ![![r1.2 / d, -r0.2 / d], ![-r1.1 / d, r0.1 / d]]

/-- What a run of the loop of `local` can do. -/
inductive Outcome (K : Type) where
  | running
  | singular
  | done (x : K × K)
deriving DecidableEq

/-- The increment `dx` (boundarygrid.hh:414-417): `DFⁿ dxⁿ = Fⁿ`. -/
def newtonStep (c : Fin 4 → K × K) (y x : K × K) : Option (K × K) :=
  let r0 := jacobianTransposed c x 0
  let r1 := jacobianTransposed c x 1
  let z := ((global c x).1 - y.1, (global c x).2 - y.2)
  let d := det2 r0 r1
  if d = 0 then none else some ((z.1 * r1.2 - z.2 * r1.1) / d, (r0.1 * z.2 - r0.2 * z.1) / d)

/-- At most `fuel` passes of the loop of `local` (boundarygrid.hh:412-419). -/
def localLoop (c : Fin 4 → K × K) (y : K × K) : Nat → K × K → Outcome K
  | 0, _ => .running
  | fuel + 1, x =>
    match newtonStep c y x with
    | none => .singular
    | some dx =>
      let x' := (x.1 - dx.1, x.2 - dx.2)
      if dx.1 * dx.1 + dx.2 * dx.2 > (1 / 10 ^ 10) * (1 / 10 ^ 10) then localLoop c y fuel x' else .done x'

/-- `local` (boundarygrid.hh:405-421), at most `fuel` passes: the start is the centre of the square. -/
def localRun (c : Fin 4 → K × K) (y : K × K) (fuel : Nat) : Outcome K := localLoop c y fuel (1 / 2, 1 / 2)

/-- The range asserted for the local coordinates (elasticity_upscale_impl.hpp:323). -/
def inRange (loc : K × K) : Prop :=
  loc.1 ≤ 1 + 1 / 10 ^ 4 ∧ loc.1 ≥ 0 ∧ loc.2 ≤ 1 + 1 / 10 ^ 4 ∧ loc.2 ≥ 0

instance (loc : K × K) : Decidable (inRange loc) := by unfold inRange; infer_instance

/-- The local coordinates in the multiplier element of a point of the quadrature, with the assertion (elasticity_upscale_impl.hpp:321-323). -/
def locate (lg hex : Fin 4 → K × K) (fuel : Nat) (r : K × K) : Option (K × K) :=
  match localRun lg (global hex r) fuel with
  | .done loc => if inRange loc then some loc else none
  | _ => none

/-- The local coupling matrix `lE` (elasticity_upscale_impl.hpp:315-330): entry `i`, `j`. The quadrature rule is a list of positions and weights, the functions
of the multipliers are given, those of the displacements are `P1ShapeFunctionSet<2>`. -/
def couplingMatrix (lb : Nat → K × K → K) (lg hex : Fin 4 → K × K) (fuel : Nat) (rule : List ((K × K) × K)) : Option (Nat → Nat → K) :=
  (p1Set 2).bind fun (ub : List (Linear K 2)) =>
    rule.foldlM (fun (lE : Nat → Nat → K) r =>
      (locate lg hex fuel r.1).map fun loc i j =>
        lE i j + ((ub[i]?).map fun f => f.eval ![r.1.1, r.1.2]).getD 0 * lb j loc * integrationElement hex r.1 * r.2) (fun _ _ => 0)

end Verif.QuadGeo
