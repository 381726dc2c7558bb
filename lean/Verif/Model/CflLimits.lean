import Verif.Model.Euler
import Verif.Model.DenseMatrix

/-!
Model of the time step limits for gravity and capillarity, `opm/porsol/euler/CflCalculator.hpp:85-174`. Simplifications are those of
`Verif.Model.Euler`; a permeability tensor is given by its entries.
-/

namespace Verif.Euler

open scoped BigOperators

variable {K M : Type} [Field K] [LinearOrder K]

/-- The permeability at a face: the arithmetic average over the face for interior faces, that of the cell for all boundary faces, periodic or not
(CflCalculator.hpp:103-114, 150-161). -/
def cflPerm (S : Setup K M) (c : Nat) (f : Face K) : Mat K :=
  match f.kind with
  | .interior nb => averMat (S.rock.perm c) (S.rock.perm nb)
  | .boundary _ => S.rock.perm c

/-- `loc_gravity_flux` (CflCalculator.hpp:115-123). -/
def cflGravityFlux (S : Setup K M) (c : Nat) (f : Face K) : K :=
  ([0, 1, 2].foldl (fun (a : K) (k : Fin 3) => [0, 1, 2].foldl (fun (a : K) (q : Fin 3) =>
    a + f.normal q * (cflPerm S c f q k * S.gravity k * S.rock.deltaRho)) a) 0) * f.area

/-- `flux`: the sum of the positive gravity fluxes of a cell (CflCalculator.hpp:99-127). -/
def cflGravityOut (S : Setup K M) (c : Nat) (faces : List (Face K)) : K :=
  faces.foldl (fun a f => if cflGravityFlux S c f > 0 then a + cflGravityFlux S c f else a) 0

/-- One cell of `findCFLtimeGravity` (CflCalculator.hpp:98-132): a zero flux gives an infinite (or, with a zero numerator, NaN) `loc_dt`, which leaves
`dt` as it is. -/
def cflGravityStep (S : Setup K M) (factor : K) (poro : Nat → K) (dt : K) (c : Cell K × Nat) : K :=
  let flux := cflGravityOut S c.2 c.1.faces
  if flux = 0 then dt
  else
    let loc := factor * c.1.volume * poro c.2 / flux
    if loc < dt then loc else dt

/-- `findCFLtimeGravity` (CflCalculator.hpp:90-134); `big` is 1e100. -/
def cflGravity (S : Setup K M) (big factor : K) (poro : Nat → K) : K :=
  S.grid.zipIdx.foldl (cflGravityStep S factor poro) big

/-- One face of `findCFLtimeCapillary` (CflCalculator.hpp:149-171): the vector from the cell to the face, its product with the inverse permeability. A
division by zero in the inverse is an error; with a zero factor a non-negative product gives an infinite (or NaN) value, which leaves `dt` as it
is. -/
def cflCapillaryFace (S : Setup K M) (factor : K) (cell : Cell K) (c : Nat) (dt : K) (f : Face K) : Except Err K :=
  match Dense.inverse3x3 (cflPerm S c f) with
  | none => .error .nan
  | some inv =>
    let d : Vec K := fun i => f.centroid i - cell.centroid i
    let spatial := inner d (matVec inv d)
    if factor = 0 then (if 0 ≤ spatial then .ok dt else .error .nan)
    else .ok (min dt (spatial / factor))

/-- `findCFLtimeCapillary` (CflCalculator.hpp:140-174). -/
def cflCapillary (S : Setup K M) (big factor : K) : Except Err K :=
  S.grid.zipIdx.foldlM (fun dt c => c.1.faces.foldlM (cflCapillaryFace S factor c.1 c.2) dt) big

end Verif.Euler
