import Mathlib.Algebra.Order.Field.Basic
import Verif.Model.Variogram
import Verif.Spec.Chopper

/-!
What the variogram tool promises (C119).
-/

namespace Verif.Variogram.Spec

open Verif.Chopper Verif.Spec.Chop

variable {K : Type} [Field K] [LinearOrder K]

/-- A subsample of the given positive size fits in the given part of the grid. -/
structure Fits (D : Deck K) (o : Opts K) : Prop where
  i0 : 0 ≤ o.imin
  i1 : o.imax ≤ D.nx
  j0 : 0 ≤ o.jmin
  j1 : o.jmax ≤ D.ny
  ilen : 0 < o.ilen
  jlen : 0 < o.jlen
  zlen : 0 < o.zlen
  icol : o.imin + o.ilen ≤ o.imax
  jcol : o.jmin + o.jlen ≤ o.jmax
  top : ∃ z ∈ D.zcorn, z ≤ o.zmin
  bot : ∃ z ∈ D.zcorn, o.zmax ≤ z
  height : ∃ z ∈ D.zcorn, ∃ z' ∈ D.zcorn, (∀ x ∈ D.zcorn, z' ≤ x ∧ x ≤ z) ∧ o.zlen ≤ z - z'

/-- The part of the grid that begins at column `i`, row `j` and depth `z` and has the size of a subsample. -/
def boxAt (o : Opts K) (i j : Int) (z : K) : Req K :=
  { imin := i.toNat, imax := i.toNat + o.ilen.toNat, jmin := j.toNat, jmax := j.toNat + o.jlen.toNat,
    zmin := z, zmax := z + o.zlen, reset := false }

/-- `sub` is what a new chopper cuts out at column `i`, row `j` and depth `z`, and its permeability is `T`. -/
def Cut (D : Deck K) (L : Limits K) (U : DepthTrend.Upscaler K) (o : Opts K) (i j : Int) (z : K) (sub : Out K) (T : Nat → Nat → K) : Prop :=
  chop D L Out.init (boxAt o i j z) = .ok sub ∧ U.tensor sub = some T

/-- The absolute differences of porosity and of the diagonal permeabilities in millidarcy. -/
structure Differs (U : DepthTrend.Upscaler K) (s1 : Out K) (T1 : Nat → Nat → K) (s2 : Out K) (T2 : Nat → Nat → K) (r : Row K) : Prop where
  poro : r.poro = |U.poro s2 - U.poro s1|
  kx : r.kx = |T2 0 0 / U.mD - T1 0 0 / U.mD|
  ky : r.ky = |T2 1 1 / U.mD - T1 1 1 / U.mD|
  kz : r.kz = |T2 2 2 / U.mD - T1 2 2 / U.mD|

end Verif.Variogram.Spec
