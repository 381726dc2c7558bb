import Mathlib.Algebra.Order.Field.Basic
import Verif.Model.DepthTrend
import Verif.Spec.Chopper

/-!
What the depth trend tool promises (C118).
-/

namespace Verif.DepthTrend.Spec

open Verif.Chopper Verif.Spec.Chop

variable {K : Type} [Field K] [LinearOrder K]

/-- The options lie inside the grid: rows and columns in the grid, depths within the range of corner depths, and a subsample of the given size fits. -/
structure Fits (D : Deck K) (o : Opts K) : Prop where
  i0 : 0 ≤ o.imin
  i1 : o.imax ≤ D.nx
  j0 : 0 ≤ o.jmin
  j1 : o.jmax ≤ D.ny
  ilen : 0 < o.ilen
  jlen : 0 < o.jlen
  icol : o.imin + o.ilen ≤ o.imax
  jcol : o.jmin + o.jlen ≤ o.jmax
  top : ∃ z ∈ D.zcorn, z ≤ o.zmin
  bot : ∃ z ∈ D.zcorn, o.zmax ≤ z
  height : ∃ z ∈ D.zcorn, ∃ z' ∈ D.zcorn, (∀ x ∈ D.zcorn, z' ≤ x ∧ x ≤ z) ∧ o.zlen ≤ z - z'

/-- The subsample taken at depth `z`, with first column and row as drawn: the given numbers of columns and rows, the given height. -/
def boxAt (o : Opts K) (d : Int × Int) (z : K) : Req K :=
  { imin := d.1.toNat, imax := d.1.toNat + o.ilen.toNat, jmin := d.2.toNat, jmax := d.2.toNat + o.jlen.toNat,
    zmin := z, zmax := z + o.zlen, reset := o.reset }

/-- Every pillar has rock somewhere strictly between `z` and `z + h`, at a common depth: the deepest corner of the top surface and the
shallowest corner of the bottom surface leave room. -/
def Rock (D : Deck K) (z h : K) : Prop :=
  ∃ a b, a < b ∧ z ≤ a ∧ b ≤ z + h ∧
    (∀ i j p q t, i < D.nx → j < D.ny → p < 2 → q < 2 → depth D i j 0 p q 0 = some t → t ≤ a) ∧
    (∀ i j p q t, i < D.nx → j < D.ny → p < 2 → q < 2 → depth D i j (D.nz - 1) p q 1 = some t → b ≤ t)

end Verif.DepthTrend.Spec
