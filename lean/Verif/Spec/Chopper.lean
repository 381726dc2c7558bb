import Verif.Model.Chopper

/-!
The Eclipse corner-point format, written down independently of the chopper's own index computations, and what a
sub-box of such a grid is.
-/

namespace Verif.Spec.Chop

open Verif.Chopper

variable {K : Type} [Field K] [LinearOrder K]

/-- Natural cell numbering, i fastest. -/
def cellNo (nx ny i j k : Nat) : Nat := i + nx * (j + ny * k)

/-- ZCORN position of corner `(a, b, c)` (0/1: low/high in x, y, z) of cell `(i, j, k)`. -/
def zcornNo (nx ny i j k a b c : Nat) : Nat := (2 * i + a) + 2 * nx * ((2 * j + b) + 2 * ny * (2 * k + c))

/-- COORD position of coordinate `c` (0..5) of pillar `(i, j)`. -/
def coordNo (nx i j c : Nat) : Nat := 6 * (i + (nx + 1) * j) + c

/-- A consistent deck: at least one cell, arrays and cell fields of the sizes the format prescribes. -/
structure WF (D : Deck K) : Prop where
  nx : 1 ≤ D.nx
  ny : 1 ≤ D.ny
  nz : 1 ≤ D.nz
  coord : D.coord.length = 6 * (D.nx + 1) * (D.ny + 1)
  zcorn : D.zcorn.length = 8 * D.nx * D.ny * D.nz
  field : ∀ kw f, D.field kw = some f → f.length = D.nx * D.ny * D.nz

/-- The depth of a corner. -/
def depth (D : Deck K) (i j k a b c : Nat) : Option K := D.zcorn[zcornNo D.nx D.ny i j k a b c]?

/-- Layer `k` has a corner whose depth satisfies `P`. -/
def LayerHas (D : Deck K) (k : Nat) (P : K → Prop) : Prop :=
  ∃ i j a b c z, i < D.nx ∧ j < D.ny ∧ a < 2 ∧ b < 2 ∧ c < 2 ∧ depth D i j k a b c = some z ∧ P z

/-- The request selects a non-empty range of columns inside the grid. -/
def InGrid (D : Deck K) (R : Req K) : Prop := R.imin < R.imax ∧ R.imax ≤ D.nx ∧ R.jmin < R.jmax ∧ R.jmax ≤ D.ny

/-- The top of every layer is the bottom of the previous one. -/
def Contiguous (D : Deck K) : Prop :=
  ∀ i j k a b, i < D.nx → j < D.ny → k + 1 < D.nz → a < 2 → b < 2 → depth D i j k a b 1 = depth D i j (k + 1) a b 0

/-- Along every pillar corner, depth does not decrease from layer to layer. -/
def Monotone (D : Deck K) : Prop :=
  ∀ i j k a b c z z', i < D.nx → j < D.ny → k + 1 < D.nz → a < 2 → b < 2 → c < 2 →
    depth D i j k a b c = some z → depth D i j (k + 1) a b c = some z' → z ≤ z'

/-- `zlo`: the request's lower limit raised to the deepest corner of the top surface; `zhi` likewise. -/
structure ZRange (D : Deck K) (R : Req K) (zlo zhi : K) : Prop where
  lo_req : R.zmin ≤ zlo
  lo_top : ∀ i j a b z, i < D.nx → j < D.ny → a < 2 → b < 2 → depth D i j 0 a b 0 = some z → z ≤ zlo
  lo_att : zlo = R.zmin ∨ ∃ i j a b, i < D.nx ∧ j < D.ny ∧ a < 2 ∧ b < 2 ∧ depth D i j 0 a b 0 = some zlo
  hi_req : zhi ≤ R.zmax
  hi_bot : ∀ i j a b z, i < D.nx → j < D.ny → a < 2 → b < 2 → depth D i j (D.nz - 1) a b 1 = some z → zhi ≤ z
  hi_att : zhi = R.zmax ∨ ∃ i j a b, i < D.nx ∧ j < D.ny ∧ a < 2 ∧ b < 2 ∧ depth D i j (D.nz - 1) a b 1 = some zhi

/-- `o` is the sub-box of `D` with columns as requested and layers `kmin..kmax-1`, corners clamped to `[zlo, zhi]`. -/
structure IsSubBox (D : Deck K) (R : Req K) (zlo zhi : K) (kmin kmax : Nat) (o : Out K) : Prop where
  nx : o.nx = R.imax - R.imin
  ny : o.ny = R.jmax - R.jmin
  nz : o.nz = kmax - kmin
  count : o.newToOld.length = o.nx * o.ny * o.nz
  cell : ∀ i j k, i < o.nx → j < o.ny → k < o.nz →
    o.newToOld[cellNo o.nx o.ny i j k]? = some (cellNo D.nx D.ny (R.imin + i) (R.jmin + j) (kmin + k))
  zsize : o.zcorn.length = 8 * o.nx * o.ny * o.nz
  corner : ∀ i j k a b c, i < o.nx → j < o.ny → k < o.nz → a < 2 → b < 2 → c < 2 →
    ∃ z, depth D (R.imin + i) (R.jmin + j) (kmin + k) a b c = some z ∧
      o.zcorn[zcornNo o.nx o.ny i j k a b c]? = some (min zhi (max zlo z) - if R.reset then zlo else 0)
  csize : o.coord.length = 6 * (o.nx + 1) * (o.ny + 1)
  pillar : ∀ i j c, i ≤ o.nx → j ≤ o.ny → c < 6 →
    ∃ v x0 y0, D.coord[coordNo D.nx (R.imin + i) (R.jmin + j) c]? = some v ∧
      D.coord[coordNo D.nx R.imin R.jmin 0]? = some x0 ∧ D.coord[coordNo D.nx R.imin R.jmin 1]? = some y0 ∧
      o.coord[coordNo o.nx i j c]? = some (
        if R.reset = false then v
        else if c = 0 ∨ c = 3 then v - x0
        else if c = 1 ∨ c = 4 then v - y0
        else if c = 2 then 0 else R.zmax - R.zmin)
  field : ∀ kw ∈ ["ACTNUM", "PORO", "NTG", "SWCR", "SOWCR", "PERMX", "PERMY", "PERMZ", "SATNUM"],
    ∀ f, D.field kw = some f → (o.field kw).length = o.nx * o.ny * o.nz ∧
      ∀ i j k, i < o.nx → j < o.ny → k < o.nz →
        (o.field kw)[cellNo o.nx o.ny i j k]? = f[cellNo D.nx D.ny (R.imin + i) (R.jmin + j) (kmin + k)]?

/-- The position of a corner: the point at the corner's depth on its pillar, the line through the pillar's two points. -/
def cornerPoint (nx ny : Nat) (coord zcorn : List K) (i j k a b c : Nat) : Option (K × K × K) := do
  let z ← zcorn[zcornNo nx ny i j k a b c]?
  let x1 ← coord[coordNo nx (i + a) (j + b) 0]?
  let y1 ← coord[coordNo nx (i + a) (j + b) 1]?
  let z1 ← coord[coordNo nx (i + a) (j + b) 2]?
  let x2 ← coord[coordNo nx (i + a) (j + b) 3]?
  let y2 ← coord[coordNo nx (i + a) (j + b) 4]?
  let z2 ← coord[coordNo nx (i + a) (j + b) 5]?
  some (x1 + (z - z1) / (z2 - z1) * (x2 - x1), y1 + (z - z1) / (z2 - z1) * (y2 - y1), z)

end Verif.Spec.Chop
