import Verif.Model.Subsample
import Mathlib.Order.Bounds.Defs

/-!
Specification for C112: the line of the table that belongs to a subsample, written down from the meaning of
the columns.
-/

namespace Verif.Subsample.Spec

variable {K : Type} [Field K] [LinearOrder K]

/-- The cells of a subsample that are rock, each with its rock. -/
def rockCells (E : Env K) (x : Sample K) : List (Cell K × Rock K) :=
  x.cells.filterMap fun c => if 0 < c.satnum then (E.rocks[c.satnum.toNat - 1]?).map fun r => (c, r) else none

/-- Pore volume of the rock. -/
def pore (E : Env K) (x : Sample K) : K := ((rockCells E x).map fun c => c.1.vol * c.1.poro).sum

/-- Smallest and largest water saturation of the subsample: means of the ends of the curves, weighted by pore volume. -/
def swir (E : Env K) (x : Sample K) : K := ((rockCells E x).map fun c => c.2.swLo * (c.1.vol * c.1.poro)).sum / pore E x

def swor (E : Env K) (x : Sample K) : K := ((rockCells E x).map fun c => c.2.swHi * (c.1.vol * c.1.poro)).sum / pore E x

/-- Capillary pressure of a cell where its saturation is largest, and where it is smallest. -/
def pcAtMax (E : Env K) (c : Cell K × Rock K) : K :=
  if E.aniso then c.2.pcLo else c.2.jHi / E.sqrt (c.1.perm * E.milli / c.1.poro) * E.sigma

def pcAtMin (E : Env K) (c : Cell K × Rock K) : K :=
  if E.aniso then c.2.pcHi else c.2.jLo / E.sqrt (c.1.perm * E.milli / c.1.poro) * E.sigma

/-- `lo` and `hi` are the ends of the range of capillary pressures of the cells of these subsamples. -/
def PcRange (E : Env K) (xs : List (Sample K)) (lo hi : K) : Prop :=
  IsLeast {p | ∃ x ∈ xs, ∃ c ∈ rockCells E x, p = pcAtMax E c} lo ∧ IsGreatest {p | ∃ x ∈ xs, ∃ c ∈ rockCells E x, p = pcAtMin E c} hi

/-- The dips of the cells that are not too small. -/
def dipsOf (E : Env K) (cells : List (K × K × K)) : List (K × K) := (cells.filter fun c => decide (E.mincell < c.1)).map (·.2)

def meanX (l : List (K × K)) : K := (l.map (·.1)).sum / l.length

def meanY (l : List (K × K)) : K := (l.map (·.2)).sum / l.length

/-- The part of the volume that has rock type `t`. -/
def share (cells : List (Int × K)) (t : Nat) : K :=
  ((cells.filter fun c => c.1 = (t : Int)).map (·.2)).sum / (cells.map (·.2)).sum

/-- The upscaling of a subsample works: no part throws, and the numbers it divides by are not zero. -/
structure Works (E : Env K) (x : Sample K) : Prop where
  up : E.upscale = true → (∃ k, x.tensor = some k) ∧ (E.ntg = true → x.ntg ≠ 0)
  ends : E.ends = true → x.endOk = true ∧ pore E x ≠ 0 ∧ ∀ c ∈ x.cells, 0 < c.satnum → c.satnum.toNat ≤ E.rocks.length
  cap : E.cappres = true → (∀ a b c d, ∃ v, x.pcs a b c d = some v) ∧
    (E.aniso = false → ∀ c ∈ x.cells, 0 < c.satnum → c.poro ≠ 0 ∧ E.sqrt (c.perm * E.milli / c.poro) ≠ 0)
  dips : E.dips = true → ∃ cells, x.dipCells = some cells ∧ dipsOf E cells ≠ []
  volumes : E.volumes = true → ∃ cells, x.rockCells = some cells ∧ (∀ c ∈ cells, 1 ≤ c.1) ∧ (cells.map (·.2)).sum ≠ 0

/-- The upscaling of a subsample throws in the first of the parts that are asked for. -/
def FailsFirst (E : Env K) (x : Sample K) : Prop :=
  if E.upscale then x.tensor = none
  else if E.ends then x.endOk = false
  else if E.dips then x.dipCells = none
  else E.volumes = true ∧ x.rockCells = none

/-- One of the parts that are asked for throws. -/
def Throws (E : Env K) (x : Sample K) : Prop :=
  E.upscale = true ∧ x.tensor = none ∨ E.ends = true ∧ x.endOk = false ∨ E.cappres = true ∧ (∀ a b c d, x.pcs a b c d = none) ∨
    E.dips = true ∧ x.dipCells = none ∨ E.volumes = true ∧ x.rockCells = none

/-- Each subsample works or throws in its first part; `ys` are those that work. -/
inductive Kept (E : Env K) : List (Sample K) → List (Sample K) → Prop
  | nil : Kept E [] []
  | works {x xs ys} : Works E x → Kept E xs ys → Kept E (x :: xs) (x :: ys)
  | fails {x xs ys} : FailsFirst E x → Kept E xs ys → Kept E (x :: xs) ys

/-- The largest rock type. -/
def Largest (xs : List (Sample K)) (m : Nat) : Prop :=
  (∀ x ∈ xs, ∀ cells, x.rockCells = some cells → ∀ c ∈ cells, c.1 ≤ (m : Int)) ∧
  (m = 0 ∨ ∃ x ∈ xs, ∃ cells, x.rockCells = some cells ∧ ∃ c ∈ cells, c.1 = (m : Int))

def only (b : Bool) (l : List (String × Option K)) : List (String × Option K) := if b then l else []

/-- Upscaled permeability in milli darcy. -/
def perm (E : Env K) (x : Sample K) (i j : Fin 3) : Option K := x.tensor.map fun k => k i j / E.milli

/-- Horizontal permeability of the net rock: mean of the two horizontal ones over net-to-gross. -/
def netperm (E : Env K) (x : Sample K) : Option K := x.tensor.map fun k => (k 0 0 / E.milli + k 1 1 / E.milli) / (2 * x.ntg)

def pcPoint (E : Env K) (x : Sample K) (lo hi : K) (i : Fin 5) : Option K :=
  (x.pcs (some lo) (some hi) (some (swir E x)) (some (swor E x))).bind fun v => v i

def dipPart (E : Env K) (x : Sample K) : List (String × Option K) :=
  match x.dipCells with
  | none => []
  | some cells =>
    let d := dipsOf E cells
    [("dip", (E.angles (meanX d) (meanY d)).1), ("azim", (E.angles (meanX d) (meanY d)).2)]

def volPart (x : Sample K) (m : Nat) : List (String × Option K) :=
  match x.rockCells with
  | none => []
  | some cells => (List.range m).map fun t => (s!"satnum_{t + 1}", some (share cells (t + 1)))

/-- The line of a subsample: the names of the columns and the values. `lo`, `hi`: the range of capillary pressures; `m`: the largest rock
type. -/
def line (E : Env K) (x : Sample K) (lo hi : K) (m : Nat) : List (String × Option K) :=
  only E.upscale (
    [("porosity", some x.poro)] ++
    only E.ntg [("netporosity", some x.net), ("ntg", some x.ntg)] ++
    [("permx", perm E x 0 0), ("permy", perm E x 1 1), ("permz", perm E x 2 2)] ++
    only E.periodic [("permyz", perm E x 1 2), ("permxz", perm E x 0 2), ("permxy", perm E x 0 1)] ++
    only E.ntg [("netpermh", netperm E x)] ++
    only E.swcr [("swcr", some x.swcr)] ++
    only E.sowcr [("sowcr", some x.sowcr)]) ++
  only E.ends (
    only (!E.upscale) [("porosity", some x.poro)] ++
    [("Swir", some (swir E x)), ("Swor", some (swor E x))] ++
    only E.cappres [("Pc(Swir)", pcPoint E x lo hi 0), ("Pc2", pcPoint E x lo hi 1), ("Pc3", pcPoint E x lo hi 2),
      ("Pc4", pcPoint E x lo hi 3), ("Pc(Swor)", pcPoint E x lo hi 4)]) ++
  only E.dips (dipPart E x) ++
  only E.volumes (volPart x m)

end Verif.Subsample.Spec
