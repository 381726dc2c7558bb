import Verif.Model.CapUpscale
import Mathlib.Algebra.Order.Field.Basic
import Mathlib.Algebra.BigOperators.Group.List.Basic

/-!
What capillary pressure upscaling should compute: at a common capillary pressure the mean of the cell saturations, weighted with the
pore volumes.
-/

namespace Verif.Cap.Spec

open Verif.RelPerm Verif.Cap

variable {K : Type} [Field K] [LinearOrder K]

/-- Rock type of cell `i`; zero is no rock. -/
def rockType (sat : List Int) (i : Nat) : Nat := (sat[i]?.getD 0).toNat

/-- The elements of the grid that are rock, with their volumes. -/
def rocks (sat : List Int) (grid : List (Nat × K)) : List (Nat × K) := grid.filter fun g => decide (0 < rockType sat g.1)

/-- The elements of rock type `r`. -/
def rocksOf (sat : List Int) (grid : List (Nat × K)) (r : Nat) : List (Nat × K) := (rocks sat grid).filter fun g => decide (rockType sat g.1 = r)

/-- Porosity of cell `i`, at least the limit of the options. -/
def porosity (c : Cfg K) (poro : List K) (i : Nat) : K := max c.minPoro (poro[i]?.getD 0)

/-- Permeability of cell `i`, at least the limit of the options. -/
def permeability (c : Cfg K) (perm : List K) (i : Nat) : K := max c.minPerm (perm[i]?.getD 0)

/-- Pore volume of an element. -/
def pv (c : Cfg K) (poro : List K) (g : Nat × K) : K := g.2 * porosity c poro g.1

/-- The saturation curve of cell `i`. -/
def curve (sat : List Int) (curves : List (Curve K)) (i : Nat) : Curve K := curves[rockType sat i - 1]?.getD ⟨[], fun _ => 0⟩

/-- The Leverett factor of cell `i`. -/
def lev (c : Cfg K) (poro perm : List K) (i : Nat) : K := c.sqrt (permeability c perm i * c.mD / porosity c poro i)

/-- The saturation of an element at capillary pressure `p`. -/
def saturation (c : Cfg K) (sat : List Int) (poro perm : List K) (curves : List (Curve K)) (p : K) (g : Nat × K) : K :=
  (curve sat curves g.1).eval (lev c poro perm g.1 * p / c.sigma)

/-- Mean of `f` over elements, weighted with the pore volumes; zero if there are none. -/
def mean (c : Cfg K) (poro : List K) (l : List (Nat × K)) (f : Nat × K → K) : K :=
  (l.map fun g => f g * pv c poro g).sum / (l.map (pv c poro)).sum

/-- First and last point of a curve. -/
def first (cv : Curve K) : K × K := cv.pts.head?.getD (0, 0)

def last (cv : Curve K) : K × K := cv.pts.getLast?.getD (0, 0)

/-- A falling saturation curve: saturations between 0 and 1, falling with J, constant before the first and after the last point. -/
structure Falling (cv : Curve K) : Prop where
  pts : cv.pts ≠ []
  dom : (first cv).1 < (last cv).1
  rng : (last cv).2 < (first cv).2
  between : ∀ q ∈ cv.pts, (last cv).2 ≤ q.2 ∧ q.2 ≤ (first cv).2
  low : 0 ≤ (last cv).2
  high : (first cv).2 ≤ 1
  anti : ∀ x y, x ≤ y → cv.eval y ≤ cv.eval x
  before : ∀ x, x ≤ (first cv).1 → cv.eval x = (first cv).2
  after : ∀ x, (last cv).1 ≤ x → cv.eval x = (last cv).2

/-- Meaningful input: arrays of the size of the grid, values in their ranges, positive limits, each element once, a curve for each rock
type, and all elements larger than the absolute limit of the program. -/
structure Good (c : Cfg K) (sat : List Int) (poro perm : List K) (curves : List (Curve K)) (grid : List (Nat × K)) : Prop where
  poroLen : poro.length = sat.length
  permLen : perm.length = sat.length
  satRange : ∀ s ∈ sat, 0 ≤ s ∧ s ≤ 1000 ∧ s ≤ (curves.length : Int)
  poroRange : ∀ p ∈ poro, 0 ≤ p ∧ p ≤ 1
  permRange : ∀ k ∈ perm, 0 ≤ k
  minPoro : 0 < c.minPoro ∧ c.minPoro ≤ 1
  minPerm : 0 < c.minPerm
  mD : 0 < c.mD
  sigma : 0 < c.sigma
  sqrt : ∀ x, 0 < x → 0 < c.sqrt x
  keys : (grid.map Prod.fst).Nodup
  inside : ∀ g ∈ grid, g.1 < sat.length
  thick : ∀ g ∈ rocks sat grid, 1 / 10 ^ 10 < g.2
  falling : ∀ cv ∈ curves, Falling cv
  some : rocks sat grid ≠ []

/-- The capillary pressures at which the saturation of an element begins and ends to fall. -/
def pcLow (c : Cfg K) (sat : List Int) (poro perm : List K) (curves : List (Curve K)) (g : Nat × K) : K :=
  (first (curve sat curves g.1)).1 * c.sigma / lev c poro perm g.1

def pcHigh (c : Cfg K) (sat : List Int) (poro perm : List K) (curves : List (Curve K)) (g : Nat × K) : K :=
  (last (curve sat curves g.1)).1 * c.sigma / lev c poro perm g.1

/-- The largest and the smallest mean saturation. -/
def swMax (c : Cfg K) (sat : List Int) (poro : List K) (curves : List (Curve K)) (grid : List (Nat × K)) : K :=
  mean c poro (rocks sat grid) fun g => (first (curve sat curves g.1)).2

def swMin (c : Cfg K) (sat : List Int) (poro : List K) (curves : List (Curve K)) (grid : List (Nat × K)) : K :=
  mean c poro (rocks sat grid) fun g => (last (curve sat curves g.1)).2

/-- A row of the table: at the pressure of the row, the mean saturation and that of every rock type up to `m`. -/
def IsRow (c : Cfg K) (sat : List Int) (poro perm : List K) (curves : List (Curve K)) (grid : List (Nat × K)) (m : Nat) (row : Row K) : Prop :=
  row.sw = mean c poro (rocks sat grid) (saturation c sat poro perm curves row.pc) ∧
  row.rocks.length = m ∧
  ∀ (r : Nat) (x : K), row.rocks[r]? = Option.some x → x = mean c poro (rocksOf sat grid (r + 1)) (saturation c sat poro perm curves row.pc)

/-- `m` is the largest rock type. -/
def Largest (sat : List Int) (m : Nat) : Prop := (m : Int) ∈ sat ∧ ∀ s ∈ sat, s ≤ (m : Int)

end Verif.Cap.Spec
