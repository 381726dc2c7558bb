import Mathlib.Algebra.Order.Floor.Ring
import Verif.Model.SimOutput

/-!
Specification of the output of the simulators.
-/

namespace Verif.SimOutput.Spec

open Verif.Euler (Vec Face Cell Err)

variable {K : Type} [Field K] [LinearOrder K]

/-- A component of the velocity in a cell: fluxes times the distance of the faces from the centre, divided by the volume. -/
def velocity (c : Cell K) (k : Fin 3) : K := (c.faces.map fun f => (f.centroid k - c.centroid k) * f.flux).sum / c.volume

/-- Components of vectors, cell by cell. -/
def vectors (n : Nat) (v : Nat → Fin 3 → K) : List K := (List.range n).flatMap fun i => [v i 0, v i 1, v i 2]

/-- The time that has passed after the first `k` passes of the loop: the passes that converged count. -/
def elapsed (l : List (Steady.Rec K)) (k : Nat) : K := (((l.take k).filter (·.converged)).map (·.dt)).sum

/-- Midnight of 1 January 2012, in seconds since 1970: 42 years, ten of them leap years before 2012. -/
def newYear2012 : Int := (42 * 365 + 10) * 24 * 60 * 60

/-- The report that belongs to pass `k` of the loop: the time passed, the date, and pressure and water saturation of every cell. -/
def IsReport [FloorRing K] (base : List Char) (g : Grid) (pressure : Nat → K) (l : List (Steady.Rec K)) (k : Nat) (r : Steady.Rec K) (x : Restart K) :
    Prop :=
  x.base = base ∧ x.step = k ∧ x.dims = g.dims ∧ x.active = g.n ∧ x.elapsed = elapsed l (k + 1) ∧
    x.posix = newYear2012 + ⌊elapsed l (k + 1)⌋ ∧ (newYear2012 : K) - 1 < x.start ∧ x.start ≤ newYear2012 ∧
    x.arrays = [("PRESSURE", (List.range g.n).map pressure), ("SWAT", r.after)]

/-- The value of a pressure that is stored in METRIC units (bar), in Pascal. -/
def metricPressure (x : K) : K := x * 100000

/-- A text without the separator. -/
def Plain (w : List Char) : Prop := '-' ∉ w

end Verif.SimOutput.Spec
