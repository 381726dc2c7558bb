import Mathlib.Algebra.Order.Field.Basic
import Verif.Model.Upscale

/-!
Model of `examples/grdecldips.cpp`: the dips of the cells of a grid and their average.

Simplifications: `double` is a linearly ordered field; what the grid inspector of opm-common finds for a cell is a parameter; the dimensions of the grid are
natural numbers. The header, the files and the formatting of numbers are left out.
-/

namespace Verif.Dips

open Verif.Upscale

variable {K : Type} [Field K] [LinearOrder K]

/-- `cellVolumeVerticalPillars` and `cellDips` of the inspector. -/
structure Inspector (K : Type) where
  volume : Nat → Nat → Nat → K
  dips : Nat → Nat → Nat → K × K

/-- The vectors and the counter (grdecldips.cpp:95-98). -/
structure State (K : Type) where
  xdips : List K
  ydips : List K
  volumes : List K
  is : List Nat
  js : List Nat
  ks : List Nat
  ignored : Nat

/-- One cell (grdecldips.cpp:102-114). -/
def step (G : Inspector K) (minVolume : K) (k j : Nat) (s : State K) (i : Nat) : State K :=
  let v := G.volume i j k
  if v > minVolume then
    let d := G.dips i j k
    ⟨s.xdips ++ [d.1], s.ydips ++ [d.2], s.volumes ++ [v], s.is ++ [i], s.js ++ [j], s.ks ++ [k], s.ignored⟩
  else { s with ignored := s.ignored + 1 }

/-- The three loops (grdecldips.cpp:99-117). -/
def collect (G : Inspector K) (minVolume : K) (nx ny nz : Nat) : State K :=
  (List.range nz).foldl (fun s k => (List.range ny).foldl (fun s j => (List.range nx).foldl (step G minVolume k j) s) s)
    ⟨[], [], [], [], [], [], 0⟩

/-- `accumulate(v.begin(), v.end(), 0.0)/v.size()` (grdecldips.cpp:120-121). -/
def average (v : List K) : Option K := quot (v.foldl (· + ·) 0) v.length

/-- A line of the list of cells. -/
structure Row (K : Type) where
  i : Nat
  j : Nat
  k : Nat
  xdip : K
  ydip : K
  volume : K
deriving DecidableEq

/-- What is printed (grdecldips.cpp:139-151): the two counts, and the list of cells or the two averages; `none` for a vector read past its end. An average
that is not a number is `none`. -/
inductive Body (K : Type) where
  | cells (rows : List (Row K))
  | averages (x y : Option K)
deriving DecidableEq

def report (listall : Bool) (s : State K) : Option (Nat × Nat × Body K) :=
  if listall then do
    let rows ← (List.range s.xdips.length).mapM fun (n : Nat) => do
      let i ← s.is[n]?
      let j ← s.js[n]?
      let k ← s.ks[n]?
      let x ← s.xdips[n]?
      let y ← s.ydips[n]?
      let v ← s.volumes[n]?
      return (⟨i, j, k, x, y, v⟩ : Row K)
    return (s.xdips.length, s.ignored, .cells rows)
  else some (s.xdips.length, s.ignored, .averages (average s.xdips) (average s.ydips))

/-- `main` after the grid is read (grdecldips.cpp:90-151). -/
def run (G : Inspector K) (minVolume : K) (nx ny nz : Nat) (listall : Bool) : Option (Nat × Nat × Body K) :=
  report listall (collect G minVolume nx ny nz)

end Verif.Dips
