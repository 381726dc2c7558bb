import Mathlib.Algebra.Order.Field.Basic
import Mathlib.Data.List.Basic

/-!
Model of the files of `upscale_relperm` (`/repo/examples/upscale_relperm.cpp`): the saturation functions that are read (lines 301-443, 566-603) and the
results that are written (lines 199-260, 505-511, 933-1088).

`MonotCubicInterpolator` (opm-common) is a parameter: `load file xcol fcol` gives the points read from two columns of a file, `interp xs fs` the curve
through points; `none` is an exception, which for this class is a `const char*` that `main` does not catch. Numbers are printed exactly; comments,
headings and messages are left out.
-/

namespace Verif.RelPermOut

/-- A file name, as characters. -/
abbrev Name := List Char

/-- A curve by its points. -/
abbrev Curve (K : Type) := List (K × K)

/-! ### Saturation functions -/

/-- How the program goes on: with a value, with a message and the usage (an exception that is caught in `main`), or by `std::terminate`. -/
inductive Res (α : Type) where
  | ok (a : α)
  | refused
  | aborted
  deriving DecidableEq

/-- What the helper collects: saturation as function of the J-function or of the capillary pressure, relative permeabilities by direction and phase,
names of the files. -/
structure Helper (K : Type) where
  invJ : List (Curve K)
  swPc : List (Curve K)
  kr : Fin 3 → Fin 2 → List (Curve K)
  names : List Name

variable {K : Type} [LinearOrder K]

/-- `isStrictlyMonotone`: strictly increasing or strictly decreasing in the first coordinate. -/
def strict (c : Curve K) : Bool :=
  decide (∀ p ∈ c, ∀ q ∈ c, p.1 < q.1 → p.2 < q.2) || decide (∀ p ∈ c, ∀ q ∈ c, p.1 < q.1 → q.2 < p.2)

/-- `MonotCubicInterpolator(get_fVector(), get_xVector())`: the inverse of a monotone curve. -/
def inverse (c : Curve K) : Curve K := c.map fun p => (p.2, p.1)

/-- `krfunc[d][ph].emplace_back(file, x, f)`: an exception here is not caught. -/
def addKr (load : Name → Int → Int → Option (Curve K)) (file : Name) (x f : Int) (d : Fin 3) (ph : Fin 2) (h : Helper K) : Res (Helper K) :=
  match load file x f with
  | none => .aborted
  | some c => .ok { h with kr := fun d' ph' => if d' = d ∧ ph' = ph then h.kr d' ph' ++ [c] else h.kr d' ph' }

/-- A sequence of such reads. -/
def addAll (load : Name → Int → Int → Option (Curve K)) (file : Name) : List (Int × Int × Fin 3 × Fin 2) → Helper K → Res (Helper K)
  | [], h => .ok h
  | (x, f, d, ph) :: l, h =>
    match addKr load file x f d ph h with
    | .ok h' => addAll load file l h'
    | .refused => .refused
    | .aborted => .aborted

/-- `invertCapillaryPressureIsotropic` (upscale_relperm.cpp:301-348). -/
def isotropic (load : Name → Int → Int → Option (Curve K)) (both : Bool) (jCurve krCurve : Int) (file : Name) (h : Helper K) : Res (Helper K) :=
  match load file 1 jCurve with
  | none => .refused
  | some c =>
    if strict c then
      addAll load file (if both then [(1, 2, 0, 0), (1, 3, 0, 1)] else [(1, krCurve, 0, 0)])
        { h with invJ := h.invJ ++ [inverse c], names := h.names ++ [file] }
    else .refused

/-- `invertCapillaryPressureAnIsotropic` (upscale_relperm.cpp:350-404). -/
def anisotropic (load : Name → Int → Int → Option (Curve K)) (both : Bool) (file : Name) (h : Helper K) : Res (Helper K) :=
  match load file 2 1 with
  | none => .refused
  | some c =>
    if strict c then
      addAll load file ([(2, 3, 0, 0), (2, 4, 1, 0), (2, 5, 2, 0)] ++ (if both then [(2, 6, 0, 1), (2, 7, 1, 1), (2, 8, 2, 1)] else []))
        { h with swPc := h.swPc ++ [inverse c], names := h.names ++ [file] }
    else .refused

/-- The loop of `extractSaturationFunctions` (upscale_relperm.cpp:406-443) from stone type `i` on, `k` types to go. `files` are the arguments from
`rockfileindex` on. -/
def extract (readable : Name → Bool) (step : Name → Helper K → Res (Helper K)) (n : Nat) (files : List Name) : Nat → Nat → Helper K → Res (Helper K)
  | _, 0, h => .ok h
  | i, k + 1, h =>
    match (if files.length = n then files[i]? else files[0]?) with
    | none => .aborted
    | some f =>
      if readable f then
        match step f h with
        | .ok h' => extract readable step n files (i + 1) k h'
        | .refused => .refused
        | .aborted => .aborted
      else .refused

/-- Nothing collected. -/
def Helper.empty : Helper K := ⟨[], [], fun _ _ => [], []⟩

/-- Step 3 of `main` (upscale_relperm.cpp:566-603): the number of stone types is the largest saturation number, there must be as many files or one. -/
def functions (load : Name → Int → Int → Option (Curve K)) (readable : Name → Bool) (aniso both : Bool) (jCurve krCurve : Int) (n : Nat) (files : List Name) :
    Res (Helper K) :=
  if files.length = n ∨ files.length = 1 then
    extract readable (if aniso then anisotropic load both else isotropic load both jCurve krCurve) n files 0 n Helper.empty
  else .refused

/-! ### Results -/

/-- The data that is printed: capillary pressures, saturations, relative permeabilities of both phases by component. -/
structure Data (K : Type) where
  P : List K
  S : List K
  kr1 : List (List K)
  kr2 : List (List K)

variable [Field K]

/-- The saturations for interpolated output (upscale_relperm.cpp:957-976); `none`: there are no saturations. -/
def evenly (n : Nat) : List K → Option (List K)
  | [] => none
  | s :: l =>
    let lo := l.foldl min s
    let hi := l.foldl max s
    some ((List.range n).map fun (i : Nat) => lo + (i : K) / ((n - 1 : Nat) : K) * (hi - lo))

/-- One curve at the new saturations (upscale_relperm.cpp:985-1022). -/
def resample (interp : List K → List K → Option (K → K)) (S S' f : List K) : Option (List K) := do
  let g ← interp S f
  some (S'.map g)

/-- Replacing the data by interpolated data (upscale_relperm.cpp:953-1026). -/
def interpolated (interp : List K → List K → Option (K → K)) (both : Bool) (n : Nat) (d : Data K) : Option (Data K) := do
  let S' ← evenly n d.S
  let P' ← resample interp d.S S' d.P
  let k1 ← d.kr1.mapM (resample interp d.S S')
  let k2 ← if both then d.kr2.mapM (resample interp d.S S') else some d.kr2
  some ⟨P', S', k1, k2⟩

/-- Pressures with the surface tension in dynes/cm (upscale_relperm.cpp:577-579, 935-943) and interpolation if more than one point is asked for
(lines 509-511, 953). -/
def prepared (interp : List K → List K → Option (K → K)) (tension : K) (points : Int) (both : Bool) (d : Data K) : Option (Data K) :=
  let d := { d with P := d.P.map fun p => p * (tension * (1 / 1000)) }
  if points > 1 then interpolated interp both points.toNat d else some d

/-- One row of the table (upscale_relperm.cpp:1032-1054); `none`: access outside a vector. -/
def row (both : Bool) (d : Data K) (i : Nat) : Option (List K) := do
  let p ← d.P[i]?
  let s ← d.S[i]?
  let k1 ← d.kr1.mapM fun k => k[i]?
  let k2 ← if both then d.kr2.mapM fun k => k[i]? else some []
  some (p :: s :: k1 ++ k2)

/-- The table (upscale_relperm.cpp:1028-1055). -/
def table (both : Bool) (d : Data K) : Option (List (List K)) := (List.range d.S.length).mapM (row both d)

/-- `getEclipseOutputFile` (upscale_relperm.cpp:204-208). -/
def eclName (out : Name) (comp sat : Char) : Name :=
  (if '.' ∈ out then ((out.reverse.dropWhile (· ≠ '.')).drop 1).reverse else out) ++ ['-', comp, '.', 'S', sat, 'O', 'F']

/-- One row of an Eclipse file (upscale_relperm.cpp:247-252). -/
def eclRow (d : Data K) (c i : Nat) : Option (List K) := do
  let s ← d.S[i]?
  let k1 ← d.kr1[c]?
  let a ← k1[i]?
  let k2 ← d.kr2[c]?
  let b ← k2[i]?
  let p ← d.P[i]?
  some [s, a, b, p / 100000]

/-- `writeEclipseOutput` (upscale_relperm.cpp:217-260): name and rows; `krow` is the value of the option `krow?swirr`. -/
def eclFile (out : Name) (water : Bool) (krow : Nat → K) (d : Data K) (c : Nat) : Option (Name × List (List K)) := do
  let rows ← (List.range d.S.length).mapM (eclRow d c)
  some (eclName out (if c = 0 then 'X' else if c = 1 then 'Y' else 'Z') (if water then 'W' else 'G'),
    (if krow c > 0 then [[0, 0, krow c, 0]] else []) ++ rows)

/-- The Eclipse files, if any (upscale_relperm.cpp:1067-1088). -/
def eclFiles (both water : Bool) (out : Name) (krow : Nat → K) (d : Data K) : Option (List (Name × List (List K))) :=
  if out ≠ [] ∧ both = true then [0, 1, 2].mapM (eclFile out water krow d) else some []

/-- What is printed and the files that are written (upscale_relperm.cpp:933-1088). -/
def output (interp : List K → List K → Option (K → K)) (tension : K) (points : Int) (both water : Bool) (out : Name) (krow : Nat → K) (d : Data K) :
    Option (List (List K) × List (Name × List (List K))) := do
  let d' ← prepared interp tension points both d
  let t ← table both d'
  let ecl ← eclFiles both water out krow d'
  some (t, (if out ≠ [] then [(out, t)] else []) ++ ecl)

end Verif.RelPermOut
