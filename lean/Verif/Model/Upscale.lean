import Mathlib.Algebra.Order.Field.Basic
import Mathlib.Algebra.BigOperators.Group.List.Basic
import Mathlib.Data.Fin.VecNotation

/-!
Model of the averaging functions of `UpscalerBase_impl.hpp` and of `lastSaturationUpscaled` in
`SteadyStateUpscalerImplicit_impl.hpp` / `SteadyStateUpscaler_impl.hpp`.

Simplifications: `double` is a linearly ordered field; a quotient with a zero denominator (NaN or infinity in the code)
is the outcome `none`. The pressure solver is a parameter: it maps a pressure-drop direction to the face fluxes.
Console output is dropped. Debug-only assertions are named where they matter.
-/

namespace Verif.Upscale

variable {K : Type}

/-- A face as seen by `computeAverageVelocity` and `computeDelta` (UpscalerBase_impl.hpp:301-336, 351-367). `id`
identifies it in the flow solution; `boundary` is `f->boundary()`, `bid` is `f->boundaryId()`. -/
structure GFace (K : Type) where
  id : Nat
  boundary : Bool
  bid : Nat
  area : K
  normal : Fin 3 → K
  centroid : Fin 3 → K

/-- A grid cell with its index, volume and faces (what the loops over `ginterf_` read). -/
structure GCell (K : Type) where
  index : Nat
  volume : K
  faces : List (GFace K)

/-- The cell properties read through `res_prop_`. -/
structure Rock (K : Type) where
  porosity : Nat → K
  ntg : Nat → K
  swcr : Nat → K
  sowcr : Nat → K

section
variable [Field K] [LinearOrder K]

/-- Division whose zero denominator is an explicit outcome. -/
def quot (a b : K) : Option K := if b = 0 then none else some (a / b)

/-- The accumulation loops: two running sums over the cells, starting from 0. -/
def sums (cells : List (GCell K)) (f g : GCell K → K) : K × K :=
  cells.foldl (fun acc c => (acc.1 + f c, acc.2 + g c)) (0, 0)

/-- `upscalePorosity` (UpscalerBase_impl.hpp:375-385). -/
def upscalePorosity (R : Rock K) (cells : List (GCell K)) : Option K :=
  let t := sums cells (fun c => c.volume) (fun c => c.volume * R.porosity c.index)
  quot t.2 t.1

/-- `upscaleNetPorosity` (UpscalerBase_impl.hpp:388-399). -/
def upscaleNetPorosity (R : Rock K) (cells : List (GCell K)) : K :=
  let t := sums cells (fun c => c.volume * R.ntg c.index)
    (fun c => c.volume * R.porosity c.index * R.ntg c.index)
  if 0 < t.1 then t.2 / t.1 else 0

/-- `upscaleNTG` (UpscalerBase_impl.hpp:401-411). -/
def upscaleNTG (R : Rock K) (cells : List (GCell K)) : Option K :=
  let t := sums cells (fun c => c.volume) (fun c => c.volume * R.ntg c.index)
  quot t.2 t.1

/-- `upscaleSWCR` (UpscalerBase_impl.hpp:413-431). -/
def upscaleSWCR (R : Rock K) (NTG : Bool) (cells : List (GCell K)) : Option K :=
  let t :=
    if NTG then
      sums cells (fun c => c.volume * R.porosity c.index * R.ntg c.index * R.swcr c.index)
        (fun c => c.volume * R.porosity c.index * R.ntg c.index)
    else
      sums cells (fun c => c.volume * R.porosity c.index * R.swcr c.index)
        (fun c => c.volume * R.porosity c.index)
  quot t.1 t.2

/-- `upscaleSOWCR` (UpscalerBase_impl.hpp:433-451). -/
def upscaleSOWCR (R : Rock K) (NTG : Bool) (cells : List (GCell K)) : Option K :=
  let t :=
    if NTG then
      sums cells (fun c => c.volume * R.porosity c.index * R.ntg c.index * R.sowcr c.index)
        (fun c => c.volume * R.porosity c.index * R.ntg c.index)
    else
      sums cells (fun c => c.volume * R.porosity c.index * R.sowcr c.index)
        (fun c => c.volume * R.porosity c.index)
  quot t.1 t.2

/-- `lastSaturationUpscaled` (SteadyStateUpscalerImplicit_impl.hpp:395-408); `s` is `last_saturation_state_`. -/
def lastSaturationUpscaled (R : Rock K) (s : Nat → K) (cells : List (GCell K)) : Option K :=
  let t := sums cells (fun c => c.volume * R.porosity c.index)
    (fun c => c.volume * R.porosity c.index * s c.index)
  quot t.2 t.1

/-- The faces in the order of the double loop over cells and their faces (UpscalerBase_impl.hpp:301-302, 351-352). -/
def allFaces (cells : List (GCell K)) : List (GFace K) := cells.flatMap (fun c => c.faces)

/-- The accumulators `side1`, `side2` of `computeAverageVelocity` / `computeDelta`: weighted value and area. -/
structure Sides (K : Type) where
  v1 : K
  v2 : K
  a1 : K
  a2 : K

/-- One face of the loops at UpscalerBase_impl.hpp:301-336 and 351-367. `canon` is `bcond_.getCanonicalBoundaryId`.
The test `(canon_bid - 1)/2 == flow_dir` uses C++ integer division, which truncates towards zero. The assertion that the
remaining case is side two (line 322, debug builds only) is not part of the release behaviour and is left out. -/
def sideStep (canon : Nat → Int) (d : Fin 3) (value : GFace K → K) (acc : Sides K) (f : GFace K) : Sides K :=
  if f.boundary then
    if (canon f.bid - 1).tdiv 2 = (d.val : Int) then
      if canon f.bid - 1 = 2 * (d.val : Int) then { acc with v1 := acc.v1 + value f, a1 := acc.a1 + f.area }
      else { acc with v2 := acc.v2 + value f, a2 := acc.a2 + f.area }
    else acc
  else acc

/-- `computeAverageVelocity` (UpscalerBase_impl.hpp:291-339). -/
def computeAverageVelocity (cells : List (GCell K)) (canon : Nat → Int) (outflux : Nat → K) (d : Fin 3) : Option K :=
  let t := (allFaces cells).foldl (sideStep canon d (fun f => outflux f.id * f.normal d)) ⟨0, 0, 0, 0⟩
  match quot t.v1 t.a1, quot t.v2 t.a2 with
  | some a, some b => some (1 / 2 * (a + b))
  | _, _ => none

/-- `computeDelta` (UpscalerBase_impl.hpp:344-371). -/
def computeDelta (cells : List (GCell K)) (canon : Nat → Int) (d : Fin 3) : Option K :=
  let t := (allFaces cells).foldl (sideStep canon d (fun f => f.area * f.centroid d)) ⟨0, 0, 0, 0⟩
  match quot t.v2 t.a2, quot t.v1 t.a1 with
  | some b, some a => some (b - a)
  | _, _ => none

/-- `bctype_` (UpscalerBase.hpp: `BoundaryConditionType`). -/
inductive BCType
  | fixed | linear | periodic
deriving DecidableEq

/-- The vector `Q` for one pressure-drop direction (UpscalerBase_impl.hpp:263-276). -/
def flowVector (bct : BCType) (cells : List (GCell K)) (canon : Nat → Int) (outflux : Nat → K) (pdd : Fin 3) :
    Option (Fin 3 → K) :=
  match bct with
  | .fixed => (computeAverageVelocity cells canon outflux pdd).map fun q i => if i = pdd then q else 0
  | .linear | .periodic =>
    match computeAverageVelocity cells canon outflux 0, computeAverageVelocity cells canon outflux 1,
      computeAverageVelocity cells canon outflux 2 with
    | some q0, some q1, some q2 => some ![q0, q1, q2]
    | _, _, _ => none

/-- One column of the upscaled tensor (UpscalerBase_impl.hpp:263-281). -/
def permColumn (bct : BCType) (cells : List (GCell K)) (canon : Nat → Int) (outflux : Nat → K) (pdd : Fin 3) :
    Option (Fin 3 → K) :=
  match flowVector bct cells canon outflux pdd, computeDelta cells canon pdd with
  | some q, some delta => some fun i => q i * delta
  | _, _ => none

/-- `upscaleEffectivePerm` (UpscalerBase_impl.hpp:231-286). For each direction `pdd` the boundary conditions give the
canonical numbering `canon pdd` and the flow solver the fluxes `solve pdd` (both parameters). Entry `(i, pdd)` is stored
in row `i`, column `pdd`. -/
def upscaleEffectivePerm (bct : BCType) (cells : List (GCell K)) (canon : Fin 3 → Nat → Int)
    (solve : Fin 3 → Nat → K) : Option (Fin 3 → Fin 3 → K) :=
  match permColumn bct cells (canon 0) (solve 0) 0, permColumn bct cells (canon 1) (solve 1) 1,
    permColumn bct cells (canon 2) (solve 2) 2 with
  | some c0, some c1, some c2 => some fun i pdd => ![c0, c1, c2] pdd i
  | _, _, _ => none

end
end Verif.Upscale
