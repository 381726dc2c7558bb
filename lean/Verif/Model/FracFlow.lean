import Verif.Model.Euler
import Mathlib.Algebra.Order.Group.Abs

/-!
Model of the mobility related functions of `ReservoirPropertyCapillary_impl.hpp` and
`ReservoirPropertyCapillaryAnisotropicRelperm_impl.hpp`, and of the velocity helpers in `SimulatorUtilities.hpp`.

Simplifications: `double` is a linearly ordered field; `1/0` is treated as the IEEE infinity where the code only
takes a minimum with it (`recipMin`).
-/

namespace Verif.FracFlow

open Verif.Euler (Vec Face Cell Err)

variable {K : Type} [Field K] [LinearOrder K]

/-- `relPermFirstPhase`, `relPermSecondPhase` without rock tables (ReservoirPropertyCapillary_impl.hpp:115-167):
quadratic relative permeabilities. `oil` selects the second phase. -/
def quadRelPerm (oil : Bool) (s : K) : K := if oil then (1 - s) * (1 - s) else s * s

/-- `relPermFirstPhaseDeriv`, `relPermSecondPhaseDeriv` without rock tables
(ReservoirPropertyCapillary_impl.hpp:132-187). -/
def quadRelPermDeriv (oil : Bool) (s : K) : K := if oil then -2 * (1 - s) else 2 * s

/-- `mobilityFirstPhase`, `mobilitySecondPhase` (ReservoirPropertyCapillary_impl.hpp:44-56): relative permeability
(table or quadratic) over viscosity. -/
def mobility (kr : K → K) (visc s : K) : K := kr s / visc

/-- `phaseMobilitiesDeriv` (ReservoirPropertyCapillary_impl.hpp:100-110): `dmob[0]`, …, `dmob[3]`. -/
def phaseMobilitiesDeriv (dkrw dkro : K → K) (visc1 visc2 s : K) : K × K × K × K :=
  (dkrw s / visc1, 0, 0, -dkro s / visc2)

/-- `fractionalFlow` (ReservoirPropertyCapillary_impl.hpp:83-88); a zero total mobility gives NaN. -/
def fractionalFlow (l1 l2 : K) : Option K := if l1 + l2 = 0 then none else some (l1 / (l1 + l2))

/-- `fractionalFlow` of the anisotropic model (ReservoirPropertyCapillaryAnisotropicRelperm_impl.hpp:54-70): mean over
the three directions of the diagonal entries. -/
def fractionalFlowAniso (l1 l2 : Fin 3 → K) : Option K := do
  let a ← fractionalFlow (l1 0) (l2 0)
  let b ← fractionalFlow (l1 1) (l2 1)
  let c ← fractionalFlow (l1 2) (l2 2)
  return (0 + a + b + c) / 3

/-- `computePhaseVelocities` for one cell (SimulatorUtilities.hpp:156-172): water and oil velocity. -/
def phaseVelocities (f : K) (v : Vec K) : Vec K × Vec K := (fun i => v i * f, fun i => v i * (1 - f))

/-- `computePhaseVelocities` (SimulatorUtilities.hpp:156-172), with its assertion on the sizes. `ff` is
`res_prop.fractionalFlow`. -/
def computePhaseVelocities (ff : Nat → K → Option K) (sat : List K) (vel : List (Vec K)) :
    Option (List (Vec K) × List (Vec K)) :=
  if sat.length = vel.length then do
    let l ← (sat.zip vel).zipIdx.mapM fun e => do
      let f ← ff e.2 e.1.1
      return phaseVelocities f e.1.2
    return (l.map (·.1), l.map (·.2))
  else none

/-- `estimateCellVelocity` for one cell (SimulatorUtilities.hpp:72-86). -/
def cellVelocity (c : Cell K) : Vec K :=
  c.faces.foldl (fun v f i => v i + (f.centroid i - c.centroid i) * (f.flux / c.volume)) (fun _ => 0)

/-- `estimateCellVelocity` with a partition (SimulatorUtilities.hpp:125-153). -/
def cellVelocityPart (part : Nat → Int) (mine : Int) (c : Nat) (cell : Cell K) : Vec K :=
  if part c ≠ mine then fun _ => 0 else cellVelocity cell

/-- A face of the simple interface: its two cells (`none` for a negative index), centroid and flux. -/
structure SFace (K : Type) where
  c0 : Option Nat
  c1 : Option Nat
  centroid : Vec K
  flux : K

/-- One face of `estimateCellVelocitySimpleInterface` (SimulatorUtilities.hpp:104-115). `cc`, `vol` are cell centroids and
volumes. -/
def simpleStep (cc : Nat → Vec K) (vol : Nat → K) (v : Nat → Vec K) (f : SFace K) : Nat → Vec K :=
  let add (v : Nat → Vec K) (c : Option Nat) (sgn : K) : Nat → Vec K :=
    match c with
    | none => v
    | some j => fun k i => if k = j then v k i + sgn * ((f.centroid i - cc j i) * (f.flux / vol j)) else v k i
  add (add v f.c0 1) f.c1 (-1)

/-- `estimateCellVelocitySimpleInterface` (SimulatorUtilities.hpp:93-117). -/
def cellVelocitySimple (cc : Nat → Vec K) (vol : Nat → K) (faces : List (SFace K)) : Nat → Vec K :=
  faces.foldl (simpleStep cc vol) (fun _ _ => 0)

/-! ### CFL factors -/

/-- Running values of the sampling loop. -/
structure CflState (K : Type) where
  last1 : K
  lastg : K
  max1 : K
  maxg : K
  ext : K
  maxpc : K

/-- One iteration of the loop of `computeSingleRockCflFactors` (ReservoirPropertyCapillary_impl.hpp:231-245).
`ff i` is the pair `(ff1, ffg)` at the `i`-th sample, `dpc i` the absolute derivative of the capillary pressure there. -/
def cflSample (delta : K) (ff : Nat → K × K) (dpc : Nat → K) (st : CflState K) (i : Nat) : CflState K :=
  let v := ff i
  { last1 := v.1, lastg := v.2
    max1 := max st.max1 (|v.1 - st.last1| / delta)
    maxg := max st.maxg (|v.2 - st.lastg| / delta)
    ext := max st.ext v.2
    maxpc := max st.maxpc (dpc i) }

/-- `computeSingleRockCflFactors` (ReservoirPropertyCapillary_impl.hpp:214-248) up to the final inversion:
`(max_der1, max_derg, max_ffg*max_derpc)`. `big` is 1e100; 257 samples. With `rock == -1` the capillary derivative is 0 (`dpc` zero). -/
def singleRock (big : K) (ff : Nat → K × K) (dpc : Nat → K) : K × K × K :=
  let delta : K := 1 / 256
  let st := ((List.range 256).map (· + 1)).foldl (cflSample delta ff dpc)
    ⟨(ff 0).1, (ff 0).2, -big, -big, (ff 0).2, dpc 0⟩
  (st.max1, st.maxg, st.ext * st.maxpc)

/-- `min(acc, 1/x)` where `1/0` is infinity. -/
def recipMin (acc x : K) : K := if x = 0 then acc else min acc (1 / x)

/-- `computeCflFactors` with rocks (ReservoirPropertyCapillary_impl.hpp:271-280): `(cfl_factor_, cfl_factor_gravity_,
cfl_factor_capillary_)`. -/
def cflFactors (big : K) (rocks : List ((Nat → K × K) × (Nat → K))) : K × K × K :=
  rocks.foldl (fun a r =>
    let f := singleRock big r.1 r.2
    (recipMin a.1 f.1, recipMin a.2.1 f.2.1, max a.2.2 f.2.2)) (big, big, 0)

/-- One iteration of the inner loop of the anisotropic version
(ReservoirPropertyCapillaryAnisotropicRelperm_impl.hpp:130-141): the extremum is `min(min_ffg, last_ffg)`. -/
def cflSampleAniso (delta : K) (ff : Nat → K × K) (st : CflState K) (i : Nat) : CflState K :=
  let v := ff i
  { last1 := v.1, lastg := v.2
    max1 := max st.max1 (|v.1 - st.last1| / delta)
    maxg := max st.maxg (|v.2 - st.lastg| / delta)
    ext := min st.ext st.lastg
    maxpc := st.maxpc }

/-- One direction (ReservoirPropertyCapillaryAnisotropicRelperm_impl.hpp:127-142). -/
def cflDirAniso (delta : K) (st : CflState K) (ff : Nat → K × K) : CflState K :=
  let st := { st with last1 := (ff 0).1, lastg := (ff 0).2, ext := min st.ext (ff 0).2 }
  ((List.range 256).map (· + 1)).foldl (cflSampleAniso delta ff) st

/-- `computeSingleRockCflFactors` of the anisotropic model (ReservoirPropertyCapillaryAnisotropicRelperm_impl.hpp:118-145) up to
the final inversion; `ffs` are the sampled values for the three directions. -/
def singleRockAniso (big : K) (ffs : Fin 3 → Nat → K × K) : K × K × K :=
  let st0 : CflState K := ⟨0, 0, -big, -big, -big, 0⟩
  let st := [ffs 0, ffs 1, ffs 2].foldl (cflDirAniso (1 / 256)) st0
  (st.max1, st.maxg, st.ext)

/-- `computeCflFactors` of the anisotropic model with rocks
(ReservoirPropertyCapillaryAnisotropicRelperm_impl.hpp:158-168). -/
def cflFactorsAniso (big : K) (rocks : List (Fin 3 → Nat → K × K)) : K × K × K :=
  rocks.foldl (fun a r =>
    let f := singleRockAniso big r
    (recipMin a.1 f.1, recipMin a.2.1 f.2.1, max a.2.2 f.2.2)) (big, big, big)

/-- `cfl_factor_capillary_` of the anisotropic model without rocks
(ReservoirPropertyCapillaryAnisotropicRelperm_impl.hpp:152-157). -/
def capFactorAnisoNoRock (big : K) (ffs : Fin 3 → Nat → K × K) : K := (singleRockAniso big ffs).2.2

/-- `findCFLtimeCapillary` (CflCalculator.hpp:148-174): minimum over all faces of the spatial contribution over the
capillary factor; `spatial` lists the contributions of all faces. A zero factor divides by zero (infinite, for positive
contributions). -/
def cflCapillary (big factor : K) (spatial : List K) : K :=
  spatial.foldl (fun dt x => if factor = 0 then dt else min dt (x / factor)) big

end Verif.FracFlow
