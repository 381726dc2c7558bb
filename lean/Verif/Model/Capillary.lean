import Verif.Model.Reservoir
import Verif.Model.Upscale

/-!
Model of the capillary pressure functions (`RockJfunc.hpp`, `ReservoirPropertyCommon_impl.hpp`), of the function whose root makes
saturated volumes match (`MatchSaturatedVolumeFunctor.hpp`), of `setToCapillaryLimit` (`SteadyStateUpscalerImplicit_impl.hpp`) and of the
update of `ImplicitCapillarity::transportSolve`. The tables of the library and their inverses are functions; the root finder of the library is
represented by the list of points at which it evaluates its function; the capillary pressure solution is a parameter; `sq` is `std::sqrt`.
A division by zero is `none`, as is an access outside of an array.
-/

namespace Verif.Capillary

open Verif.Reservoir
open Verif.Upscale (quot)

variable {K : Type} [Field K] [LinearOrder K]

/-- The data of a `RockJfunc` (RockJfunc.hpp:221-228). -/
structure Rock (K : Type) where
  J : K → K
  Jinv : K → K
  sMin : K
  sMax : K
  scaling : Bool
  sigmaCosTheta : K

/-- `trace` of the nine numbers of a permeability tensor (Matrix.hpp). -/
def trace (l : List K) : K := (List.range 3).foldl (fun a i => a + l.getD (3 * i + i) 0) 0

/-- `capPress` (RockJfunc.hpp:99-112). -/
def Rock.capPress (sq : K → K) (r : Rock K) (perm : List K) (poro s : K) : Option K :=
  if r.scaling then (quot (trace perm) (3 * poro)).bind fun a => quot (r.J s * r.sigmaCosTheta) (sq a)
  else some (r.J s)

/-- `satFromCapPress` (RockJfunc.hpp:129-145). -/
def Rock.satFromCapPress (sq : K → K) (r : Rock K) (perm : List K) (poro pc : K) : Option K :=
  (if r.scaling then (quot (trace perm) (3 * poro)).bind fun a => (quot (pc * sq a) r.sigmaCosTheta).map r.Jinv
  else some (r.Jinv pc)).map fun s => min r.sMax (max r.sMin s)

/-- Cell data and rocks of the reservoir properties. -/
structure RP (K : Type) where
  st : State K
  rocks : List (Rock K)

/-- `rock_[cell_to_rock_[c]]` (e.g. ReservoirPropertyCommon_impl.hpp:469-470). -/
def RP.rockOf (rp : RP K) (c : Nat) : Option (Rock K) :=
  (rp.st.rock[c]?).bind fun r => if r < 0 then none else rp.rocks[r.toNat]?

/-- `capillaryPressure` (ReservoirPropertyCommon_impl.hpp:466-477). -/
def RP.capillaryPressure (sq : K → K) (rp : RP K) (c : Nat) (s : K) : Option K :=
  if rp.rocks.length > 0 then
    (rp.rockOf c).bind fun r => (rp.st.permeability c).bind fun k => (rp.st.porosity[c]?).bind fun p => r.capPress sq k p s
  else some (10 ^ 5 * (1 - s))

/-- `saturationFromCapillaryPressure` (ReservoirPropertyCommon_impl.hpp:518-529). -/
def RP.satFrom (sq : K → K) (rp : RP K) (c : Nat) (pc : K) : Option K :=
  if rp.rocks.length > 0 then
    (rp.rockOf c).bind fun r => (rp.st.permeability c).bind fun k => (rp.st.porosity[c]?).bind fun p => r.satFromCapPress sq k p pc
  else some 0

/-- `s_min`, `s_max` (ReservoirPropertyCommon_impl.hpp:491-516). -/
def RP.sMin (rp : RP K) (c : Nat) : Option K := if rp.rocks.length > 0 then (rp.rockOf c).map Rock.sMin else some 0
def RP.sMax (rp : RP K) (c : Nat) : Option K := if rp.rocks.length > 0 then (rp.rockOf c).map Rock.sMax else some 1

/-- A grid: for each cell visited by the cell iterator, its index and its volume. `numberOfCells` is the length. -/
abbrev Grid (K : Type) := List (Nat × K)

/-- `poreSatVolumes` (MatchSaturatedVolumeFunctor.hpp:48-64). -/
def poreSatVolumes (g : Grid K) (porosity sat : List K) : Option (K × K) :=
  g.foldlM (init := ((0, 0) : K × K)) fun a c =>
    (porosity[c.1]?).bind fun p => (sat[c.1]?).map fun s => (a.1 + c.2 * p, a.2 + c.2 * p * s)

/-- `operator()` (MatchSaturatedVolumeFunctor.hpp:88-95) with `computeSaturations` (103-109): the value and the new member `sat_`. -/
def eval (sq : K → K) (g : Grid K) (rp : RP K) (capPress : List K) (origSatvol dp : K) : Option (K × List K) :=
  ((List.range g.length).mapM fun c => ((capPress.map (· + dp))[c]?).bind fun pc => rp.satFrom sq c pc).bind fun sat =>
    (poreSatVolumes g rp.st.porosity sat).bind fun v => (quot (v.2 - origSatvol) v.1).map fun x => (x, sat)

/-- `lastSaturations` after the root finder has evaluated the function at the given points, starting from `sat_` of the constructor
(MatchSaturatedVolumeFunctor.hpp:71-86, 97-100). -/
def lastSaturations (sq : K → K) (g : Grid K) (rp : RP K) (capPress origSat : List K) (points : List K) : Option (List K) :=
  (poreSatVolumes g rp.st.porosity origSat).bind fun v =>
    points.foldlM (init := List.replicate origSat.length 0) fun _ dp => (eval sq g rp capPress v.2 dp).map Prod.snd

/-- `initSatLimits` (SteadyStateUpscalerImplicit_impl.hpp:415-423). -/
def initSatLimits (rp : RP K) (s : List K) : Option (List K) :=
  s.zipIdx.mapM fun a => (rp.sMin a.2).bind fun lo => (rp.sMax a.2).map fun hi => min (hi - 1 / 10 ^ 4) (max (lo + 1 / 10 ^ 4) a.1)

/-- `setToCapillaryLimit` (SteadyStateUpscalerImplicit_impl.hpp:425-448); `points` are the evaluations of `bracketZero` and of the root
finder. -/
def setToCapillaryLimit (sq : K → K) (g : Grid K) (rp : RP K) (average : K) (points : List K) : Option (List K) :=
  (initSatLimits rp (List.replicate g.length average)).bind fun orig =>
    lastSaturations sq g rp (List.replicate g.length 0) orig points

/-- The update of `ImplicitCapillarity::transportSolve` (ImplicitCapillarity_impl.hpp:196-216) before the final check; `capPress` is the
capillary pressure solution. -/
def capillaryUpdate (sq : K → K) (g : Grid K) (rp : RP K) (capPress : List K) (relax : K) (points : List K) (sat : List K) :
    Option (List K) :=
  (lastSaturations sq g rp capPress sat points).bind fun new =>
    sat.zipIdx.mapM fun a => (new[a.2]?).map fun b => (1 - relax) * a.1 + relax * b

/-- The capillary mobility of a cell for scalar mobilities (ImplicitCapillarity_impl.hpp:150-163; ReservoirPropertyCapillary.hpp:54-73). -/
def capMobility (m1 m2 : K) : Option K :=
  (quot 1 (m1 + m2)).map fun inv => max (m1 * inv * m2) (1 / 10 ^ 10)

end Verif.Capillary
