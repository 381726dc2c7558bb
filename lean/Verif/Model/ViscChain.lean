import Verif.Model.ViscLimit
import Verif.Model.RelPermChain

/-!
Model of the chain from cell data to upscaled relative permeability in the viscous limit (`examples/upscale_relpermvisc.cpp` 1181-1510), with
the flow problem of `SinglePhaseUpscaler` (`Model/SinglePhase.lean`) in the place of the solver.

Simplifications: one process; `invert` (LAPACK) is a parameter; the conditions held by the upscaler before each call are parameters; terminal
output is left out. The grid's cells are numbered in the order of `globalCell()`.
-/

namespace Verif.ViscChain

open Verif.Dense Verif.Control Verif.RelPerm Verif.SinglePhase Verif.Visc

variable {K : Type} [Field K] [LinearOrder K]

/-- What the program holds when permeabilities are upscaled: options, the checked cells, the curves of saturation over ratio of the rock types, the pore
volumes of the rock types, the upscaler with its grid, `invert`. -/
structure Job (K : Type) where
  O : Opts K
  aniso : Bool
  cells : List (Cell K)
  C : List (Fin 3 → Curve K)
  vols : List K
  I : Input K
  invert : FullMatrix K → FullMatrix K

/-- `tensorElementCount` (upscale_relpermvisc.cpp:266-281). -/
def elements : Upscale.BCType → Nat
  | .fixed => 3
  | .linear => 9
  | .periodic => 9

/-- `permTensor` (upscale_relpermvisc.cpp:1185-1207). -/
def single (J : Job K) (b : Boundary.BCs K) : Option (Fin 3 → Fin 3 → K) :=
  upscaleSinglePhase (RelPermChain.setPerms J.I (Visc.singlePerms J.O J.aniso J.cells)) b

/-- `waterSaturationRockType` (upscale_relpermvisc.cpp:1304-1316). -/
def rockSats (J : Job K) (v : K) (r : Nat) : K := (J.C[r]?).elim 0 fun c => satOf J.aniso c v

/-- `phasePermTensor` of one phase with the curves `kr` at the ratio `v` (upscale_relpermvisc.cpp:1296-1395). -/
def phase (J : Job K) (kr : Nat → Fin 3 → Curve K) (v : K) (b : Boundary.BCs K) : Option (Fin 3 → Fin 3 → K) :=
  upscaleSinglePhase (RelPermChain.setPerms J.I (gridPerms J.O J.aniso kr (rockSats J v) J.cells)) b

/-- Storing the phase permeability (upscale_relpermvisc.cpp:1411-1414), inverting the single phase permeability (upscale_relpermvisc.cpp:1208-1209), and the
relative permeabilities of one point (upscale_relpermvisc.cpp:1490-1506). -/
def relPerm (J : Job K) (T P : Fin 3 → Fin 3 → K) : Option (List K) :=
  ((List.range (elements J.I.bct)).mapM fun (i : Nat) => getVoigtValue (RelPermChain.tensor P) (i : Int)).bind fun vals =>
    relPermRow RelPermChain.zeroMatrix (J.invert (RelPermChain.tensor T)) (elements J.I.bct) vals

/-- What is reported for one ratio and one phase: upscaled saturation (upscale_relpermvisc.cpp:1404) and relative permeabilities. `b` and `b'` are the
conditions held before the single phase and before the phase calculation. -/
def point (J : Job K) (kr : Nat → Fin 3 → Curve K) (v : K) (b b' : Boundary.BCs K) : Option (K × List K) :=
  (single J b).bind fun T => (phase J kr v b').bind fun P => (swAt J.aniso J.C J.vols (poreVolume J.cells) v).bind fun w =>
    (relPerm J T P).map fun r => (w, r)

end Verif.ViscChain
