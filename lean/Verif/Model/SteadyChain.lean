import Verif.Model.Steady
import Verif.Model.SinglePhase
import Verif.Model.TransportDefs

/-!
Model of `upscaleSteadyState` of the implicit and the explicit upscaler from the initial saturation to the upscaled relative permeabilities
(`opm/upscaling/SteadyStateUpscalerImplicit_impl.hpp` 176-383, `opm/upscaling/SteadyStateUpscaler_impl.hpp` 131-284), for scalar mobilities: the loops of
`Model/Steady.lean`, the limited phase mobilities, and `upscaleEffectivePerm` of `Model/SinglePhase.lean` for each phase.

Simplifications: the transport solver (with the pressure solution made before the loop) is a parameter; the conditions held by the upscaler before the two
calls of `upscaleEffectivePerm` are parameters; output is left out.
-/

namespace Verif.SteadyChain

open Verif.SinglePhase

variable {K : Type} [Field K] [LinearOrder K]

/-- The two upscalers. Implicit: parameters of the loop, pore volumes, transport solver (SteadyStateUpscalerImplicit_impl.hpp:176-321). Explicit:
`simulation_steps_`, `sat_change_threshold_`, transport and pressure solver (SteadyStateUpscaler_impl.hpp:131-231). -/
inductive Upscaler (K : Type) where
  | implicit (P : Steady.Params K) (pv : List K) (transport : Nat → List K → K → Bool × List K)
  | explicit (steps : Nat) (threshold : K) (solve : Nat → List K → List K)

/-- Success (the explicit upscaler does not report any) and saturations at the end of the loop (SteadyStateUpscalerImplicit_impl.hpp:222-321,
SteadyStateUpscaler_impl.hpp:174-231). -/
def ends (U : Upscaler K) (init : List K) : Bool × List K :=
  match U with
  | .implicit P pv transport => let r := (Steady.run P pv transport init).2; (r.stationary, r.sat)
  | .explicit steps threshold solve => (true, (Steady.loopExplicit threshold solve steps 0 init).2)

/-- What the upscaler holds: grid and rock (the fluid in it is not used), which upscaler it is, `res_prop_.phaseMobility` (phase, cell,
saturation), `relperm_threshold_`, `maximum_mobility_contrast_`, the viscosities. -/
structure Job (K : Type) where
  I : Input K
  U : Upscaler K
  mob : Fin 2 → Nat → K → K
  relThresh : K
  contrast : K
  visc : Fin 2 → K

/-- Mobilities of a phase in all cells (SteadyStateUpscalerImplicit_impl.hpp:332-337, 348-353; SteadyStateUpscaler_impl.hpp:233-260); `none`: a saturation is missing. -/
def mobilities (J : Job K) (ph : Fin 2) (sat : List K) : Option (List (List K)) :=
  (List.range J.I.G.nc).mapM fun c => (sat[c]?).map fun s => [J.mob ph c s]

/-- The upscaler with `ReservoirPropertyFixedMobility` as fluid (SteadyStateUpscalerImplicit_impl.hpp:357, 359; ReservoirPropertyFixedMobility.hpp:56-77). -/
def withFluid (I : Input K) (mobs : List K) : Input K :=
  { I with mob := fun c => (TransportDefs.phaseMobilities mobs c 1).getD [], rho := fun c => TransportDefs.phaseDensities c }

/-- `eff_Kw` and `eff_Ko` (SteadyStateUpscalerImplicit_impl.hpp:326-360; SteadyStateUpscaler_impl.hpp:233-266): limited mobilities, then the flow problems. -/
def effective (J : Job K) (ph : Fin 2) (sat : List K) (b : Boundary.BCs K) : Option (Fin 3 → Fin 3 → K) :=
  (mobilities J ph sat).bind fun m =>
    upscaleEffectivePerm (withFluid J.I (Steady.thresholded J.relThresh (J.visc ph) J.contrast m).flatten) b

/-- What `upscaleSteadyState` returns: success, `last_saturation_state_`, the two tensors. -/
structure Result (K : Type) where
  success : Bool
  sat : List K
  kr : Fin 2 → Fin 3 → Fin 3 → K

/-- `upscaleSteadyState` (SteadyStateUpscalerImplicit_impl.hpp:176-383; SteadyStateUpscaler_impl.hpp:131-284); `up` is the argument `upscaled_perm`, `b` and `b'` are `bcond_` before the two
calls of `upscaleEffectivePerm`. -/
def upscale (J : Job K) (init : List K) (up : Fin 3 → Fin 3 → K) (b b' : Boundary.BCs K) : Option (Result K) :=
  let r := ends J.U init
  (effective J 0 r.2 b).bind fun e0 => (effective J 1 r.2 b').bind fun e1 =>
    (Steady.phaseRelperm e0 up (J.visc 0)).bind fun k0 => (Steady.phaseRelperm e1 up (J.visc 1)).map fun k1 =>
      ⟨r.1, r.2, fun ph => if ph = 0 then k0 else k1⟩

end Verif.SteadyChain
