import Verif.Model.RelPerm
import Verif.Model.SinglePhase

/-!
Model of the chain from cell data to upscaled relative permeability (`opm/upscaling/RelPermUtils.cpp`:
`setupBoundaryConditions` 635-648, `upscaleSinglePhasePermeability` 355-390, the loop of `upscalePermeability` 1047-1188,
`getRelPerm` 311-332), with the flow problem of `SinglePhaseUpscaler` (`Model/SinglePhase.lean`) in the place of the solver.

Simplifications: one process; `invert` (LAPACK) is a parameter; the conditions `bcond_` held by the upscaler before each
call are parameters; terminal output is left out.
-/

namespace Verif.RelPermChain

open Verif.Dense Verif.Control Verif.RelPerm Verif.SinglePhase

variable {K : Type} [Field K] [LinearOrder K]

/-- What `RelPermUpscaleHelper` holds when permeabilities are upscaled: the cell data, the upscaler with its grid, the
other two permeabilities of anisotropic input, `maxPermContrast`, `minPerm`, `invert`. -/
structure Job (K : Type) where
  S : Sys K
  I : Input K
  permy : Nat → K
  permz : Nat → K
  contrast : K
  minPerm : K
  invert : FullMatrix K → FullMatrix K

/-- `tensorElementCount` (RelPermUtils.cpp:637-645). -/
def elements : Upscale.BCType → Nat
  | .fixed => 3
  | .linear => 9
  | .periodic => 9

/-- The calls of `setPermeability`, in the order of the grid's cells, with a matrix that is zero off the diagonal
(RelPermUtils.cpp:362-383, 1126-1157). A cell without entry keeps what it has. -/
def setPerms (I : Input K) (ks : List (Fin 3 → K)) : Input K :=
  { I with perm := fun c i j => match ks[c.val]? with
      | some k => if i = j then k i else 0
      | none => I.perm c i j }

/-- `upscaleSinglePhasePermeability` (RelPermUtils.cpp:355-386). -/
def single (J : Job K) (b : Boundary.BCs K) : Option (Fin 3 → Fin 3 → K) :=
  upscaleSinglePhase (setPerms J.I (singlePerms J.S J.permy J.permz J.contrast J.minPerm)) b

/-- The diagonals of the phase permeabilities of the cells (RelPermUtils.cpp:1059-1157). -/
def phaseDiags (J : Job K) (kr : Fin 3 → Nat → K → K) (p : K) : Option (List (Fin 3 → K)) :=
  if J.S.aniso then cellPermsDiag J.S kr ![J.S.permx, J.permy, J.permz] J.contrast J.minPerm p
  else (cellPerms J.S (kr 0) J.contrast J.minPerm p).map fun l => l.map fun k _ => k

/-- One phase at one pressure (RelPermUtils.cpp:1057-1162). -/
def phase (J : Job K) (kr : Fin 3 → Nat → K → K) (p : K) (b : Boundary.BCs K) : Option (Fin 3 → Fin 3 → K) :=
  (phaseDiags J kr p).bind fun ks => upscaleSinglePhase (setPerms J.I ks) b

/-- The tensor as the matrix that `upscaleSinglePhase` returns (rows one after the other). -/
def tensor (T : Fin 3 → Fin 3 → K) : FullMatrix K :=
  ⟨.c, 3, 3, [T 0 0, T 0 1, T 0 2, T 1 0, T 1 1, T 1 2, T 2 0, T 2 1, T 2 2]⟩

/-- The matrix filled with zeros (RelPermUtils.cpp:313-314). -/
def zeroMatrix : FullMatrix K := ⟨.c, 3, 3, [0, 0, 0, 0, 0, 0, 0, 0, 0]⟩

/-- Storing the phase permeability (RelPermUtils.cpp:1179-1182), inverting the single phase permeability
(RelPermUtils.cpp:386-389) and `getRelPerm` for one point (RelPermUtils.cpp:318-329). -/
def relPerm (J : Job K) (T P : Fin 3 → Fin 3 → K) : Option (List K) :=
  ((List.range (elements J.I.bct)).mapM fun (v : Nat) => getVoigtValue (tensor P) (v : Int)).bind fun vals =>
    relPermRow zeroMatrix (J.invert (tensor T)) (elements J.I.bct) vals

/-- What is reported for one pressure and one phase: upscaled saturation (RelPermUtils.cpp:1170) and relative
permeabilities. `b` and `b'` are the conditions held before the single phase and before the phase calculation. -/
def point (J : Job K) (kr : Fin 3 → Nat → K → K) (p : K) (b b' : Boundary.BCs K) : Option (K × List K) :=
  (single J b).bind fun T => (phase J kr p b').bind fun P => (upscaledSw J.S p).bind fun w =>
    (relPerm J T P).map fun r => (w, r)

end Verif.RelPermChain
