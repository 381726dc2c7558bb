import Verif.Spec.Mirror
import Verif.Spec.ViscChain
import Verif.Spec.ResistChain

/-!
Specification of C169: the mirror image of a sample, for the viscous limit and for resistivity.
-/

namespace Verif

open Verif.SinglePhase

variable {K : Type} [Field K] [LinearOrder K]

/-- The mirror image of a sample: the coordinates change, cell data, curves and options do not. -/
def ViscChain.mirrorJob (s : Fin 3 → K) (J : ViscChain.Job K) (bid : Half J.I.G → Nat) : ViscChain.Job K := { J with I := mirror s J.I bid }

/-- The mirror image of a sample: the coordinates change, cell data, curves and options do not. -/
def ResistChain.mirrorJob (s : Fin 3 → K) (J : ResistChain.Job K) (bid : Half J.I.G → Nat) : ResistChain.Job K := { J with I := mirror s J.I bid }

end Verif
