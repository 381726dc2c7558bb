import Verif.Spec.Mirror
import Verif.Spec.RelPermChain

/-!
Specification of C166: the mirror image of a sample with rock data.
-/

namespace Verif.RelPermChain

open Verif.SinglePhase

variable {K : Type} [Field K] [LinearOrder K]

/-- The mirror image of a sample: the coordinates change, rock data, limits and options do not. -/
def mirrorJob (s : Fin 3 → K) (J : Job K) (bid : Half J.I.G → Nat) : Job K := { J with I := mirror s J.I bid }

end Verif.RelPermChain
