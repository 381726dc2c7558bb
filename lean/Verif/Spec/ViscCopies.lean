import Verif.Spec.FlowCopies
import Verif.Spec.Relabel
import Verif.Spec.ViscChain

/-!
Specification of C167: cell data of a sample made of copies, or described a second time, in the viscous limit.
-/

namespace Verif.ViscChain

open Verif.SinglePhase Verif.Visc

variable {K : Type} [Field K] [LinearOrder K]

/-- Cell `c` of `J'` has the data of cell `o c` of `J`, with the volume multiplied by `v`; options, input type and curves are the same. -/
structure CopiedCells (J J' : Job K) (o : Fin J'.I.G.nc → Fin J.I.G.nc) (v : K) : Prop where
  cell : ∀ c x, J.cells[(o c).val]? = some x → J'.cells[c.val]? = some { x with vol := v * x.vol }
  opts : J'.O = J.O
  aniso : J'.aniso = J.aniso
  curves : J'.C = J.C

end Verif.ViscChain
