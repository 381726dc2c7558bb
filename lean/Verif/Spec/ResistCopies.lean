import Verif.Spec.FlowCopies
import Verif.Spec.Relabel
import Verif.Spec.ResistChain

/-!
Specification of C168: cell data of a sample made of copies, or described a second time, for resistivity.
-/

namespace Verif.ResistChain

open Verif.SinglePhase Verif.Resist

variable {K : Type} [Field K] [LinearOrder K]

/-- Cell `c` of `J'` has the data of cell `o c` of `J`, with the volume multiplied by `v`; options and curves are the same. -/
structure CopiedCells (J J' : Job K) (o : Fin J'.I.G.nc → Fin J.I.G.nc) (v : K) : Prop where
  cell : ∀ c x, J.cells[(o c).val]? = some x → J'.cells[c.val]? = some { x with vol := v * x.vol }
  opts : J'.O = J.O
  curves : J'.curves = J.curves

end Verif.ResistChain
