import Verif.Spec.FlowCopies
import Verif.Spec.RelPermChain

/-!
Specification of C164 and C165: rock data of a sample made of copies, or described a second time.
-/

namespace Verif.RelPermChain

open Verif.SinglePhase

variable {K : Type} [Field K] [LinearOrder K]

/-- The number in the deck of cell `c` of the grid. -/
def deckCell (J : Job K) (c : Fin J.I.G.nc) : Nat := J.S.globalCell.getD c.val 0

/-- Cell `c` of `J'` has the rock of cell `o c` of `J`: rock number, porosity, permeability and gravity head are the same, the volume is multiplied by `v`.
Curves and limits of the permeabilities are the same. (With gravity, the heads of copies agree if they are next to each other, not above each other.) -/
structure CopiedRock (J J' : Job K) (o : Fin J'.I.G.nc → Fin J.I.G.nc) (v : K) : Prop where
  satnum : ∀ c, J'.S.satnum (deckCell J' c) = J.S.satnum (deckCell J (o c))
  poro : ∀ c, J'.S.poro (deckCell J' c) = J.S.poro (deckCell J (o c))
  permx : ∀ c, J'.S.permx (deckCell J' c) = J.S.permx (deckCell J (o c))
  volume : ∀ c, J'.S.volume (deckCell J' c) = v * J.S.volume (deckCell J (o c))
  head : ∀ c h, RelPerm.Spec.Head J'.S (deckCell J' c) h ↔ RelPerm.Spec.Head J.S (deckCell J (o c)) h
  curves : J'.S.invJ = J.S.invJ
  sqrt : J'.S.sqrt = J.S.sqrt
  contrast : J'.contrast = J.contrast
  minPerm : J'.minPerm = J.minPerm

end Verif.RelPermChain
