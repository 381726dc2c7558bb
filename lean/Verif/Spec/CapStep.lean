import Verif.Model.CapStep
import Verif.Spec.Hybrid
import Verif.Spec.Capillary

/-! What C109 talks about. -/

namespace Verif.CapStep.Spec

open Verif.Hybrid Verif.Capillary

variable {K : Type} [Field K] [LinearOrder K] {nc : Nat}

/-- No fluid passes the boundary other than to a periodic partner: faces are interior, periodic or have prescribed flux zero. -/
def Closed (cells : Fin nc → PCell K) : Prop :=
  ∀ i k, (cells i).ext k = .interior ∨ (∃ d q, (cells i).ext k = .periodic d q) ∨ (cells i).ext k = .neumann 0

/-- The saturations belong to one and the same capillary pressure. -/
def Equilibrium (sq : K → K) (rp : RP K) (sat : List K) : Prop :=
  ∃ pc, ∀ c s, sat[c]? = some s → rp.satFrom sq c pc = some s

/-- All pore volumes are positive. -/
def Porous (g : Grid K) (porosity : List K) : Prop := ∀ c ∈ g, 0 < c.2 * porosity.getD c.1 0

/-- The pressure problem: consistent faces, definite inner products, at least two faces, every cell reached from face 0. -/
structure Posed (cells : Fin nc → Cell K) (N : Nat) : Prop where
  consistent : Consistent cells N
  elliptic : Elliptic cells
  anchored : Anchored cells N
  two : 2 ≤ N

end Verif.CapStep.Spec
