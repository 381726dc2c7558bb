import Verif.Model.Capillary
import Mathlib.Algebra.BigOperators.Group.List.Basic

/-!
Averages weighted with pore volumes.
-/

namespace Verif.Capillary

variable {K : Type} [Field K]

/-- Total pore volume: the sum of volume times porosity. -/
def poreVolume (g : List (Nat × K)) (porosity : List K) : K := (g.map fun c => c.2 * porosity.getD c.1 0).sum

/-- The average of cell values weighted with pore volumes. -/
def average (g : List (Nat × K)) (porosity sat : List K) : K :=
  (g.map fun c => c.2 * porosity.getD c.1 0 * sat.getD c.1 0).sum / poreVolume g porosity

end Verif.Capillary
