import Verif.Model.SteadyTool

/-!
Specification for `upscale_steadystate_implicit`: pore volumes and volumes of water of a model whose cells have rock numbers.
-/

namespace Verif.SteadyTool.Spec

variable {K : Type} [Field K]

/-- The pore volume of a cell, given by its position and its volume: none in cells without rock. -/
def pore (poros : List K) (satnums : List Int) (c : Nat × K) : K := if 0 < satnums.getD c.1 0 then c.2 * poros.getD c.1 0 else 0

/-- The smallest and the largest saturation of the rock of a cell. -/
def lowest (satnums : List Int) (ends : List (List Char × K × K)) (c : Nat × K) : K := (ends.getD (satnums.getD c.1 0 - 1).toNat ([], 0, 0)).2.1
def highest (satnums : List Int) (ends : List (List Char × K × K)) (c : Nat × K) : K := (ends.getD (satnums.getD c.1 0 - 1).toNat ([], 0, 0)).2.2

/-- The cells are different cells of the deck, and there is a rock for each number. -/
structure Sound (poros : List K) (satnums : List Int) (ends : List (List Char × K × K)) (cells : List (Nat × K)) : Prop where
  distinct : (cells.map Prod.fst).Nodup
  inside : ∀ c ∈ cells, c.1 < satnums.length ∧ c.1 < poros.length
  rocks : ∀ s ∈ satnums, s ≤ (ends.length : Int)

/-- What is read for a line of the rock list: the first word names the file; the saturation is in column 1 beside column 4, in files for anisotropic rocks in column 2 beside column 1;
for isotropic rocks the smallest saturation is between 0 and 1. -/
def RockOf [LinearOrder K] {D : Type} (e : Env K D) (aniso : Bool) (spec : List Char) (r : List Char × K × K) : Prop :=
  r.1 = (RockTables.nextWord spec).1 ∧ e.opens r.1 = true ∧ e.extremes r.1 (if aniso then 2 else 1) (if aniso then 1 else 4) = some r.2 ∧ (aniso = false → 0 ≤ r.2.1 ∧ r.2.1 ≤ 1)

end Verif.SteadyTool.Spec
