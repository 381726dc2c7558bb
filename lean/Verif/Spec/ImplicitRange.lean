import Verif.Spec.ImplicitStep

/-!
Specification for the range of saturations of implicit transport: one fluid in the whole reservoir, and what is injected.
-/

namespace Verif.ImplicitStep.Spec

open Verif.Implicit.Spec (Interior)

variable {K : Type} [Field K] [LinearOrder K]

/-- All cells have the same relative mobilities, capillary pressure and limits; with more water, water is not less and oil not more mobile and the capillary pressure is not higher; no
transmissibility is negative. -/
structure OneFluid (M : Medium K) : Prop where
  mob : ∀ c d, c < M.grid.nc → d < M.grid.nc → M.mob c = M.mob d
  pc : ∀ c d, c < M.grid.nc → d < M.grid.nc → M.pc c = M.pc d
  limits : ∀ c d, c < M.grid.nc → d < M.grid.nc → M.smin c = M.smin d ∧ M.smax c = M.smax d
  more : ∀ c a b, c < M.grid.nc → M.smin c ≤ a → a ≤ b → b ≤ M.smax c → (M.mob c a).1 ≤ (M.mob c b).1 ∧ (M.mob c b).2 ≤ (M.mob c a).2 ∧ M.pc c b ≤ M.pc c a
  trans : ∀ f, 0 ≤ M.trans f

/-- In every cell the total fluxes over the faces balance the rates of the sources. -/
def Incompressible (M : Medium K) : Prop :=
  ∀ c, c < M.grid.nc → outflow M M.faceflux c = ((M.src.filter fun q => q.1 = c).map fun q => q.2.1).sum

/-- What is injected contains no more water than flows at any saturation above `U`. -/
def InjectsBelow (M : Medium K) (U : K) : Prop :=
  ∀ q ∈ M.src, 0 < q.2.1 → ∀ x, M.smin q.1 ≤ x → x ≤ M.smax q.1 → U ≤ x → q.2.2 ≤ fraction M q.1 x

/-- What is injected contains no less water than flows at any saturation below `L`. -/
def InjectsAbove (M : Medium K) (L : K) : Prop :=
  ∀ q ∈ M.src, 0 < q.2.1 → ∀ x, M.smin q.1 ≤ x → x ≤ M.smax q.1 → x ≤ L → fraction M q.1 x ≤ q.2.2

end Verif.ImplicitStep.Spec
