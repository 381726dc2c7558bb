import Verif.Model.SteadyChain
import Verif.Spec.SinglePhase

/-!
Specification for the steady state upscaler: when a job is well posed, and relative permeabilities of the cells.
-/

namespace Verif.SteadyChain

open Verif.SinglePhase

variable {K : Type} [Field K] [LinearOrder K]

/-- The upscaler can compute: a grid that fills a box and fits the type of boundary conditions, symmetric positive definite permeabilities, an exact linear
solver, no gravity. Nothing is said about the fluid. -/
structure Ready (J : Job K) (lo hi : Fin 3 → K) (side : Boundary.Face K → Nat) : Prop where
  tiling : Tiling J.I.G
  box : FillsBox J.I.G lo hi side
  suited : Suited J.I lo hi side
  symm : ∀ c i j, J.I.perm c i j = J.I.perm c j i
  posdef : ∀ c, Mimetic.PosDef (J.I.perm c)
  basis : ∀ c, Mimetic.OrthBasis (Mimetic.cmat (J.I.G.geo c)) (J.I.Q c)
  sort : ∀ l, (J.I.sort l).Perm l
  solver : ∀ s N, (∃ x, Hybrid.Solves s N x) → Hybrid.Solves s N (J.I.solver s N)
  gravity : J.I.gravity = 0

/-- The solvers inside the upscaler return one saturation per cell. -/
def Keeps (U : Upscaler K) (n : Nat) : Prop :=
  match U with
  | .implicit _ _ transport => ∀ it (s : List K) dt, s.length = n → (transport it s dt).2.length = n
  | .explicit _ _ solve => ∀ it (s : List K), s.length = n → (solve it s).length = n

/-- Sensible limits and viscosities; the solvers return one saturation per cell. -/
structure Valid (J : Job K) : Prop where
  relThresh : 0 < J.relThresh
  contrast : 1 ≤ J.contrast
  visc : ∀ ph, 0 < J.visc ph
  keeps : Keeps J.U J.I.G.nc

/-- Relative permeability of a phase in a cell: its mobility times its viscosity. -/
def relperm (J : Job K) (ph : Fin 2) (c : Nat) (s : K) : K := J.mob ph c s * J.visc ph

/-- The relative permeabilities of a phase at the saturations `sat` are between `a` and `b`. -/
def Between (J : Job K) (ph : Fin 2) (sat : List K) (a b : K) : Prop :=
  ∀ (c : Nat) s, sat[c]? = some s → a ≤ relperm J ph c s ∧ relperm J ph c s ≤ b

/-- The relative permeabilities of the two phases are not negative and add up to at most `u` in every cell. -/
def SumBelow (J : Job K) (sat : List K) (u : K) : Prop :=
  ∀ (c : Nat) s, sat[c]? = some s → 0 ≤ relperm J 0 c s ∧ 0 ≤ relperm J 1 c s ∧ relperm J 0 c s + relperm J 1 c s ≤ u

/-- Product of two tensors. -/
def prod (A B : Fin 3 → Fin 3 → K) (i j : Fin 3) : K := ∑ k, A i k * B k j

end Verif.SteadyChain
