import Verif.Spec.Euler

/-!
C141: what a pressure solution, fluids and boundary conditions have to be like for an explicit simulation to keep the saturations between 0 and 1.
-/

namespace Verif.SimRange

open Verif.Euler Verif.Euler.Spec

variable {K : Type} [Field K] [LinearOrder K]

/-- Viscous transport of two phases with scalar mobilities: unit normals; mobilities that are not negative and do not vanish together; a fractional flow that is
the water mobility over the total and that leaves 0 and reaches 1 with slopes of at most `1 / factor`; boundary saturations between 0 and 1; every connection
leads to another cell of the grid. -/
structure Physical (S : Setup K K) (factor : K) : Prop where
  ops : S.ops = scalarMob
  method : S.method = ⟨true, false, false⟩
  grav : S.rock.deltaRho = 0 ∨ S.gravity = 0
  normal : ∀ c, ∀ f ∈ facesOf S.grid c, inner f.normal f.normal = 1
  nonneg : ∀ p c s, 0 ≤ s → s ≤ 1 → 0 ≤ S.rock.mob p c s
  pos : ∀ c s, 0 ≤ s → s ≤ 1 → 0 < S.rock.mob false c s + S.rock.mob true c s
  frac : ∀ c s, S.rock.fracFlow c s = fw S c s
  low : ∀ c s, 0 ≤ s → s ≤ 1 → fw S c s ≤ s / factor
  up : ∀ c s, 0 ≤ s → s ≤ 1 → 1 - fw S c s ≤ (1 - s) / factor
  bc : ∀ bid s, S.bcs.cond bid = .dirichlet s → 0 ≤ s ∧ s ≤ 1
  conn : Connected S

/-- The fluxes are those of an incompressible flow: the two sides of a connection agree, and what leaves a cell through its faces is what is injected in it. -/
structure Balanced (S : Setup K K) : Prop where
  cons : Consistent S
  div : ∀ i < S.grid.length, ((facesOf S.grid i).map (·.flux)).sum = S.rate i

/-- Saturations between 0 and 1 in `n` cells. -/
def InUnit (n : Nat) (s : Nat → K) : Prop := ∀ i < n, 0 ≤ s i ∧ s i ≤ 1

/-- The explicit solver has been set up for its grid: it has been initialised, and its pore volumes are positive and those of the cells. -/
structure Ready (E : Solver K K) (poro : Nat → K) : Prop where
  cells : 0 < E.setup.grid.length
  iters : ∃ k, E.iters = itersAfter E.setup.grid.length (k + 1)
  porevol : E.porevol = E.setup.grid.zipIdx.map fun c => c.1.volume * poro c.2
  pos : ∀ p ∈ E.porevol, 0 < p

end Verif.SimRange
