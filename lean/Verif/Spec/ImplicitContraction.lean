import Verif.Spec.ImplicitStep
import Mathlib.Algebra.Order.Group.Abs

/-!
Specification for comparing implicit transport steps: how much two states differ, and how precise a step is.
-/

namespace Verif.ImplicitStep.Spec

variable {K : Type} [Field K] [LinearOrder K]

/-- In every cell water is not less and oil not more mobile with more water, and the capillary pressure is not higher; no transmissibility is negative. Different cells may have different rocks. -/
structure Ordered (M : Medium K) : Prop where
  more : ∀ c a b, c < M.grid.nc → M.smin c ≤ a → a ≤ b → b ≤ M.smax c → (M.mob c a).1 ≤ (M.mob c b).1 ∧ (M.mob c b).2 ≤ (M.mob c a).2 ∧ M.pc c b ≤ M.pc c a
  trans : ∀ f, 0 ≤ M.trans f

/-- Water that `s` has more than `s'`, counted only in the cells in which it has more. -/
def excess (M : Medium K) (s s' : List K) : K := ∑ c ∈ Finset.range M.grid.nc, M.porevol c * max (s.getD c 0 - s'.getD c 0) 0

/-- Water by which the two states differ. -/
def distance (M : Medium K) (s s' : List K) : K := ∑ c ∈ Finset.range M.grid.nc, M.porevol c * |s.getD c 0 - s'.getD c 0|

/-- A step from `s` that reports `flag` has met the absolute (flag 1) or relative tolerance (flag 2), which means residuals of at most `ε`. -/
def Precise (M : Medium K) (c : Newton.Ctrl K) (dt : K) (s : List K) (flag : Int) (ε : K) : Prop :=
  (flag = 1 ∧ ε = c.atol) ∨ (flag = 2 ∧ ∀ w, Flows M dt s w → ∀ k, k < M.grid.nc → c.rtol * |imbalance M dt 0 s w k| ≤ ε)

/-- No balance at the state `s` is beyond what the Newton driver takes as initial residual (1e99 in the code). -/
def Moderate (M : Medium K) (big dt : K) (s : List K) : Prop := ∀ w, Flows M dt s w → ∀ k, k < M.grid.nc → |imbalance M dt 0 s w k| ≤ big

end Verif.ImplicitStep.Spec
