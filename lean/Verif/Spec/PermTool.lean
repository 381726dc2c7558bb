import Verif.Model.PermTool

/-!
Specification for `upscale_perm`: the state in which an upscaler should be for a computation with boundary conditions of a given type.
-/

namespace Verif.PermTool.Spec

open Verif.UInit

variable {K D : Type} [Field K]

/-- The members of the upscaler for conditions of type `t` (0 fixed, 1 linear, 2 periodic) with the options of the user. -/
def members (o : Opts K) (t : Int) : Base K :=
  ⟨t, false, o.tol, o.maxit, o.prolong, o.verb, o.solver, o.smooth, 0⟩

/-- The grid of deck `d` with or without periodic extension and cut, one id for each boundary face or for each side; the permeability threshold is
the one of the user, in SI units. -/
def setup (o : Opts K) (mD : K) (d : D) (ext clip ids : Bool) : Setup K D :=
  ⟨.deck d ext false clip, .deck d (o.minPerm * mD) none true 1 0, ids, (1 / 1000, 3 / 1000), (10139 / 10, 8347 / 10), (1 / 1000, 3 / 1000)⟩

/-- The upscaler for fixed conditions: no periodic extension, no cut, one id for each side. -/
def forFixed (o : Opts K) (mD : K) (d : D) : Upscaler K D := (members o 0, setup o mD d false false false)

/-- The upscaler for linear conditions: cut, one id for each boundary face. -/
def forLinear (o : Opts K) (mD : K) (d : D) : Upscaler K D := (members o 1, setup o mD d false true true)

/-- The upscaler for linear conditions on a grid that was not cut. -/
def forLinearUncut (o : Opts K) (mD : K) (d : D) : Upscaler K D := (members o 1, setup o mD d false false true)

/-- The upscaler for periodic conditions: extended, cut, one id for each boundary face. -/
def forPeriodic (o : Opts K) (mD : K) (d : D) : Upscaler K D := (members o 2, setup o mD d true true true)

/-- The tensor in millidarcy that the upscaler computes in a state. -/
def InMilliDarcy (e : Env K D) (u : Upscaler K D) (k : Tensor K) : Prop :=
  ∃ si, e.tensor u = some si ∧ ∀ i j, si i j = k i j * e.mD

end Verif.PermTool.Spec
