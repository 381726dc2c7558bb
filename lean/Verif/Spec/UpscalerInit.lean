import Verif.Model.UpscalerInit

/-!
Specification for the initialisation of an upscaler: what support of the grid each type of boundary condition needs, and when the user has left the
choice of that support to the program.
-/

namespace Verif.UInit.Spec

variable {K D : Type}

/-- The grid support that goes with boundary conditions of type `t` (0 fixed, 1 linear, 2 periodic): linear and periodic conditions need one boundary
id for each face and a top and bottom that are cut to planes; periodic conditions also need faces on both sides to match. Fixed ones need none of it. -/
def Supports (t : Int) (d : D) (s : Setup K D) : Prop :=
  ∃ ext turn clip, s.grid = .deck d ext turn clip ∧ (ext = true ↔ t = 2) ∧ (clip = true ↔ t = 1 ∨ t = 2) ∧ (s.uniqueIds = true ↔ t = 1 ∨ t = 2)

/-- The user asks for type `t` on the grid of deck `d`. -/
structure Asks (parse : String → Option D) (p : Params K) (t : Int) (d : D) : Prop where
  type : p.bct = some t
  format : p.format = some "eclipse"
  file : ∃ f, p.file = some f ∧ parse f = some d
  noEcl : p.ecl ≠ some true

/-- The user says nothing about the support of the grid. -/
structure Silent (p : Params K) : Prop where
  unique : p.unique = none
  clip : p.clip = none
  extend : p.extend = none

/-- The user says nothing about the remaining choices that `init` from a deck does not offer. -/
structure Plain (p : Params K) : Prop where
  turn : p.turn = none
  rocks : p.rocks = none
  useJ : p.useJ = none
  sigma : p.sigma = none
  theta : p.theta = none
  visc1 : p.visc1 = none
  visc2 : p.visc2 = none

end Verif.UInit.Spec
