import Verif.Model.RelPermOutput

/-!
Model of the headings of the table of `upscale_relperm` (`/repo/examples/upscale_relperm.cpp:864-937`).

A heading is the list of its characters without the blanks around it. Lines that start with `#` before the headings are left out.
-/

namespace Verif.RelPermOut

/-- `"Kr" << phase << component`. -/
def krName (phase : List Char) (c : List Char) : List Char := ['K', 'r'] ++ phase ++ c

/-- The components printed with fixed boundary conditions (upscale_relperm.cpp:880-886, 917-921). -/
def fixedComponents : List (List Char) := [['x', 'x'], ['y', 'y'], ['z', 'z']]

/-- The components printed with periodic or linear boundary conditions (upscale_relperm.cpp:889-911, 925-935). -/
def fullComponents : List (List Char) :=
  [['x', 'x'], ['y', 'y'], ['z', 'z'], ['y', 'z'], ['x', 'z'], ['x', 'y'], ['z', 'y'], ['z', 'x'], ['y', 'x']]

/-- The line of headings (upscale_relperm.cpp:864-937): `fixed` tells the boundary conditions, `water` the fluid system; the name of the saturation is the
one of RelPermUtils.cpp:220-225. -/
def headings (both water fixed : Bool) : List (List Char) :=
  let phase1 := if water then ['w'] else ['g']
  let phase2 := ['o']
  let comps := if fixed then fixedComponents else fullComponents
  [['P', 'c', ' ', '(', 'P', 'a', ')'], if water then ['S', 'w'] else ['S', 'g']] ++
    (if both then comps.map (krName phase1) ++ comps.map (krName phase2) else comps.map (krName []))

end Verif.RelPermOut
