import Mathlib.Analysis.SpecialFunctions.Trigonometric.Deriv
import Mathlib.Analysis.SpecialFunctions.Trigonometric.Basic
import Verif.Model.Reservoir
import Verif.Model.FracFlow

/-!
Model of `examples/known_answer_test.cpp`: the pressure problem that the program poses, the comparison of the pressures with the known solution, and what
the program returns. The pressure solver itself is the subject of other modules; here it is a parameter. `double` is `ℝ`, `pi` is `Real.pi`.
-/

namespace Verif.KnownAnswer

open Verif.FracFlow

/-- `u` (known_answer_test.cpp:79-83). -/
noncomputable def u (x : Fin 3 → ℝ) : ℝ := Real.sin (2 * Real.pi * x 0) * Real.cos (2 * Real.pi * x 1) * x 2

/-- `Lu` (known_answer_test.cpp:85-89). -/
noncomputable def Lu (x : Fin 3 → ℝ) : ℝ :=
  -2 * 2 * Real.pi * 2 * Real.pi * Real.sin (2 * Real.pi * x 0) * Real.cos (2 * Real.pi * x 1) * x 2

/-- What the loops read of a cell. -/
structure Cell where
  centroid : Fin 3 → ℝ
  volume : ℝ

/-- A condition on a boundary face. -/
inductive Cond where
  | dirichlet (p : ℝ)
  | neumann (q : ℝ)

/-- `FunctionBoundaryConditions::flowCond` (known_answer_test.cpp:105-110) with `u` (known_answer_test.cpp:190). -/
noncomputable def flowCond (centroid : Fin 3 → ℝ) : Cond := .dirichlet (u centroid)

/-- `assign_src` (known_answer_test.cpp:118-127): sources in the order of the iteration. -/
noncomputable def assignSrc (cells : List Cell) : List ℝ := cells.map fun c => -Lu c.centroid * c.volume

/-- The data of the pressure equation: permeability tensors of the cells, total mobility, gravity, sources and conditions. -/
structure Problem where
  perm : Nat → Option (List ℝ)
  mob : ℝ
  gravity : Fin 3 → ℝ
  src : List ℝ
  bc : (Fin 3 → ℝ) → Cond

/-- The total mobility for quadratic relative permeabilities. -/
noncomputable def totalMobility (visc1 visc2 s : ℝ) : ℝ := mobility (quadRelPerm false) visc1 s + mobility (quadRelPerm true) visc2 s

/-- The problem that `main` and `test_flowsolver` pose (known_answer_test.cpp:190-211, 255-257): permeability and viscosities are one, saturations are
zero, there is no gravity. -/
noncomputable def problem (cells : List Cell) : Problem :=
  ⟨(Reservoir.State.fresh.initUniform cells.length 1 1).permeability, totalMobility 1 1 0, fun _ => 0, assignSrc cells, flowCond⟩

/-- The sums of `compare_pressure`. -/
structure Sums where
  l1 : ℝ
  l2 : ℝ
  linf : ℝ
  vol : ℝ

/-- One pass of the loop (known_answer_test.cpp:160-171). -/
noncomputable def step (s : Sums) (c : Cell) (p : ℝ) : Sums :=
  let diff := u c.centroid - p
  ⟨s.l1 + |diff * c.volume|, s.l2 + diff * diff * c.volume, max |diff| s.linf, s.vol + c.volume⟩

/-- The loop; `none` is an access out of range. -/
noncomputable def sums : Sums → List Cell → List ℝ → Option Sums
  | s, [], _ => some s
  | _, _ :: _, [] => none
  | s, c :: cells, p :: ps => sums (step s c p) cells ps

/-- `compare_pressure` (known_answer_test.cpp:149-178): the three numbers that are printed; `none` is an access out of range or a division by zero. -/
noncomputable def comparePressure (cells : List Cell) (p : List ℝ) : Option (ℝ × ℝ × ℝ) :=
  match sums ⟨0, 0, 0, 0⟩ cells p with
  | none => none
  | some s => if s.vol = 0 then none else some (s.l1 / s.vol, Real.sqrt s.l2 / s.vol, s.linf)

/-- How the program ends: exit code and the numbers printed, or an exception that leaves `main`. -/
inductive Ending where
  | exit (code : Nat) (printed : Option (ℝ × ℝ × ℝ))
  | terminate

/-- `main` (known_answer_test.cpp:237-268): `solver` gives the cell pressures, or throws; the exception is thrown again. -/
noncomputable def main (solver : Problem → Option (List ℝ)) (cells : List Cell) : Ending :=
  match solver (problem cells) with
  | none => .terminate
  | some p => .exit 0 (comparePressure cells p)

end Verif.KnownAnswer
