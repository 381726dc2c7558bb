import Verif.Model.ElasticTool

/-!
Specification of the set-up of `upscale_elasticity`: which preconditioner a name means, the extent of a uniform grid, the command lines of examples.
-/

namespace Verif.ElasticTool.Spec

open Verif.ElasticTool

/-- The type of preconditioner that a choice means, with a smoother. -/
def Means (s : Smoother) : Pre → Family → Prop
  | .amg, f => f = .amg1 s
  | .fastamg, f => f = .fastamg
  | .schwarz, f => f = .schwarz
  | .twolevel, f => f = .amg2 s
  | .undetermined, _ => False

/-- The extent of a grid of boxes that starts at the origin. -/
def extent {K : Type} [Field K] (cells : Fin 3 → Int) (size : Fin 3 → K) : (Fin 3 → K) × (Fin 3 → K) := (fun _ => 0, fun i => (cells i : K) * size i)

/-- A command line that names only the grid. -/
def only {K : Type} (file : String) : Group K := ⟨fun s => if s = "gridfilename" then some file else none, fun _ => none, fun _ => none, fun _ => none⟩

/-- A command line with one more word. -/
def _root_.Verif.ElasticTool.Group.withStr {K : Type} (g : Group K) (name value : String) : Group K := { g with str := fun s => if s = name then some value else g.str s }

/-- A command line with one more whole number. -/
def _root_.Verif.ElasticTool.Group.withInt {K : Type} (g : Group K) (name : String) (value : Int) : Group K := { g with int := fun s => if s = name then some value else g.int s }

/-- Two command lines that differ in one option only. -/
def SameBut {K : Type} (name : String) (g h : Group K) : Prop :=
  ∀ s, s ≠ name → g.str s = h.str s ∧ g.int s = h.int s ∧ g.num s = h.num s ∧ g.flag s = h.flag s

end Verif.ElasticTool.Spec
