import Verif.Model.Upscale

/-!
What an average is, said independently of the loops that compute it.
-/

namespace Verif.Spec

open Verif.Upscale

variable {K : Type} [Field K] [LinearOrder K]

/-- `m` is the average of `x` over `l` with weights `w`: the total weight is not zero, and `m` times the total weight is
the total of weight times value. -/
def IsMean {α : Type} (l : List α) (w x : α → K) (m : K) : Prop :=
  (l.map w).sum ≠ 0 ∧ m * (l.map w).sum = (l.map fun a => w a * x a).sum

/-- The boundary faces of the grid on side `side` (1..6: low x, high x, low y, high y, low z, high z). -/
def sideFaces (cells : List (GCell K)) (canon : Nat → Int) (side : Int) : List (GFace K) :=
  (cells.flatMap fun c => c.faces).filter fun f => f.boundary && decide (canon f.bid = side)

/-- All boundary faces carry one of the six canonical side numbers. -/
def SidesNumbered (cells : List (GCell K)) (canon : Nat → Int) : Prop :=
  ∀ c ∈ cells, ∀ f ∈ c.faces, f.boundary = true → 1 ≤ canon f.bid ∧ canon f.bid ≤ 6

/-- The grid is a box: faces on the low (high) side of direction `d` have outward normal `-e_d` (`e_d`), positive area
and centroid coordinate `lo d` (`hi d`); both sides have at least one face. -/
structure IsBox (cells : List (GCell K)) (canon : Nat → Int) (lo hi : Fin 3 → K) : Prop where
  low : ∀ d : Fin 3, ∀ f ∈ sideFaces cells canon (2 * (d.val : Int) + 1),
    f.normal = (fun i => if i = d then -1 else 0) ∧ 0 < f.area ∧ f.centroid d = lo d
  high : ∀ d : Fin 3, ∀ f ∈ sideFaces cells canon (2 * (d.val : Int) + 2),
    f.normal = (fun i => if i = d then 1 else 0) ∧ 0 < f.area ∧ f.centroid d = hi d
  lowNe : ∀ d : Fin 3, sideFaces cells canon (2 * (d.val : Int) + 1) ≠ []
  highNe : ∀ d : Fin 3, sideFaces cells canon (2 * (d.val : Int) + 2) ≠ []

end Verif.Spec
