import Mathlib.Algebra.Order.Field.Basic
import Verif.Model.Dips

/-!
What the dip tool promises (C120).
-/

namespace Verif.Dips.Spec

variable {K : Type} [Field K] [LinearOrder K]

/-- A cell of the grid. -/
structure Cell where
  i : Nat
  j : Nat
  k : Nat
deriving DecidableEq

/-- `cells` are all cells of the grid with a volume above the limit, each once, columns fastest, then rows, then layers. -/
structure Large (G : Inspector K) (minVolume : K) (nx ny nz : Nat) (cells : List Cell) : Prop where
  mem : ∀ c, c ∈ cells ↔ (c.i < nx ∧ c.j < ny ∧ c.k < nz) ∧ minVolume < G.volume c.i c.j c.k
  order : cells.Pairwise fun a b => a.k < b.k ∨ (a.k = b.k ∧ (a.j < b.j ∨ (a.j = b.j ∧ a.i < b.i)))

end Verif.Dips.Spec
