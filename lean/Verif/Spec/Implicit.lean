import Verif.Model.Implicit

/-! Specification side of implicit transport: what the pieces should be, without reference to how they are computed. -/

namespace Verif.Implicit.Spec

variable {K : Type} [Field K]

/-- Water volume that flows over a face during `dt` for total flux `q`, driving force `G` (gravity and capillary), water mobility `mw` and oil mobility `mo`. -/
def waterVolume (dt q G mw mo : K) : K := dt * (mw / (mw + mo)) * (q + mo * G)

/-- Grid consistency: every face of a cell has that cell as one of its two, and the cells of a face are -1 or valid. -/
structure WellFormed (g : Grid) : Prop where
  mine : ∀ c f, c < g.nc → f ∈ g.cellFaces c → (g.faceCells f).1 = (c : Int) ∨ (g.faceCells f).2 = (c : Int)
  valid : ∀ f, (g.faceCells f).1 < g.nc ∧ (g.faceCells f).2 < g.nc

/-- Two distinct cells exist on both sides of the face. -/
def Interior (g : Grid) (f a b : Nat) : Prop := g.faceCells f = ((a : Int), (b : Int)) ∧ a < g.nc ∧ b < g.nc ∧ a ≠ b

/-- A grid without self-connections, in which every face between two cells is listed once by each of them and by no other. -/
structure Conforming (g : Grid) : Prop extends WellFormed g where
  distinct : ∀ f, 0 ≤ (g.faceCells f).1 → (g.faceCells f).1 ≠ (g.faceCells f).2
  both : ∀ f a b, Interior g f a b → ∀ c, c < g.nc → (g.cellFaces c).count f = if c = a ∨ c = b then 1 else 0

end Verif.Implicit.Spec
