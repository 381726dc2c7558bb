import Verif.Model.ImplicitSetup

/-! What C104 asks of the grid and of the boundary conditions. -/

namespace Verif.ImplicitSetup.Spec

open Verif.Implicit

variable {K : Type}

/-- Face `l` of cell `c` is a boundary face with these conditions. -/
def Boundary (nc : Nat) (cells : Nat → List (EFace K)) (c l : Nat) (b : Bnd K) : Prop :=
  c < nc ∧ ∃ f, (cells c)[l]? = some f ∧ f.bnd = some b

/-- The two descriptions of the grid agree: cells have the same number of faces in both, two faces are the same in one if they are in the other,
and a boundary face has its cell on one side and nothing on the other. A cell lists no face twice. -/
structure Agree (g : Grid) (cells : Nat → List (EFace K)) : Prop where
  counts : ∀ c < g.nc, (cells c).length = (g.cellFaces c).length
  same : ∀ (c l c' l' x x' : Nat) (f f' : EFace K), c < g.nc → c' < g.nc → (cells c)[l]? = some f → (cells c')[l']? = some f' →
    (g.cellFaces c)[l]? = some x → (g.cellFaces c')[l']? = some x' → (f.idx = f'.idx ↔ x = x')
  small : ∀ (c l x : Nat) (f : EFace K), c < g.nc → (cells c)[l]? = some f → (g.cellFaces c)[l]? = some x → f.idx < g.nf ∧ x < g.nf
  outer : ∀ (c l x : Nat) (b : Bnd K), Boundary g.nc cells c l b → (g.cellFaces c)[l]? = some x →
    g.faceCells x = ((c : Int), -1) ∨ g.faceCells x = (-1, (c : Int))
  nodup : ∀ c < g.nc, (g.cellFaces c).Nodup
  mine : ∀ c < g.nc, ∀ x ∈ g.cellFaces c, (g.faceCells x).1 = (c : Int) ∨ (g.faceCells x).2 = (c : Int)

/-- Periodic faces have unique identifiers; the partner of a periodic face is periodic, points back, and belongs to another cell. -/
structure Paired (nc : Nat) (cells : Nat → List (EFace K)) : Prop where
  unique : ∀ (c l c' l' : Nat) (b b' : Bnd K), Boundary nc cells c l b → Boundary nc cells c' l' b' → b.periodic → b'.periodic → b.bid = b'.bid →
    c = c' ∧ l = l'
  partner : ∀ (c l : Nat) (b : Bnd K), Boundary nc cells c l b → b.periodic →
    ∃ c' l' b', Boundary nc cells c' l' b' ∧ b'.periodic ∧ b'.bid = b.partner ∧ b'.partner = b.bid ∧ c' ≠ c

/-- The faces `(c, l)` and `(c', l')` are periodic partners. -/
def Partners (nc : Nat) (cells : Nat → List (EFace K)) (c l c' l' : Nat) : Prop :=
  ∃ b b', Boundary nc cells c l b ∧ Boundary nc cells c' l' b' ∧ b.periodic ∧ b'.periodic ∧ b'.bid = b.partner

/-- A boundary face through which something may flow: not periodic and not closed. -/
def Open [Zero K] (nc : Nat) (cells : Nat → List (EFace K)) (c l : Nat) (s : K) : Prop :=
  ∃ b, Boundary nc cells c l b ∧ b.periodic = false ∧ b.neumann ≠ some 0 ∧ b.sat = s

end Verif.ImplicitSetup.Spec
