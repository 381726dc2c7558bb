import Verif.Model.Hybrid
import Verif.Spec.Mimetic
import Mathlib.Data.Fintype.Sigma

/-! What C37 and C38 talk about: faces of cells, consistent boundary conditions, solutions. -/

namespace Verif.Hybrid

variable {K : Type} [Field K] {nc : Nat}

/-- A face of a cell: number of the cell and local face number. -/
abbrev Pos (cells : Fin nc → Cell K) : Type := (i : Fin nc) × Fin (cells i).nf

/-- Global number of a face. -/
def num (cells : Fin nc → Cell K) (p : Pos cells) : Nat := (cells p.1).dof p.2

/-- The kind of a face. -/
def kind (cells : Fin nc → Cell K) (p : Pos cells) : Ext K := (cells p.1).ext p.2

/-- Flux out of the cell through the face, as computed from face pressures `x`. -/
def outflux (cells : Fin nc → Cell K) (x : Nat → K) (p : Pos cells) : K := (cells p.1).flux x p.2

/-- The face pressures solve the system with `N` unknowns. -/
def Solves (s : Sys K) (N : Nat) (x : Nat → K) : Prop := ∀ d, d < N → ∑ e ∈ Finset.range N, s.S d e * x e = s.rhs d

/-- Numbering and boundary conditions fit together: face numbers are below `N`; a face with prescribed pressure is the only
one with its number; a periodic face is the only one with its number, its partner is another periodic face that has it as
partner, with the opposite pressure difference. -/
structure Consistent (cells : Fin nc → Cell K) (N : Nat) : Prop where
  num_lt : ∀ p, num cells p < N
  dirichlet : ∀ p v, kind cells p = .dirichlet v → ∀ q, num cells q = num cells p → q = p
  periodic : ∀ p d t, kind cells p = .periodic d t → t ≠ num cells p ∧
    (∀ q, num cells q = num cells p → q = p) ∧ ∃ q, num cells q = t ∧ kind cells q = .periodic (-d) (num cells p)

/-- Every cell has at least two faces and a symmetric, positive definite inverse inner product (see C36). -/
def Elliptic [LinearOrder K] (cells : Fin nc → Cell K) : Prop :=
  ∀ i, 2 ≤ (cells i).nf ∧ Mimetic.Symm (cells i).Binv ∧ Mimetic.PosDef (cells i).Binv

/-- Prescribed flux out of a face, zero if none is prescribed. -/
def prescribed : Ext K → K
  | .neumann q => q
  | _ => 0

/-- Some pressure is prescribed, or the sources add up to the prescribed boundary fluxes. -/
def Compatible (cells : Fin nc → Cell K) : Prop :=
  (∃ p v, kind cells p = .dirichlet v) ∨ ∑ i, (cells i).src = ∑ p : Pos cells, prescribed (kind cells p)

/-- Two faces are linked if one gets from one to the other over faces of the same cell, over the two sides of a face and over
periodic boundaries. -/
inductive Linked (cells : Fin nc → Cell K) : Pos cells → Pos cells → Prop where
  | refl (p : Pos cells) : Linked cells p p
  | cell {p : Pos cells} {i : Fin nc} {r : Fin (cells i).nf} (k : Fin (cells i).nf) : Linked cells p ⟨i, r⟩ → Linked cells p ⟨i, k⟩
  | face {p q r : Pos cells} : Linked cells p q → num cells q = num cells r → Linked cells p r
  | periodic {p q r : Pos cells} {v : K} : Linked cells p q → kind cells q = .periodic v (num cells r) → Linked cells p r

/-- Every unknown belongs to a face; every face is linked to a face with prescribed pressure or, if there is none at all, to the
face with number 0. -/
structure Anchored (cells : Fin nc → Cell K) (N : Nat) : Prop where
  face : ∀ d, d < N → ∃ p, num cells p = d
  link : ∀ p, (∃ q v, kind cells q = .dirichlet v ∧ Linked cells q p) ∨
    ((∀ q v, kind cells q ≠ .dirichlet v) ∧ ∃ q, num cells q = 0 ∧ Linked cells q p)

/-- Value of the bilinear form of the matrix of a system with `N` unknowns. -/
def Sys.form (s : Sys K) (N : Nat) (y x : Nat → K) : K := ∑ d ∈ Finset.range N, ∑ e ∈ Finset.range N, y d * s.S d e * x e

end Verif.Hybrid
