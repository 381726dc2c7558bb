import Verif.Model.Hybrid

/-! What the second half of C38 talks about: which faces of which cells form pairs. -/

namespace Verif.Hybrid

variable {K : Type}

/-- Partner of a face number; no periodic boundary conditions: no partner. -/
def partnerOf (pp : Option (Nat → Option Nat)) (f : Nat) : Option Nat := pp.bind fun p => p f

/-- The two entries are the two sides of an interior face, or periodic partners. -/
def Twins (pp : Option (Nat → Option Nat)) (a b : Entry K) : Prop :=
  (a.boundary = false ∧ b.boundary = false ∧ a.f = b.f) ∨
    (a.boundary = true ∧ b.boundary = true ∧ partnerOf pp a.f = some b.f ∧ partnerOf pp b.f = some a.f)

/-- A sane list of faces of all cells: an interior face number occurs on exactly two entries, both interior; a boundary face
with a partner is the only one with its number, and the partner is another boundary face whose partner it is. -/
structure Paired (pp : Option (Nat → Option Nat)) (es : List (Entry K)) : Prop where
  interior : ∀ (i : Nat) (e : Entry K), es[i]? = some e → e.boundary = false →
    ∃ (j : Nat) (e' : Entry K), j ≠ i ∧ es[j]? = some e' ∧ e'.boundary = false ∧ e'.f = e.f ∧
      ∀ (k : Nat) (e'' : Entry K), es[k]? = some e'' → e''.f = e.f → k = i ∨ k = j
  periodic : ∀ (i : Nat) (e : Entry K) (q : Nat), es[i]? = some e → e.boundary = true → partnerOf pp e.f = some q →
    q ≠ e.f ∧ (∀ (k : Nat) (e'' : Entry K), es[k]? = some e'' → e''.f = e.f → k = i) ∧
      ∃ (j : Nat) (e' : Entry K), es[j]? = some e' ∧ e'.f = q ∧ e'.boundary = true ∧ partnerOf pp q = some e.f

end Verif.Hybrid
