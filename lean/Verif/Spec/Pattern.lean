import Verif.Model.Pattern

/-! What C103 asks of a numbering of faces and of periodic boundary conditions, and what a cell must know. -/

namespace Verif.Pattern.Spec

open Verif.Hybrid

/-- The face numbers lie below `n`; boundary identifiers of periodic faces are unique and partners are mutual and different; a periodic face
exists, its number occurs in no other place of the table, and it has one boundary condition only. -/
structure Good (n : Nat) (cf : List (List Nat)) (per : List PFace) : Prop where
  lt : ∀ row ∈ cf, ∀ f ∈ row, f < n
  bids : (per.map PFace.bid).Nodup
  back : ∀ f ∈ per, ∃ g ∈ per, g.bid = f.partner ∧ g.partner = f.bid ∧ g.bid ≠ f.bid
  inside : ∀ f ∈ per, ∃ row d, cf[f.cell]? = some row ∧ row[f.loc]? = some d
  once : ∀ f ∈ per, ∀ (d : Nat) (row row' : List Nat) (c k : Nat), cf[f.cell]? = some row → row[f.loc]? = some d → cf[c]? = some row' →
    row'[k]? = some d → c = f.cell ∧ k = f.loc
  places : (per.map fun f => (f.cell, f.loc)).Nodup

variable {K : Type} [Field K]

/-- Cells that belong to the numbering: the faces of cell `i` are row `i`, and a face is periodic with partner `q` exactly if the boundary
conditions say so. -/
structure Belongs {nc : Nat} (cells : Fin nc → Cell K) (cf : List (List Nat)) (per : List PFace) : Prop where
  len : cf.length = nc
  rows : ∀ i : Fin nc, cf[i.val]? = some (List.ofFn (cells i).dof)
  periodic : ∀ (i : Fin nc) (k : Fin (cells i).nf) (d : K) (q : Nat), (cells i).ext k = .periodic d q →
    ∃ f ∈ per, ∃ g ∈ per, f.cell = i.val ∧ f.loc = k.val ∧ g.bid = f.partner ∧ ∃ row, cf[g.cell]? = some row ∧ row[g.loc]? = some q
  complete : ∀ f ∈ per, ∃ (i : Fin nc) (k : Fin (cells i).nf) (d : K) (q : Nat), f.cell = i.val ∧ f.loc = k.val ∧ (cells i).ext k = .periodic d q

end Verif.Pattern.Spec
