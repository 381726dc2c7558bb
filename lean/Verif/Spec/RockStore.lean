import Verif.Model.RockStore
import Verif.Spec.Reservoir

/-!
What a user sees of a rock: a number of cells, a porosity and a tensor for each of them, whether the tensor may be read, and which cell
each view shows (none once the rock has been initialized again).
-/

namespace Verif.RockStore.Spec

open Verif.Reservoir Verif.RockStore

variable {K : Type} [Field K] [LinearOrder K]

structure Store (K : Type) where
  cells : Nat
  poro : Nat → K
  known : Nat → Prop
  tens : Nat → Nat → Nat → K
  views : List (Option Nat)

def Store.empty : Store K := ⟨0, fun _ => 0, fun _ => False, fun _ _ _ => 0, []⟩

/-- Number of the component in row `i`, column `j`. -/
def comp (i j : Nat) : Fin 9 := if h : 3 * i + j < 9 then ⟨3 * i + j, h⟩ else 0

/-- The array which gives the number in row `i`, column `j`, if any. -/
noncomputable def source (d : Fin 9 → Option (List K)) (i j : Nat) : Option (List K) :=
  (sourceOf (fun p => (d p).isSome) (comp i j)).bind d

/-- Some permeability is given. -/
def Given (d : Fin 9 → Option (List K)) : Prop := ∃ p, (d p).isSome = true

/-- The decks that are accepted: a grid with cells, an admissible set of components, arrays long enough for the cells that are used. -/
def Accepts (d : Deck K) (gc : List Nat) : Prop :=
  d.ncell ≠ 0 ∧ (Admissible fun p => (d.perm p).isSome) ∧ (∀ l, d.poro = some l → ∀ g ∈ gc, g < l.length) ∧
  (Given d.perm → ∀ i j : Nat, i < 3 → j < 3 → ∀ g ∈ gc, g < ((source d.perm i j).elim d.ncell List.length))

/-- Number in row `i`, column `j` of global cell `g`. -/
noncomputable def tensor (d : Deck K) (thr : K) (g i j : Nat) : K :=
  let v := (source d.perm i j).elim 0 fun l => l.getD g 0
  if i = j then max v thr else v

open Classical in
noncomputable def Store.step (s : Store K) : Op K → Option (Store K)
  | .deck d gc thr =>
    if Accepts d gc then some
      { cells := gc.length
        poro := fun c => d.poro.elim 1 fun l => l.getD (gc.getD c 0) 0
        known := fun _ => Given d.perm
        tens := fun c i j => if Given d.perm then tensor d thr (gc.getD c 0) i j else 0
        views := s.views.map fun _ => none }
    else none
  | .uniform n poro perm => some
      { cells := n
        poro := fun _ => poro
        known := fun _ => True
        tens := fun _ i j => if i = j then perm else 0
        views := s.views.map fun _ => none }
  | .view c => if c < s.cells then some { s with known := fun c' => c' = c ∨ s.known c', views := s.views ++ [some c] } else none
  | .write k i j x =>
    match s.views[k]? with
    | some (some c) =>
      if i < 3 ∧ j < 3 then some { s with tens := fun c' i' j' => if c' = c ∧ i' = i ∧ j' = j then x else s.tens c' i' j' } else none
    | _ => none

/-- A history of calls. -/
noncomputable def run (l : List (Op K)) : Option (Store K) := l.foldlM Store.step Store.empty

end Verif.RockStore.Spec
