import Verif.Model.Reservoir

/-!
Model of `Rock<3>` (`opm/porsol/common/Rock.hpp`, `opm/porsol/common/Rock_impl.hpp`) with its flat array of permeabilities and the views
of single cells which it hands out. `none` is a thrown exception, a failed assertion, an access outside of an array or through a view
that dangles. Only `dim = 3` (required by `init` from a deck). After an exception nothing is modelled.
-/

namespace Verif.RockStore

open Verif.Reservoir

variable {K : Type} [Field K] [LinearOrder K]

/-- `l[i] = v`. -/
def put (l : List K) (i : Nat) (v : K) : Option (List K) := if i < l.length then some (l.set i v) else none

/-- The data members (Rock.hpp:89-92). `epoch` counts the calls of `init`: they reallocate the array (`assign`), earlier views dangle. -/
structure Rock (K : Type) where
  porosity : List K
  perm : List K
  valid : List Bool
  kind : Kind
  epoch : Nat

/-- `SharedPermTensor` (Rock.hpp:44): the address of the first number of a cell, as position in the array of the given epoch. -/
structure View where
  epoch : Nat
  base : Nat

/-- The constructor (Rock_impl.hpp:36-40). -/
def Rock.fresh : Rock K := ⟨[], [], [], Kind.invalid, 0⟩

/-- `permeabilityModifiable` (Rock_impl.hpp:94-106): marks the cell as valid. -/
def Rock.modifiable (r : Rock K) (c : Nat) : Option (View × Rock K) :=
  if c < r.valid.length then some (⟨r.epoch, 3 * 3 * c⟩, { r with valid := r.valid.set c true }) else none

/-- Position of `K(i,j)`: `COrdering::idx` (Matrix.hpp:290-296). -/
def View.idx (v : View) (i j : Nat) : Option Nat := if i < 3 ∧ j < 3 then some (v.base + (i * 3 + j)) else none

/-- `K(i,j) = x` through a view. -/
def Rock.write (r : Rock K) (v : View) (i j : Nat) (x : K) : Option (Rock K) :=
  if v.epoch = r.epoch then (v.idx i j).bind fun p => (put r.perm p x).map fun l => { r with perm := l } else none

/-- `init` with uniform values (Rock_impl.hpp:58-72). -/
def Rock.initUniform (r : Rock K) (n : Nat) (poro perm : K) : Option (Rock K) :=
  (List.range n).foldlM (fun (r : Rock K) i => (r.modifiable i).bind fun w =>
      (List.range 3).foldlM (fun (r : Rock K) dd => r.write w.1 dd dd perm) w.2)
    { r with valid := List.replicate n true, porosity := List.replicate n poro, perm := List.replicate (3 * 3 * n) 0, epoch := r.epoch + 1 }

/-- `assignPorosity` (Rock_impl.hpp:117-130): the size of the field is not checked. -/
def assignPorosity (poro : Option (List K)) (globalCell : List Nat) : Option (List K) :=
  match poro with
  | none => some (List.replicate globalCell.length 1)
  | some l => globalCell.mapM fun g => l[g]?

/-- `kmap[kix]`. -/
def kmapAt (kmap : Fin 9 → Nat) (k : Nat) : Option Nat := if h : k < 9 then some (kmap ⟨k, h⟩) else none

/-- The row `i` of a cell (Rock_impl.hpp:167-171). -/
def rowLoop (kmap : Fin 9 → Nat) (tensor : List (List K)) (threshold : K) (glob off : Nat) (perm : List K) (i : Nat) : Option (List K) :=
  ((List.range 3).foldlM (fun (perm : List K) j =>
      (kmapAt kmap (3 * i + j)).bind fun m => (tensor[m]?).bind fun t => (t[glob]?).bind fun v => put perm (off + (i * 3 + j)) v) perm).bind
    fun perm => (perm[off + (i * 3 + i)]?).bind fun v => put perm (off + (i * 3 + i)) (if v < threshold then threshold else v)

/-- `assignPermeability` (Rock_impl.hpp:132-181) with `fillTensor`: the sizes of the fields are not checked. Result: kind, numbers and
validity flags. -/
def assignPerm (ncell : Nat) (d : Fin 9 → Option (List K)) (globalCell : List Nat) (threshold : K) :
    Option (Kind × List K × List Bool) :=
  if ncell = 0 then none
  else if classify (fun p => (d p).isSome) = Kind.invalid then none
  else
    let f := fill (List.replicate ncell 0) d
    let start := (List.replicate (3 * 3 * globalCell.length) 0, List.replicate globalCell.length false)
    (if f.2.length > 1 then
      (List.range globalCell.length).foldlM (fun (s : List K × List Bool) c => (globalCell[c]?).bind fun glob =>
        ((List.range 3).foldlM (rowLoop f.1 f.2 threshold glob (3 * 3 * c)) s.1).map fun perm => (perm, s.2.set c true)) start
    else some start).map fun s => (classify (fun p => (d p).isSome), s)

/-- `init` from a deck (Rock_impl.hpp:43-55). -/
def Rock.initDeck (r : Rock K) (d : Deck K) (globalCell : List Nat) (threshold : K) : Option (Rock K) :=
  (assignPorosity d.poro globalCell).bind fun porosity =>
  (assignPerm d.ncell d.perm globalCell threshold).map fun s => ⟨porosity, s.2.1, s.2.2, s.1, r.epoch + 1⟩

/-- `porosity(c)` (Rock_impl.hpp:75-79). -/
def Rock.porosityAt (r : Rock K) (c : Nat) : Option K := r.porosity[c]?

/-- `permeability(c)(i,j)` (Rock_impl.hpp:82-91) with its assertion. -/
def Rock.permeability (r : Rock K) (c i j : Nat) : Option K :=
  (r.valid[c]?).bind fun v => if v then ((View.mk r.epoch (3 * 3 * c)).idx i j).bind fun p => r.perm[p]? else none

/-- The calls of a user. Views are numbered in the order in which they are taken. -/
inductive Op (K : Type) where
  | deck (d : Deck K) (globalCell : List Nat) (threshold : K)
  | uniform (n : Nat) (poro perm : K)
  | view (c : Nat)
  | write (k i j : Nat) (x : K)

/-- A rock and the views taken so far. -/
structure World (K : Type) where
  rock : Rock K
  views : List View

/-- One call. -/
def World.step (w : World K) (o : Op K) : Option (World K) :=
  match o with
  | .deck d gc thr => (w.rock.initDeck d gc thr).map fun r => ⟨r, w.views⟩
  | .uniform n poro perm => (w.rock.initUniform n poro perm).map fun r => ⟨r, w.views⟩
  | .view c => (w.rock.modifiable c).map fun v => ⟨v.2, w.views ++ [v.1]⟩
  | .write k i j x => (w.views[k]?).bind fun v => (w.rock.write v i j x).map fun r => ⟨r, w.views⟩

/-- A history of calls on a new object. -/
def run (l : List (Op K)) : Option (World K) := l.foldlM World.step ⟨Rock.fresh, []⟩

end Verif.RockStore
