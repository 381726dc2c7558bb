import Verif.Model.Euler
import Mathlib.Algebra.BigOperators.Fin

/-!
Specifications for explicit transport, independent of how the residual loop is organised.
-/

namespace Verif.Euler.Spec

open Verif.Euler
open scoped BigOperators

variable {K M : Type} [Field K] [LinearOrder K]

/-- Water volume in the grid: sum of pore volume times saturation over the cells `0, …, n-1`. -/
def waterVolume (n : Nat) (pv : List K) (s : Nat → K) : K := ∑ i ∈ Finset.range n, pv.getD i 0 * s i

/-- The faces of cell `c`. -/
def facesOf (g : Grid K) (c : Nat) : List (Face K) :=
  match g[c]? with
  | some cell => cell.faces
  | none => []

/-- The cell on the other side of a face, if there is one: the neighbour of an interior face, the cell owning the
partner face of a periodic boundary face, and nothing for a Dirichlet face. The periodic face with a given id is the last one
carrying it. -/
def neighbour (S : Setup K M) (f : Face K) : Option Nat :=
  match f.kind with
  | .interior nb => some nb
  | .boundary bid =>
    match S.bcs.cond bid with
    | .periodic => ((bidToFace S.grid S.bcs (S.bcs.partner bid)).map (·.1))
    | .dirichlet _ => none

/-- The saturation seen through a face. -/
def outsideSat (S : Setup K M) (sat : Nat → K) (f : Face K) : K :=
  match f.kind with
  | .interior nb => sat nb
  | .boundary bid =>
    match S.bcs.cond bid with
    | .periodic =>
      match bidToFace S.grid S.bcs (S.bcs.partner bid) with
      | some e => sat e.1
      | none => 0
    | .dirichlet s => s

/-- The face on the other side (the face itself unless periodic). -/
def outsideFace (S : Setup K M) (f : Face K) : Face K :=
  match f.kind with
  | .interior _ => f
  | .boundary bid =>
    match S.bcs.cond bid with
    | .periodic =>
      match bidToFace S.grid S.bcs (S.bcs.partner bid) with
      | some e => e.2.2
      | none => f
    | .dirichlet _ => f

/-- The water flux out of cell `c` through its face `f`, given by the numerical flux function of the scheme. -/
def outFlux (S : Setup K M) (sat : Nat → K) (c : Nat) (f : Face K) : K :=
  match waterFlux S sat c f ⟨(neighbour S f).getD c, outsideSat S sat f, outsideFace S f⟩ with
  | .ok q => q
  | .error _ => 0

/-- Net water inflow through the outer (Dirichlet) boundary. -/
def boundaryInflow (S : Setup K M) (sat : Nat → K) : K :=
  - ∑ c ∈ Finset.range S.grid.length,
      (((facesOf S.grid c).filter fun f => (neighbour S f).isNone).map (outFlux S sat c)).sum

/-- Water injected minus produced by the sources: production takes water with the fractional flow of the cell. -/
def sources (S : Setup K M) (sat : Nat → K) : K :=
  ∑ c ∈ Finset.range S.grid.length,
    (if S.rate c < 0 then S.rate c * S.rock.fracFlow c (sat c) else S.rate c)

/-- Net rate at which water enters cell `i`: its source, minus what leaves it through its Dirichlet faces and the faces to
higher-numbered neighbours, plus what lower-numbered neighbours send it. -/
def netInflow (S : Setup K M) (sat : Nat → K) (i : Nat) : K :=
  (if S.rate i < 0 then S.rate i * S.rock.fracFlow i (sat i) else S.rate i)
  - (((facesOf S.grid i).filter fun f => (neighbour S f).isNone).map (outFlux S sat i)).sum
  - (((facesOf S.grid i).filter fun f => (neighbour S f).any (fun j => decide (i < j))).map (outFlux S sat i)).sum
  + ∑ c ∈ Finset.range i, (((facesOf S.grid c).filter fun f => neighbour S f = some i).map (outFlux S sat c)).sum

/-- Total outflow and total inflow of a cell in the given flux field. -/
def totalOut (g : Grid K) (c : Nat) : K := (((facesOf g c).filter fun f => 0 < f.flux).map (·.flux)).sum
def totalIn (g : Grid K) (c : Nat) : K := (((facesOf g c).filter fun f => ¬ 0 < f.flux).map (fun f => - f.flux)).sum

/-- A connection from `i` to a lower-numbered cell: that cell and the flux from it into `i`. -/
def lowerConn (S : Setup K M) (i : Nat) (f : Face K) : Option (Nat × K) :=
  match neighbour S f with
  | some j => if j < i then some (j, - f.flux) else none
  | none => none

/-- Both sides of every connection see it, with opposite fluxes: what lower-numbered cells list as connections to `i`
is what `i` lists as connections to them. -/
def Consistent (S : Setup K M) : Prop :=
  ∀ i < S.grid.length,
    ((List.range i).flatMap fun c =>
        ((facesOf S.grid c).filter fun f => neighbour S f = some i).map fun f => (c, f.flux)).Perm
      ((facesOf S.grid i).filterMap (lowerConn S i))

/-- Every connection leads to an existing, different cell. -/
def Connected (S : Setup K M) : Prop :=
  ∀ c < S.grid.length, ∀ f ∈ facesOf S.grid c,
    match f.kind with
    | .interior nb => nb ≠ c ∧ nb < S.grid.length
    | .boundary bid =>
      match S.bcs.cond bid with
      | .periodic => ∃ e, bidToFace S.grid S.bcs (S.bcs.partner bid) = some e ∧ e.1 ≠ c ∧ e.1 < S.grid.length
      | .dirichlet _ => True

/-- Fractional flow of water in a cell for scalar mobilities. -/
def fw (S : Setup K K) (c : Nat) (s : K) : K := S.rock.mob false c s / (S.rock.mob false c s + S.rock.mob true c s)

end Verif.Euler.Spec
