import Verif.Spec.Euler

/-! What C106 talks about: the gravity flux through a face, its sums over a cell, and connections seen alike from both sides. -/

namespace Verif.Euler.Spec

open Verif.Euler
open scoped BigOperators

variable {K M : Type} [Field K] [LinearOrder K]

/-- Mean of the permeabilities of the two cells of a face (of the cell itself at an outer face). -/
def meanPerm (S : Setup K M) (c : Nat) (f : Face K) (k l : Fin 3) : K :=
  (S.rock.perm c k l + S.rock.perm ((neighbour S f).getD c) k l) / 2

/-- Gravity flux out of cell `c` through `f`: area times normal times `Δρ K g`, with the mean permeability. -/
def gravityFlux (S : Setup K M) (c : Nat) (f : Face K) : K :=
  f.area * ∑ k, f.normal k * (S.rock.deltaRho * ∑ l, meanPerm S c f k l * S.gravity l)

/-- Sums of the gravity fluxes out of and into a cell. -/
def gravityOut (S : Setup K M) (c : Nat) : K :=
  (((facesOf S.grid c).filter fun f => 0 < gravityFlux S c f).map (gravityFlux S c)).sum
def gravityIn (S : Setup K M) (c : Nat) : K :=
  (((facesOf S.grid c).filter fun f => ¬ 0 < gravityFlux S c f).map fun f => - gravityFlux S c f).sum

/-- A connection from `i` to a lower-numbered cell: that cell, total flux and gravity flux from it into `i`. -/
def lowerConnG (S : Setup K M) (i : Nat) (f : Face K) : Option (Nat × K × K) :=
  match neighbour S f with
  | some j => if j < i then some (j, - f.flux, - gravityFlux S i f) else none
  | none => none

/-- Both sides of every connection see it, with opposite total and gravity fluxes. -/
def ConsistentG (S : Setup K M) : Prop :=
  ∀ i < S.grid.length,
    ((List.range i).flatMap fun c =>
        ((facesOf S.grid c).filter fun f => neighbour S f = some i).map fun f => (c, f.flux, gravityFlux S c f)).Perm
      ((facesOf S.grid i).filterMap (lowerConnG S i))

/-- Viscous and gravity transport with scalar mobilities on faces with unit normals; no capillarity and no sources. -/
structure WithGravity (S : Setup K K) : Prop where
  ops : S.ops = scalarMob
  method : S.method = ⟨true, true, false⟩
  normal : ∀ c, ∀ f ∈ facesOf S.grid c, ∑ k, f.normal k * f.normal k = 1
  source : ∀ c, S.rate c = 0

/-- The total flux of a connection is not directed towards its lower-numbered cell, and no outer face with a flux has gravity along its normal. -/
def Oriented (S : Setup K M) : Prop :=
  ∀ c < S.grid.length, ∀ f ∈ facesOf S.grid c,
    match neighbour S f with
    | some j => c < j → 0 ≤ f.flux
    | none => f.flux = 0 ∨ gravityFlux S c f = 0

/-- The same permeability on both sides of periodic faces. -/
def PeriodicPerm (S : Setup K M) : Prop :=
  ∀ c < S.grid.length, ∀ f ∈ facesOf S.grid c, ∀ bid, f.kind = .boundary bid → ∀ j, neighbour S f = some j →
    S.rock.perm j = S.rock.perm c

end Verif.Euler.Spec
