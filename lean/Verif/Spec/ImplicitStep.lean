import Verif.Model.ImplicitStep
import Verif.Spec.Implicit
import Mathlib.Algebra.BigOperators.Group.Finset.Basic

/-!
Specification for an implicit transport step: what water volumes flow over faces and out of sources at given saturations, and what a balance is.
-/

namespace Verif.ImplicitStep.Spec

open Verif.Implicit.Spec (WellFormed Interior waterVolume)

variable {K : Type} [Field K] [LinearOrder K]

/-- A sensible medium: a consistent grid without connections of a cell to itself, limits in order, within them mobilities that are not negative and do not vanish together, pore volumes that are not negative, sources in
cells of the grid. Over a face without total flux, capillary forces never pull water out of the second cell when that has no mobile water and the first has no mobile oil. -/
structure Sound (M : Medium K) : Prop where
  grid : WellFormed M.grid
  distinct : ∀ f, 0 ≤ (M.grid.faceCells f).1 → (M.grid.faceCells f).1 ≠ (M.grid.faceCells f).2
  limits : ∀ c, M.smin c ≤ M.smax c
  mob : ∀ c s, M.smin c ≤ s → s ≤ M.smax c → 0 ≤ (M.mob c s).1 ∧ 0 ≤ (M.mob c s).2 ∧ 0 < (M.mob c s).1 + (M.mob c s).2
  porevol : ∀ c, 0 ≤ M.porevol c
  src : ∀ q ∈ M.src, q.1 < M.grid.nc
  tol : 0 ≤ M.tol
  still : ∀ f a b, Interior M.grid f a b → M.faceflux f = 0 → ∀ sa sb, M.smin a ≤ sa → sa ≤ M.smax a → M.smin b ≤ sb → sb ≤ M.smax b →
    (M.mob a sa).2 = 0 → (M.mob b sb).1 = 0 → 0 ≤ M.trans f * (M.pc b sb - M.pc a sa)

/-- One saturation per cell, within the limits of the cell. -/
structure Within (M : Medium K) (s : List K) : Prop where
  length : s.length = M.grid.nc
  limits : ∀ c, c < M.grid.nc → M.smin c ≤ s.getD c 0 ∧ s.getD c 0 ≤ M.smax c

/-- `w` are the water volumes that flow during `dt` over the faces, from the first to the second cell, at the saturations `v`: those of the total flux and the difference of capillary
pressures, with mobilities from the side each phase comes from. -/
def Flows (M : Medium K) (dt : K) (v : List K) (w : Nat → K) : Prop :=
  ∀ f a b, Interior M.grid f a b → ∃ cw co, (cw = a ∨ cw = b) ∧ (co = a ∨ co = b) ∧
    let q := M.faceflux f
    let G := M.trans f * (M.pc b (v.getD b 0) - M.pc a (v.getD a 0))
    let mw := (M.mob cw (v.getD cw 0)).1
    let mo := (M.mob co (v.getD co 0)).2
    0 < mw + mo ∧ w f = waterVolume dt q G mw mo ∧
    (cw = a → 0 ≤ q + mo * G) ∧ (cw = b → q + mo * G ≤ 0) ∧ (co = a → 0 ≤ q - mw * G) ∧ (co = b → q - mw * G ≤ 0)

/-- Fraction of the water in the flow of a cell. -/
def fraction (M : Medium K) (c : Nat) (s : K) : K := (M.mob c s).1 / ((M.mob c s).1 + (M.mob c s).2)

/-- Water volume that leaves the reservoir during `dt` by a source `(cell, rate, water fraction of what is injected)`: injection of the given fraction at positive rate, production of what flows in
the cell otherwise. -/
def leaves (M : Medium K) (dt : K) (v : List K) (q : Nat × K × K) : K :=
  if 0 < q.2.1 then -(dt * q.2.1 * q.2.2) else -(dt * q.2.1 * fraction M q.1 (v.getD q.1 0))

/-- The sum of `w` over the faces of a cell that have two cells, counted outwards. -/
def outflow (M : Medium K) (w : Nat → K) (c : Nat) : K :=
  (((M.grid.cellFaces c).filter fun f => decide (0 ≤ (M.grid.faceCells f).1 ∧ 0 ≤ (M.grid.faceCells f).2)).map fun f =>
    if (M.grid.faceCells f).1 = (c : Int) then w f else -w f).sum

/-- What is missing in the water balance of cell `c` if its saturation changes by `d` while water flows at the saturations `v`. -/
def imbalance (M : Medium K) (dt d : K) (v : List K) (w : Nat → K) (c : Nat) : K :=
  M.porevol c * d + outflow M w c + ((M.src.filter fun q => q.1 = c).map (leaves M dt v)).sum

/-- Water in the reservoir. -/
def water (M : Medium K) (s : List K) : K := ∑ c ∈ Finset.range M.grid.nc, M.porevol c * s.getD c 0

/-- All pore volume. -/
def pores (M : Medium K) : K := ∑ c ∈ Finset.range M.grid.nc, M.porevol c

/-- The two sides of every connection agree: a face between two cells is listed once by each of them and by no other cell; or, across a periodic boundary, it has a twin between the same two
cells with the same transmissibility and total flux, such that each of the cells lists one of the two. -/
structure Joined (M : Medium K) (twin : Nat → Nat) : Prop where
  inv : ∀ f a b, Interior M.grid f a b → twin (twin f) = f
  cells : ∀ f a b, Interior M.grid f a b → (Interior M.grid (twin f) a b ∧ M.faceflux (twin f) = M.faceflux f) ∨
    (Interior M.grid (twin f) b a ∧ M.faceflux (twin f) = -M.faceflux f)
  trans : ∀ f a b, Interior M.grid f a b → M.trans (twin f) = M.trans f
  single : ∀ f a b, Interior M.grid f a b → twin f = f → ∀ c, c < M.grid.nc → (M.grid.cellFaces c).count f = if c = a ∨ c = b then 1 else 0
  shared : ∀ f a b, Interior M.grid f a b → twin f ≠ f → ∀ c, c < M.grid.nc →
    (M.grid.cellFaces c).count f + (M.grid.cellFaces c).count (twin f) = if c = a ∨ c = b then 1 else 0

/-- At the saturations `s` nothing has to change: in all cells water is the same fraction `F` of the flow and of what is injected, there is no difference in capillary pressure over a face, and
the total fluxes over the faces of a cell and the rates of its sources balance. -/
structure Uniform (M : Medium K) (s : List K) (F : K) : Prop where
  fraction : ∀ c, c < M.grid.nc → fraction M c (s.getD c 0) = F
  injected : ∀ q ∈ M.src, 0 < q.2.1 → q.2.2 = F
  pc : ∀ f a b, Interior M.grid f a b → M.pc a (s.getD a 0) = M.pc b (s.getD b 0)
  balance : ∀ c, c < M.grid.nc → outflow M M.faceflux c = ((M.src.filter fun q => q.1 = c).map fun q => q.2.1).sum

end Verif.ImplicitStep.Spec
