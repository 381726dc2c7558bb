import Verif.Model.ResistChain
import Verif.Spec.Resistivity
import Verif.Spec.RelPermChain

/-!
Specification for upscaled resistivity: when a job is well posed, the resistivities of the cells and their means.
-/

namespace Verif.ResistChain

open Verif.Dense Verif.SinglePhase Verif.Resist Verif.Resist.Spec

variable {K : Type} [Field K] [LinearOrder K]

/-- The upscaler can compute: a grid that fills a box and fits the type of boundary conditions, an exact linear solver, no gravity; `invert` inverts
regular matrices in place. Nothing is said about the permeabilities it holds. -/
structure Ready (J : Job K) (lo hi : Fin 3 → K) (side : Boundary.Face K → Nat) : Prop where
  tiling : Tiling J.I.G
  box : FillsBox J.I.G lo hi side
  suited : Suited J.I lo hi side
  basis : ∀ c, Mimetic.OrthBasis (Mimetic.cmat (J.I.G.geo c)) (J.I.Q c)
  sort : ∀ l, (J.I.sort l).Perm l
  solver : ∀ s N, (∃ x, Hybrid.Solves s N x) → Hybrid.Solves s N (J.I.solver s N)
  gravity : J.I.gravity = 0
  invert : ∀ A (M : Matrix (Fin 3) (Fin 3) K), Represents A M → IsUnit M → Represents (J.invert A) M⁻¹ ∧ (J.invert A).ord = A.ord

/-- The input: sensible options, one checked entry for every cell of the grid, some rock. -/
structure Valid (J : Job K) : Prop where
  options : Sensible J.O
  cells : J.cells.length = J.I.G.nc
  checked : ∀ c ∈ J.cells, Checked J.O J.curves c
  rock : rocks J.cells ≠ []

/-- Saturation falls with the J-function in every rock type. -/
def Falling (J : Job K) : Prop :=
  ∀ c ∈ rocks J.cells, ∀ x y, x ≤ y → (J.curves (c.satnum.toNat - 1)).eval y ≤ (J.curves (c.satnum.toNat - 1)).eval x

/-- `R` are the resistivities of the cells at capillary pressure `p` by Archie's law. -/
def Resistivities (J : Job K) (p : K) (R : List K) : Prop :=
  List.Forall₂ (fun c r => IsResistivity J.O c (saturation J.O J.curves p c) r) J.cells R

/-- `w` is the mean of the saturations of the rock at capillary pressure `p`, weighted with pore volume. -/
def MeanSat (J : Job K) (p w : K) : Prop :=
  w * poreVolume J.cells = ((rocks J.cells).map fun c => saturation J.O J.curves p c * (c.vol * c.poro)).sum

/-- Arithmetic mean over the cells of the grid, weighted with volume. -/
def arithmetic (J : Job K) (R : List K) : K :=
  (∑ c, (J.I.G.cell c).volume * R.getD c.val 0) / ∑ c, (J.I.G.cell c).volume

/-- Harmonic mean over the cells of the grid, weighted with volume. -/
def harmonic (J : Job K) (R : List K) : K :=
  (∑ c, (J.I.G.cell c).volume) / ∑ c, (J.I.G.cell c).volume / R.getD c.val 0

end Verif.ResistChain
