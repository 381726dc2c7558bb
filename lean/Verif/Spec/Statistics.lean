import Verif.Model.Statistics
import Mathlib.Algebra.BigOperators.Field

/-!
Statistics of cells: weighted means over a finite set of cells.
-/

namespace Verif.Stat

variable {K : Type} [Field K]

/-- Arithmetic mean of `x` over the cells `A` with weights `w`. -/
def wmean (A : Finset Nat) (w x : Nat → K) : K := (∑ i ∈ A, w i * x i) / ∑ i ∈ A, w i

/-- Harmonic mean. -/
def wharm (A : Finset Nat) (w x : Nat → K) : K := (∑ i ∈ A, w i) / ∑ i ∈ A, w i / x i

/-- Geometric mean, for logarithm `ln` and its inverse `ex`. -/
def wgeom (ln ex : K → K) (A : Finset Nat) (w x : Nat → K) : K := ex ((∑ i ∈ A, w i * ln (x i)) / ∑ i ∈ A, w i)

/-- Variance. -/
def wvar (A : Finset Nat) (w x : Nat → K) : K := (∑ i ∈ A, w i * (x i - wmean A w x) ^ 2) / ∑ i ∈ A, w i

/-- Volume of the cell with number `i`: none if the grid has no such cell; multiplied by ACTNUM if this is asked for. -/
def cellVol (use : Bool) (d : Deck K) (grid : List (Nat × K)) (i : Nat) : K :=
  ((grid.filter fun c => c.1 = i).map fun c => c.2).sum * if use then (((d.actnum.getD []).getD i 0 : Int) : K) else 1

/-- The rock type of a cell: SATNUM or, without it, ROCKTYPE. -/
def rockOf (d : Deck K) (i : Nat) : Nat := (((d.satnum <|> d.rocktype).getD []).getD i 0).toNat

/-- Value of a deck array in cell `i`. -/
def val (l : List K) (i : Nat) : K := l.getD i 0

/-- Complete input: cells of the grid have different numbers, arrays have the size of the grid, rock types are in range, ACTNUM is
there if it is asked for and has at least two values. -/
structure Good (use : Bool) (d : Deck K) (grid : List (Nat × K)) : Prop where
  distinct : (grid.map Prod.fst).Nodup
  inside : ∀ c ∈ grid, c.1 < d.n
  actnum : use = true → ∃ l, d.actnum = some l ∧ l.length = d.n ∧ 2 ≤ d.n
  poro : ∀ l, d.poro = some l → l.length = d.n
  ntg : ∀ l, d.ntg = some l → l.length = d.n
  permx : ∀ l, d.permx = some l → l.length = d.n
  permy : ∀ l, d.permy = some l → l.length = d.n
  permz : ∀ l, d.permz = some l → l.length = d.n
  sat : ∀ l, (d.satnum <|> d.rocktype) = some l → l.length = d.n ∧ ∀ s ∈ l, 0 ≤ s ∧ s ≤ 1000

/-- The cells that take part: those with a volume above 1e-10. -/
def Active [LinearOrder K] (use : Bool) (d : Deck K) (grid : List (Nat × K)) : Finset Nat :=
  (Finset.range d.n).filter fun i => 1 / 10 ^ 10 < cellVol use d grid i

/-- The cells of a rock type that take part. -/
def ActiveIn [LinearOrder K] (use : Bool) (d : Deck K) (grid : List (Nat × K)) (r : Nat) : Finset Nat :=
  (Active use d grid).filter fun i => rockOf d i = r

/-- No cell has a positive volume that is below the limit. -/
def Thick [LinearOrder K] (use : Bool) (d : Deck K) (grid : List (Nat × K)) : Prop :=
  ∀ i < d.n, cellVol use d grid i = 0 ∨ 1 / 10 ^ 10 < cellVol use d grid i

/-- The six averages of a permeability: weighted by volume and not weighted. -/
def meansOf (ln ex : K → K) (A : Finset Nat) (V k : Nat → K) : Means K :=
  ⟨wmean A V k, wharm A V k, wgeom ln ex A V k, wmean A (fun _ => 1) k, wharm A (fun _ => 1) k, wgeom ln ex A (fun _ => 1) k⟩

/-- What is to be reported for rock type `r`. -/
def rockOut [LinearOrder K] (use : Bool) (d : Deck K) (grid : List (Nat × K)) (r : Nat) : RockReport K :=
  let V := cellVol use d grid
  let B := ActiveIn use d grid r
  { vol := ∑ i ∈ B, V i
    cells := ((Finset.range d.n).filter fun i => rockOf d i = r).card
    active := B.card
    poro := d.poro.map fun p => (∑ i ∈ B, V i * val p i, wmean B V (val p), wvar B V (val p))
    perm := d.permx.map fun k => (wmean B V (val k), wharm B V (val k), wmean B (fun _ => 1) (val k), wharm B (fun _ => 1) (val k)) }

end Verif.Stat
