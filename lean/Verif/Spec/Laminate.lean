import Verif.Spec.ElasticUpscale
import Verif.Spec.Elastic

/-! What layered elastic samples are: layers between parallel planes, each of one material. -/

namespace Verif.ElasticUp

open Verif.Elastic Verif.Asm

variable {K : Type} [Field K]

/-- The matrix of a stress (order xx, yy, zz, xy, xz, yz). -/
def stress3 (s : Fin 6 → K) : Fin 3 → Fin 3 → K := ![![s 0, s 3, s 4], ![s 3, s 1, s 5], ![s 4, s 5, s 2]]

/-- Force on a plane with normal `n`. -/
def traction (s : Fin 6 → K) (n : Fin 3 → K) (d : Fin 3) : K := ∑ e, stress3 s d e * n e

/-- Distance of a node from the plane through the origin with normal `n` (times the length of `n`). -/
def height (X : Nat → Fin 3 → K) (n : Fin 3 → K) (node : Nat) : K := ∑ d, n d * X node d

/-- The strain of a layer: the mean strain `x` and the strain of displacements that grow by `a` per unit of height. -/
def layerStrain (x : Fin 6 → K) (a n : Fin 3 → K) (i : Fin 6) : K := x i + Spec.strain3 (fun d e => a d * n e) i

/-- The stress of a layer with elasticity matrix `D`. -/
def layerStress (D : Fin 6 → Fin 6 → K) (x : Fin 6 → K) (a n : Fin 3 → K) (i : Fin 6) : K := ∑ j, D i j * layerStrain x a n j

/-- Place of the strain of directions `d` and `k` in the order xx, yy, zz, xy, xz, yz. -/
def place (d k : Fin 3) : Fin 6 :=
  ![![0, 3, 4], ![3, 1, 5], ![4, 5, 2]] d k

/-- Volume of a cell. -/
def cellVolume (c : Cell K) : K := (c.pts.map fun q => q.w).sum

variable [LinearOrder K]

/-- Layers follow each other in direction `k` of the numbering. Their boundaries lie in parallel planes with normal `n`, and cells that
follow each other in the other directions have the same material. -/
structure Layers (S : Sample K) (D : Cell K → Fin 6 → Fin 6 → K) (X : Nat → Fin 3 → K)
    (next : Fin 3 → Equiv.Perm (Fin S.cells.length)) (k : Fin 3) (n : Fin 3 → K) : Prop where
  normal : n ≠ 0
  plane : ∀ c : Fin S.cells.length, ∀ f < 8, ∀ g < 8, f.testBit k = g.testBit k →
    height X n ((S.cells[c]).vertex.getD f 0) = height X n ((S.cells[c]).vertex.getD g 0)
  material : ∀ b ≠ k, ∀ c, D S.cells[next b c] = D S.cells[c]

/-- How layers share the mean strain `x`: displacements `g` depend on the height only, grow by `a c` per unit of height in cell `c`
(the same within a layer) and satisfy the constraints, and the forces between layers are in balance. -/
structure Shares (S : Sample K) (D : Cell K → Fin 6 → Fin 6 → K) (X : Nat → Fin 3 → K)
    (next : Fin 3 → Equiv.Perm (Fin S.cells.length)) (k : Fin 3) (n : Fin 3 → K) (x : Fin 6 → K) (g : K → Nat → K)
    (a : Fin S.cells.length → Fin 3 → K) : Prop where
  admissible : Admissible S.handler fun node d => g (height X n node) d
  slope : ∀ c, ∀ f < 8, ∀ d : Fin 3, g (height X n ((S.cells[c]).vertex.getD f 0)) d =
    g (height X n ((S.cells[c]).vertex.getD 0 0)) d +
      a c d * (height X n ((S.cells[c]).vertex.getD f 0) - height X n ((S.cells[c]).vertex.getD 0 0))
  layer : ∀ b ≠ k, ∀ c, a (next b c) = a c
  balance : ∀ c, traction (layerStress (D S.cells[next k c]) x (a (next k c)) n) n = traction (layerStress (D S.cells[c]) x (a c) n) n

end Verif.ElasticUp
