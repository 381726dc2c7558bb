import Verif.Spec.ElasticUpscale

/-! What it means that an elastic sample consists of copies of a smaller one. -/

namespace Verif.ElasticUp

open Verif.Elastic Verif.Asm

variable {K : Type} [Field K] [LinearOrder K]

/-- Periodic conditions: `tie m n` says that the nodes `m` and `n` are the same point up to periods. Displacements are admissible if they
are the same at tied nodes and zero at the corner. -/
structure PeriodicTies (h : Handler K) (tie : Nat → Nat → Prop) (corner : Nat) : Prop where
  equiv : Equivalence tie
  inside : corner < h.nodes
  admissible : ∀ v, Admissible h v ↔
    ∀ m < h.nodes, ∀ i < 3, (tie m corner → v m i = 0) ∧ ∀ n < h.nodes, tie m n → v m i = v n i

/-- The sample `S'` consists of `N` copies of the sample `S`: copy `k` of the node `m` is `node k m`, moved by `offset k`, and copy `k` of
the cell `c` is `cell (k, c)`, with the material of `c`. Each node of `S'` is a copy of a node of `S`. Nodes of `S'` that are the same
point up to the periods of `S'` are copies of nodes that are the same point up to the periods of `S`; conversely, leaving a copy through
a side means entering another one (or the same) through the opposite side. -/
structure Copies (S S' : Sample K) (D D' : Cell K → Fin 6 → Fin 6 → K) (F : List (Shape.Linear K 3)) (rule : List (K × (Fin 3 → K)))
    (X X' : Nat → Fin 3 → K) (tie tie' : Nat → Nat → Prop) (corner corner' : Nat) (N : Nat) (node : Fin N → Nat → Nat)
    (offset : Fin N → Fin 3 → K) (cell : Fin N × Fin S.cells.length ≃ Fin S'.cells.length) : Prop where
  shapes : Shape.p1Set 3 = some F
  hexahedra : ∀ c ∈ S.cells, Hexahedron F X rule c
  hexahedra' : ∀ c ∈ S'.cells, Hexahedron F X' rule c
  periodic : PeriodicTies S.handler tie corner
  periodic' : PeriodicTies S'.handler tie' corner'
  vertices : ∀ k c, (S'.cells[cell (k, c)]).vertex = (S.cells[c]).vertex.map (node k)
  places : ∀ k, ∀ m < S.handler.nodes, ∀ d, X' (node k m) d = X m d + offset k d
  material : ∀ k c, D' S'.cells[cell (k, c)] = D S.cells[c]
  inside : ∀ k, ∀ m < S.handler.nodes, node k m < S'.handler.nodes
  cover : ∀ n < S'.handler.nodes, ∃ k, ∃ m < S.handler.nodes, n = node k m
  onto : ∀ k l, ∀ m < S.handler.nodes, ∀ n < S.handler.nodes, tie' (node k m) (node l n) → tie m n
  sides : ∀ m < S.handler.nodes, ∀ n < S.handler.nodes, tie m n → ∃ σ : Equiv.Perm (Fin N), ∀ k, tie' (node k m) (node (σ k) n)
  corners : ∃ k, tie' corner' (node k corner)

end Verif.ElasticUp
