import Mathlib.Data.List.Nodup

/-!
Model of `opm/core/transport/implicit/transport_source.c` on an explicit heap.

Simplifications: the overflow of `2*cpty` and of `alloc*nphase` is not modelled; the struct itself lives outside the heap.
A block is a list of values, `garbage` where nothing has been written.
-/

namespace Verif.TSource

variable {K : Type}

/-- Contents of a memory location. -/
inductive Val (K : Type) where
  | garbage
  | int (c : Int)
  | dbl (x : K)
  deriving DecidableEq

/-- Heap: live blocks by address, and the next fresh address. -/
structure Heap (K : Type) where
  blk : Nat → Option (List (Val K))
  next : Nat

/-- What the allocator does on a request: fail, keep the block where it is, or move it. -/
inductive Alloc where
  | fail
  | inplace
  | move
  deriving DecidableEq

/-- Old contents, truncated or extended to the new size. -/
def resize (b : List (Val K)) (n : Nat) : List (Val K) := b.take n ++ List.replicate (n - b.length) .garbage

/-- `realloc(p, n)` (C standard; used in transport_source.c:51-55). `none` outside: undefined behaviour (not a live block);
`none` as returned pointer: NULL, the old block is untouched. Sizes are positive in all calls. -/
def realloc (h : Heap K) (p : Option Nat) (n : Nat) (a : Alloc) : Option (Heap K × Option Nat) :=
  match p with
  | none =>
    match a with
    | .fail => some (h, none)
    | _ => some (⟨fun q => if q = h.next then some (resize [] n) else h.blk q, h.next + 1⟩, some h.next)
  | some p =>
    match h.blk p with
    | none => none
    | some b =>
      match a with
      | .fail => some (h, none)
      | .inplace => some (⟨fun q => if q = p then some (resize b n) else h.blk q, h.next⟩, some p)
      | .move => some (⟨fun q => if q = h.next then some (resize b n) else if q = p then none else h.blk q, h.next + 1⟩,
          some h.next)

/-- `free(p)`: nothing for NULL, undefined behaviour if `p` is not a live block. -/
def free (h : Heap K) (p : Option Nat) : Option (Heap K) :=
  match p with
  | none => some h
  | some p =>
    match h.blk p with
    | none => none
    | some _ => some { h with blk := fun q => if q = p then none else h.blk q }

/-- `struct TransportSource` (transport_source.h:43-54); `arrays` are the five pointers `cell`, `pressure`, `flux`,
`saturation`, `surfvolume`. -/
structure Src where
  nsrc : Nat
  cpty : Nat
  nphase : Nat
  arrays : List (Option Nat)
  deriving DecidableEq

/-- Values per source in the five arrays (transport_source.c:51-55). -/
def widths (nphase : Nat) : List Nat := [1, 1, 1, nphase, nphase]

/-- The five `realloc` calls (transport_source.c:51-55), with the outcome of each. -/
def reallocAll (h : Heap K) : List (Option Nat) → List Nat → List Alloc → Option (Heap K × List (Option Nat))
  | p :: ps, n :: ns, a :: as => do
    let (h, q) ← realloc h p n a
    let (h, qs) ← reallocAll h ps ns as
    return (h, q :: qs)
  | _, _, _ => some (h, [])

/-- A sequence of `free` calls. -/
def freeAll (h : Heap K) : List (Option Nat) → Option (Heap K)
  | [] => some h
  | p :: ps => do
    let h ← free h p
    freeAll h ps

/-- `expand_source_tables` (transport_source.c:44-71): new heap, struct and status. -/
def expand (alloc : Nat) (h : Heap K) (s : Src) (as : List Alloc) : Option (Heap K × Src × Nat) := do
  let (h, qs) ← reallocAll h s.arrays ((widths s.nphase).map (alloc * ·)) as
  if none ∈ qs then
    let h ← freeAll h qs.reverse
    return (h, s, 0)
  else
    return (h, { s with arrays := qs, cpty := alloc }, alloc)

/-- `destroy_transport_source` (transport_source.c:117-129). -/
def destroy (h : Heap K) (s : Src) : Option (Heap K) := freeAll h s.arrays.reverse

/-- `create_transport_source` (transport_source.c:79-114) for non-negative arguments; the allocation of the struct itself is
assumed to succeed. The inner `none` is a NULL result. -/
def create (nsrc nphase : Nat) (h : Heap K) (as : List Alloc) : Option (Heap K × Option Src) :=
  if nphase = 0 then some (h, none)
  else do
    let s : Src := ⟨0, 0, nphase, [none, none, none, none, none]⟩
    if nsrc > 0 then
      let (h, s, status) ← expand nsrc h s as
      if status = 0 then
        let h ← destroy h s
        return (h, none)
      else return (h, some s)
    else return (h, some s)

/-- A source as passed to `append_transport_source`. -/
structure Entry (K : Type) where
  cell : Int
  p : K
  v : K
  sat : List K
  z : List K

/-- Copy `xs` into the block of `p` at offset `o`: an assignment or a `memcpy`. -/
def store (h : Heap K) (p : Option Nat) (o : Nat) (xs : List (Val K)) : Option (Heap K) :=
  match p with
  | none => none
  | some p =>
    match h.blk p with
    | none => none
    | some b =>
      if o + xs.length ≤ b.length then
        some { h with blk := fun q => if q = p then some (b.take o ++ xs ++ b.drop (o + xs.length)) else h.blk q }
      else none

/-- Write one item into each of the arrays, at the offset of source number `i`. -/
def storeAll (h : Heap K) (i : Nat) : List (Option Nat) → List (List (Val K)) → Option (Heap K)
  | p :: ps, x :: xs => do
    let h ← store h p (i * x.length) x
    storeAll h i ps xs
  | _, _ => some h

/-- What a source writes into the five arrays (transport_source.c:155-164). -/
def Entry.items (e : Entry K) : List (List (Val K)) :=
  [[.int e.cell], [.dbl e.p], [.dbl e.v], e.sat.map .dbl, e.z.map .dbl]

/-- The first part of `append_transport_source` (transport_source.c:148-153): grow the full table. -/
def grow (h : Heap K) (s : Src) (as : List Alloc) : Option (Heap K × Src × Nat) :=
  if s.nsrc = s.cpty then expand (if s.cpty > 0 then 2 * s.cpty else 1) h s as else some (h, s, 1)

/-- `append_transport_source` (transport_source.c:132-171): new heap, struct and return value. The caller's arrays hold exactly
`nphase` values (reading beyond them is undefined). -/
def append (nphase : Nat) (e : Entry K) (h : Heap K) (s : Src) (as : List Alloc) : Option (Heap K × Src × Int) := do
  if nphase ≠ s.nphase then return (h, s, -1)
  else
    let (h, s, status) ← grow h s as
    if status > 0 then
      if e.sat.length = nphase ∧ e.z.length = nphase then
        let h ← storeAll h s.nsrc s.arrays e.items
        return (h, { s with nsrc := s.nsrc + 1 }, 1)
      else none
    else return (h, s, 0)

/-- `clear_transport_source` (transport_source.c:174-180). -/
def clear (s : Src) : Src := { s with nsrc := 0 }

/-- The operations of the interface; `append` comes with the number of phases passed and the allocator's behaviour. -/
inductive Op (K : Type) where
  | append (nphase : Nat) (e : Entry K) (as : List Alloc)
  | clear

/-- One call: new heap, struct, return value (0 for `clear`). -/
def step (h : Heap K) (s : Src) : Op K → Option (Heap K × Src × Int)
  | .append np e as => append np e h s as
  | .clear => some (h, clear s, 0)

/-- A sequence of calls: final state and the values returned. -/
def run (h : Heap K) (s : Src) : List (Op K) → Option (Heap K × Src × List Int)
  | [] => some (h, s, [])
  | o :: os => do
    let (h, s, r) ← step h s o
    let (h, s, rs) ← run h s os
    return (h, s, r :: rs)

end Verif.TSource
