import Verif.Model.TransportSource

/-! Specification of the transport source table: an abstract list of sources. -/

namespace Verif.TSource.Spec

open Verif.TSource

variable {K : Type}

/-- The abstract effect of a call on the list of sources and the value returned. -/
def absStep (nphase : Nat) (es : List (Entry K)) : Op K → List (Entry K) × Int
  | .append np e _ => if np = nphase then (es ++ [e], 1) else (es, -1)
  | .clear => ([], 0)

/-- The abstract effect of a sequence of calls. -/
def absRun (nphase : Nat) (es : List (Entry K)) : List (Op K) → List (Entry K) × List Int
  | [] => (es, [])
  | o :: os =>
    let r := absStep nphase es o
    let q := absRun nphase r.1 os
    (q.1, r.2 :: q.2)

/-- Reading location `i` of the block at `p`. -/
def load (h : Heap K) (p : Option Nat) (i : Nat) : Option (Val K) :=
  match p with
  | none => none
  | some p => match h.blk p with
    | none => none
    | some b => b[i]?

/-- What a client sees: the table has `es.length` sources, and reading the arrays gives the data of each. -/
def Shows (h : Heap K) (s : Src) (es : List (Entry K)) : Prop :=
  s.nsrc = es.length ∧
  (es ≠ [] → ∃ c p v sa z, s.arrays = [c, p, v, sa, z] ∧
    ∀ (i : Nat) (e : Entry K), es[i]? = some e →
      load h c i = some (.int e.cell) ∧ load h p i = some (.dbl e.p) ∧ load h v i = some (.dbl e.v) ∧
      ∀ j < s.nphase, load h sa (s.nphase * i + j) = (e.sat[j]?).map .dbl ∧
        load h z (s.nphase * i + j) = (e.z[j]?).map .dbl)

/-- Calls in which the caller passes arrays of the right size and the allocator does not fail. -/
def GoodOp (nphase : Nat) : Op K → Prop
  | .append np e as => (np = nphase → e.sat.length = nphase ∧ e.z.length = nphase) ∧ as.length = 5 ∧ Alloc.fail ∉ as
  | .clear => True

/-- Nothing is allocated. -/
def Empty (h : Heap K) : Prop := ∀ q, h.blk q = none

end Verif.TSource.Spec
