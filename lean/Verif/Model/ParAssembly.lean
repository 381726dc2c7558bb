import Verif.Model.Asm

/-!
Model of the parallel assembly (`opm/elasticity/elasticity_upscale_impl.hpp:441-519`, `assemble`): the additions that
`addElement` makes, and their execution by the threads of a colour in any order.

An addition `x += v` of a `double` is a load followed by a store. Memory is sequentially consistent; a thread may be interrupted
between the load and the store. The iterations of the parallel loop are taken to be threads of their own, which allows every order
that a smaller number of threads could produce.
-/

namespace Verif.Asm

variable {K : Type}

/-- A location that the assembly writes to: an entry of the matrix or of the load vector. -/
inductive Loc where
  | mat (row col : Nat)
  | load (row : Nat)
  deriving DecidableEq

section
variable [Field K]

/-- Additions of one column in `addDOF` (asmhandler_impl.hpp:64-77). -/
def opsCol (h : Handler K) (e : Element K) (row erow : Nat) (scale : K) (q : Nat × Nat × Nat) : List (Loc × K) :=
  match h.mpcs (key h.dim q.2.1 q.2.2) with
  | some m => m.masters.filterMap fun a =>
      (h.eqn a.node a.dof).map fun c => (Loc.mat row c, scale * a.coeff * e.mat erow (q.1 * h.dim + q.2.2))
  | none => ((h.eqn q.2.1 q.2.2).map fun c => (Loc.mat row c, scale * e.mat erow (q.1 * h.dim + q.2.2))).toList

/-- Additions of `addDOF` (asmhandler_impl.hpp:51-81). -/
def opsDOF (h : Handler K) (e : Element K) (row : Option Nat) (erow : Nat) (scale : K) : List (Loc × K) :=
  match row with
  | none => []
  | some r => (unknowns h.dim e).flatMap (opsCol h e r erow scale) ++ [(Loc.load r, scale * e.load erow)]

/-- Additions of one row of the element in `addElement` (asmhandler_impl.hpp:94-108). -/
def opsRow (h : Handler K) (e : Element K) (q : Nat × Nat × Nat) : List (Loc × K) :=
  match h.fixed q.2.1 with
  | some f => if f.dir = 7 then [] else go
  | none => go
where
  go : List (Loc × K) :=
    match h.mpcs (key h.dim q.2.1 q.2.2) with
    | some m => m.masters.flatMap fun a => opsDOF h e (h.eqn a.node a.dof) (q.1 * h.dim + q.2.2) a.coeff
    | none => opsDOF h e (h.eqn q.2.1 q.2.2) (q.1 * h.dim + q.2.2) 1

/-- Additions of `addElement` (asmhandler_impl.hpp:83-110), in order. -/
def opsElement (h : Handler K) (e : Element K) : List (Loc × K) := (unknowns h.dim e).flatMap (opsRow h e)

/-- Additions of iteration `j` of the parallel loop (elasticity_upscale_impl.hpp:460-516) for its cells `ks = color[i][j]`: one cell
after the other. `none`: a cell beyond the last one. -/
def iterationOps (h : Handler K) (es : List (Element K)) (ks : List Nat) : Option (List (Loc × K)) :=
  (ks.mapM fun k => es[k]?).map fun l => l.flatMap (opsElement h)

end

/-- A thread: additions to do, and the value that has been loaded for the first of them. -/
structure Thread (K : Type) where
  todo : List (Loc × K)
  loaded : Option K

/-- Memory and threads. -/
structure Machine (K : Type) where
  mem : Loc → K
  threads : List (Thread K)

section
variable [Field K]

/-- Thread `t` makes one memory access: it loads the location of its next addition, or stores the sum. -/
def Machine.step (m : Machine K) (t : Nat) : Machine K :=
  match m.threads[t]? with
  | none => m
  | some th =>
    match th.todo with
    | [] => m
    | op :: rest =>
      match th.loaded with
      | none => { m with threads := m.threads.set t ⟨op :: rest, some (m.mem op.1)⟩ }
      | some x => ⟨fun a => if a = op.1 then x + op.2 else m.mem a, m.threads.set t ⟨rest, none⟩⟩

/-- The threads access the memory in the order of the schedule. -/
def Machine.run (m : Machine K) (schedule : List Nat) : Machine K := schedule.foldl Machine.step m

/-- All threads are done (the barrier at the end of the parallel loop). -/
def Machine.done (m : Machine K) : Bool := m.threads.all fun th => th.todo.isEmpty

/-- The parallel loop over the iterations of a colour (elasticity_upscale_impl.hpp:459-517) in the order of the schedule; `none` if a
cell does not exist or if the schedule is too short for the loop to end. -/
def runColour (h : Handler K) (es : List (Element K)) (colour : List (List Nat)) (schedule : List Nat) (mem : Loc → K) :
    Option (Loc → K) :=
  (colour.mapM (iterationOps h es)).bind fun ops =>
    let m := Machine.run ⟨mem, ops.map fun l => ⟨l, none⟩⟩ schedule
    if m.done then some m.mem else none

/-- `assemble` (elasticity_upscale_impl.hpp:441-519) on matrix and vector that are zero: one colour after the other. -/
def assemblePar (h : Handler K) (es : List (Element K)) (colours : List (List Nat) × List (List Nat))
    (schedules : List Nat × List Nat) : Option (Loc → K) :=
  (runColour h es colours.1 schedules.1 fun _ => 0).bind (runColour h es colours.2 schedules.2)

end

end Verif.Asm
