import Verif.Model.Collect

/-!
Model of gathering the results of `examples/upscale_relpermvisc.cpp` on the master (lines 1422-1462).

Other than `collectResults` (`Model/Collect.lean`), a message holds one phase, and every rank runs through all points once for each phase. A loop position `q`
counts phase and point together: the phase is `q / points`, the point `q % points`. Messages do not name their phase; the master uses the phase of its own loop.

Simplifications as in `Model/Collect.lean`: an index sent as a `double` and cast back is the same index; MPI delivers the messages of one sender in order; `sync`
selects sends that wait for the receiver. Every interleaving of the ranks is a run of `Step`.
-/

namespace Verif.VGather

open Verif.Collect (Row St localMem)

variable {K : Type}

/-- `node_vs_fracflowratiopoint[idx]` (upscale_relpermvisc.cpp:1270). -/
def owner (nodes idx : Nat) : Nat := (nodes - 1) - idx % nodes

/-- The owner of the point at a loop position. -/
def ownerAt (nodes points q : Nat) : Nat := owner nodes (q % points)

/-- `PhasePerm[phase][idx]`. -/
def permOf (phase : Nat) (r : Row K) : List K := if phase = 0 then r.perm0 else r.perm1

/-- `sendbuffer` (upscale_relpermvisc.cpp:1451-1457). -/
def pack (phase idx : Nat) (r : Row K) : Nat × List K := (idx, r.sat :: permOf phase r)

/-- Storing `recvbuffer` in the entry it names, for the phase of the master's loop (upscale_relpermvisc.cpp:1438-1441); `t` is `tensorElementCount`. -/
def unpack (phase t : Nat) (old : Row K) (buf : List K) : Row K :=
  match buf with
  | [] => old
  | s :: rest => if phase = 0 then ⟨s, rest.take t, old.perm1⟩ else ⟨s, old.perm0, rest.take t⟩

/-- What a rank holds before gathering: the points it owns are computed for both phases (upscale_relpermvisc.cpp:1292-1417), the others are padded with zeros. -/
def localRows (nodes : Nat) (val zeros : Nat → Row K) (rank idx : Nat) : Row K :=
  if owner nodes idx = rank then val idx else zeros idx

/-- Start of gathering (upscale_relpermvisc.cpp:1427). -/
def start (nodes : Nat) (val zeros : Nat → Row K) : St K := ⟨0, localRows nodes val zeros 0, fun _ => 0, fun _ => []⟩

/-- One step of some rank; loops over phases and points (upscale_relpermvisc.cpp:1430-1431, 1447-1448). -/
inductive Step (sync : Bool) (nodes points t : Nat) (rowsOf : Nat → Nat → Row K) : St K → St K → Prop
  /-- The master's loop passes over a point it owns (upscale_relpermvisc.cpp:1432). -/
  | own (s : St K) (h : s.mpos < 2 * points) (ho : ownerAt nodes points s.mpos = 0) :
      Step sync nodes points t rowsOf s { s with mpos := s.mpos + 1 }
  /-- The master receives the next message of the owner of the point its loop is at (upscale_relpermvisc.cpp:1434-1441). -/
  | recv (s : St K) (h : s.mpos < 2 * points) (ho : ownerAt nodes points s.mpos ≠ 0) (m : Nat × List K) (ms : List (Nat × List K))
      (hc : s.chan (ownerAt nodes points s.mpos) = m :: ms) :
      Step sync nodes points t rowsOf s
        { s with
          mpos := s.mpos + 1
          mem := fun i => if i = m.1 then unpack (s.mpos / points) t (s.mem i) m.2 else s.mem i
          chan := fun r => if r = ownerAt nodes points s.mpos then ms else s.chan r }
  /-- Rank `r`'s loop passes over a point it does not own (upscale_relpermvisc.cpp:1449). -/
  | skip (s : St K) (r : Nat) (hr : 0 < r) (hn : r < nodes) (h : s.pos r < 2 * points) (ho : ownerAt nodes points (s.pos r) ≠ r)
      (hb : sync = true → s.chan r = []) :
      Step sync nodes points t rowsOf s { s with pos := fun q => if q = r then s.pos q + 1 else s.pos q }
  /-- Rank `r` sends a point it owns (upscale_relpermvisc.cpp:1451-1458). -/
  | send (s : St K) (r : Nat) (hr : 0 < r) (hn : r < nodes) (h : s.pos r < 2 * points) (ho : ownerAt nodes points (s.pos r) = r)
      (hb : sync = true → s.chan r = []) :
      Step sync nodes points t rowsOf s
        { s with
          pos := fun q => if q = r then s.pos q + 1 else s.pos q
          chan := fun q => if q = r then s.chan q ++ [pack (s.pos r / points) (s.pos r % points) (rowsOf r (s.pos r % points))] else s.chan q }

/-- Reachable by `n` steps. -/
inductive Steps (sync : Bool) (nodes points t : Nat) (rowsOf : Nat → Nat → Row K) : Nat → St K → St K → Prop
  | refl (s : St K) : Steps sync nodes points t rowsOf 0 s s
  | tail {n : Nat} {s u v : St K} (h : Steps sync nodes points t rowsOf n s u)
      (hs : Step sync nodes points t rowsOf u v) : Steps sync nodes points t rowsOf (n + 1) s v

end Verif.VGather
