import Mathlib.Data.List.Basic

/-!
Model of the distribution of pressure points over MPI ranks and of gathering the results
(`opm/upscaling/RelPermUtils.cpp`: `upscalePermeability` 1019-1037, `collectResults` 239-309).

Simplifications: a point index sent as a `double` and cast back is the same index; message contents are lists of values.
MPI delivers the messages of one sender to one receiver in order. `sync` selects rendezvous sends (the sender waits until
its message has been received); otherwise sends are buffered. Every interleaving of the ranks is a run of `Step`.
-/

namespace Verif.Collect

variable {K : Type}

/-- `node_vs_pressurepoint[idx]` (RelPermUtils.cpp:1034). -/
def owner (nodes idx : Nat) : Nat := (nodes - 1) - idx % nodes

/-- The entries of one pressure point: `WaterSaturation[idx]`, `PhasePerm[0][idx]`, `PhasePerm[1][idx]`. -/
structure Row (K : Type) where
  sat : K
  perm0 : List K
  perm1 : List K

/-- Packing a row (RelPermUtils.cpp:278-306): index, saturation, first phase and, if both are upscaled, second phase. -/
def pack (both : Bool) (idx : Nat) (r : Row K) : Nat × List K :=
  (idx, r.sat :: (r.perm0 ++ if both then r.perm1 else []))

/-- Storing a received buffer in the entry it names (RelPermUtils.cpp:257-272); `t` is `tensorElementCount`. -/
def unpack (both : Bool) (t : Nat) (old : Row K) (buf : List K) : Row K :=
  match buf with
  | [] => old
  | s :: rest => ⟨s, rest.take t, if both then (rest.drop t).take t else old.perm1⟩

/-- The system: the master's loop index and memory, every rank's loop index, the messages under way. -/
structure St (K : Type) where
  mpos : Nat
  mem : Nat → Row K
  pos : Nat → Nat
  chan : Nat → List (Nat × List K)

/-- What a rank holds when `collectResults` starts: the points it owns are computed (RelPermUtils.cpp:1047-1178), the
others are as `resize` left them. -/
def localMem (nodes : Nat) (val zeros : Nat → Row K) (rank idx : Nat) : Row K :=
  if owner nodes idx = rank then val idx else zeros idx

/-- Start of `collectResults`. -/
def St.init (nodes : Nat) (val zeros : Nat → Row K) : St K :=
  ⟨0, localMem nodes val zeros 0, fun _ => 0, fun _ => []⟩

/-- One step of some rank. -/
inductive Step (sync both : Bool) (nodes points t : Nat) (rowsOf : Nat → Nat → Row K) : St K → St K → Prop
  /-- The master's loop passes over a point it owns (RelPermUtils.cpp:251). -/
  | own (s : St K) (h : s.mpos < points) (ho : owner nodes s.mpos = 0) :
      Step sync both nodes points t rowsOf s { s with mpos := s.mpos + 1 }
  /-- The master receives the next message of the owner of the point its loop is at (RelPermUtils.cpp:253-272). -/
  | recv (s : St K) (h : s.mpos < points) (ho : owner nodes s.mpos ≠ 0) (m : Nat × List K) (ms : List (Nat × List K))
      (hc : s.chan (owner nodes s.mpos) = m :: ms) :
      Step sync both nodes points t rowsOf s
        { s with
          mpos := s.mpos + 1
          mem := fun i => if i = m.1 then unpack both t (s.mem i) m.2 else s.mem i
          chan := fun r => if r = owner nodes s.mpos then ms else s.chan r }
  /-- Rank `r`'s loop passes over a point it does not own. -/
  | skip (s : St K) (r : Nat) (hr : 0 < r) (hn : r < nodes) (h : s.pos r < points) (ho : owner nodes (s.pos r) ≠ r)
      (hb : sync = true → s.chan r = []) :
      Step sync both nodes points t rowsOf s { s with pos := fun q => if q = r then s.pos q + 1 else s.pos q }
  /-- Rank `r` sends a point it owns (RelPermUtils.cpp:276-306). -/
  | send (s : St K) (r : Nat) (hr : 0 < r) (hn : r < nodes) (h : s.pos r < points) (ho : owner nodes (s.pos r) = r)
      (hb : sync = true → s.chan r = []) :
      Step sync both nodes points t rowsOf s
        { s with
          pos := fun q => if q = r then s.pos q + 1 else s.pos q
          chan := fun q => if q = r then s.chan q ++ [pack both (s.pos r) (rowsOf r (s.pos r))] else s.chan q }

/-- Reachable by any number of steps. -/
inductive Steps (sync both : Bool) (nodes points t : Nat) (rowsOf : Nat → Nat → Row K) : Nat → St K → St K → Prop
  | refl (s : St K) : Steps sync both nodes points t rowsOf 0 s s
  | tail {n : Nat} {s u v : St K} (h : Steps sync both nodes points t rowsOf n s u)
      (hs : Step sync both nodes points t rowsOf u v) : Steps sync both nodes points t rowsOf (n + 1) s v

end Verif.Collect
