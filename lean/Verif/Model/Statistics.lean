import Mathlib.Algebra.Order.Field.Basic
import Mathlib.Algebra.BigOperators.Group.Finset.Basic

/-!
Model of `examples/upscale_avg.cpp`: volumes, porosity, net-to-gross and averages of permeability of a grid, in total and for every
rock type.

The deck gives the arrays, the grid gives the cells that exist (`globalCell` and the volumes of the elements, in the order of the
elements). Vectors of the program that have the size of the logical grid are functions with the bound checked on writing; reading
a deck array past its end is `ub`. Percentages, counts of cells with zero or negative values and the formatting are left out. `ln`
and `ex` stand for `log` and `exp`.
-/

namespace Verif.Stat

variable {K : Type} [Field K] [LinearOrder K]

inductive Err where
  | exit
  | ub

/-- What the program reads from the deck. -/
structure Deck (K : Type) where
  n : Nat
  actnum : Option (List Int)
  poro : Option (List K)
  ntg : Option (List K)
  permx : Option (List K)
  permy : Option (List K)
  permz : Option (List K)
  satnum : Option (List Int)
  rocktype : Option (List Int)

/-- `v[i]`. -/
def arr {α : Type} (l : List α) (i : Nat) : Except Err α :=
  match l[i]? with
  | some x => .ok x
  | none => .error .ub

/-- `v[i]` for an array that is read only if the keyword is present. -/
def readOpt {α : Type} (l : Option (List α)) (i : Nat) : Except Err (Option α) :=
  match l with
  | none => .ok none
  | some l => (arr l i).map some

/-- `emptycellvolumecutoff` (upscale_avg.cpp:92). -/
def cutoff : K := 1 / 10 ^ 10

/-- `use_actnum` and `actnum` (upscale_avg.cpp:187-200): the first two entries are printed. -/
def actnums (use : Bool) (d : Deck K) : Except Err (Option (List Int)) :=
  if use then
    match d.actnum with
    | some l => (arr l 0).bind fun _ => (arr l 1).bind fun _ => .ok (some l)
    | none => .error .exit
  else .ok none

/-- The vectors over cells (upscale_avg.cpp:250-255). -/
structure Arrays (K : Type) where
  vol : Nat → K
  pore : Nat → K
  netPore : Nat → K
  net : Nat → K
  count : Nat

/-- `c->geometry().volume()`, times `actnum` if it is used (upscale_avg.cpp:278-283). -/
def cellVolume (act : Option (List Int)) (c : Nat × K) : Except Err K :=
  match act with
  | none => .ok c.2
  | some l => (arr l c.1).map fun f => c.2 * (f : K)

/-- One element of the grid (upscale_avg.cpp:275-295). NTG is used only together with PORO (upscale_avg.cpp:210-214). -/
def visit (d : Deck K) (act : Option (List Int)) (a : Arrays K) (c : Nat × K) : Except Err (Arrays K) :=
  (cellVolume act c).bind fun v =>
  if c.1 < d.n then
    if v > cutoff then
      (readOpt d.poro c.1).bind fun p => (readOpt (d.poro.bind fun _ => d.ntg) c.1).map fun g =>
        ⟨Function.update a.vol c.1 v,
         p.elim a.pore fun p => Function.update a.pore c.1 (v * p),
         p.elim a.netPore fun p => g.elim a.netPore fun g => Function.update a.netPore c.1 (v * p * g),
         g.elim a.net fun g => Function.update a.net c.1 (v * g), a.count + 1⟩
    else .ok { a with vol := Function.update a.vol c.1 v }
  else .error .ub

/-- The loop over the elements (upscale_avg.cpp:273-295). -/
def fill (d : Deck K) (act : Option (List Int)) (grid : List (Nat × K)) : Except Err (Arrays K) :=
  grid.foldlM (visit d act) ⟨fun _ => 0, fun _ => 0, fun _ => 0, fun _ => 0, 0⟩

/-- `std::accumulate` over a vector of the size of the logical grid. -/
def total (n : Nat) (v : Nat → K) : K := (List.range n).foldl (fun s i => s + v i) 0

/-- The six sums for one direction (upscale_avg.cpp:338-343). -/
structure Sums (K : Type) where
  perm : K
  volPerm : K
  invPerm : K
  invVolPerm : K
  logPerm : K
  logVolPerm : K

/-- One cell of the loop over permeabilities (upscale_avg.cpp:347-377), for one direction. -/
def permStep (ln : K → K) (vol : Nat → K) (k : List K) (s : Sums K) (i : Nat) : Except Err (Sums K) :=
  if vol i > cutoff then
    (arr k i).map fun k => ⟨s.perm + k, s.volPerm + k * vol i, s.invPerm + 1 / k, s.invVolPerm + vol i / k, s.logPerm + ln k,
      s.logVolPerm + ln k * vol i⟩
  else .ok s

/-- Averages of the permeability in one direction: weighted by volume and not weighted. -/
structure Means (K : Type) where
  arith : K
  harm : K
  geom : K
  arithN : K
  harmN : K
  geomN : K

/-- Averages for one direction (upscale_avg.cpp:344-402). The three directions are separate loops here. -/
def means (ln ex : K → K) (n : Nat) (a : Arrays K) (k : List K) : Except Err (Means K) :=
  ((List.range n).foldlM (permStep ln a.vol k) ⟨0, 0, 0, 0, 0, 0⟩).map fun s =>
    ⟨s.volPerm / total n a.vol, total n a.vol / s.invVolPerm, ex (s.logVolPerm / total n a.vol),
     s.perm / (a.count : K), (a.count : K) / s.invPerm, ex (s.logPerm / (a.count : K))⟩

/-- What is collected for a rock type (upscale_avg.cpp:440-465). -/
structure Rock (K : Type) where
  cells : Nat
  active : Nat
  vol : K
  perm : K
  invPerm : K
  volPerm : K
  invVolPerm : K
  pore : K
  var : K

/-- One cell of the loop over rock types (upscale_avg.cpp:468-485). -/
def rockStep (d : Deck K) (vol : Nat → K) (sat : List Int) (t : Nat → Rock K) (i : Nat) : Except Err (Nat → Rock K) :=
  (arr sat i).bind fun r =>
  let o := t r.toNat
  if vol i > cutoff then
    (readOpt d.permx i).bind fun k => (readOpt d.poro i).map fun p => Function.update t r.toNat
      ⟨o.cells + 1, o.active + 1, o.vol + vol i, o.perm + k.elim 0 id, o.invPerm + k.elim 0 fun k => 1 / k,
       o.volPerm + k.elim 0 fun k => k * vol i, o.invVolPerm + k.elim 0 fun k => vol i / k, o.pore + p.elim 0 fun p => vol i * p, o.var⟩
  else .ok (Function.update t r.toNat { o with cells := o.cells + 1 })

/-- One cell of the loop for the variance of the porosity (upscale_avg.cpp:492-500). -/
def varStep (vol : Nat → K) (sat : List Int) (poro : List K) (t : Nat → Rock K) (i : Nat) : Except Err (Nat → Rock K) :=
  if vol i > cutoff then
    (arr sat i).bind fun r => (arr poro i).map fun p =>
      let o := t r.toNat
      Function.update t r.toNat { o with var := o.var + vol i * (p - o.pore / o.vol) ^ 2 }
  else .ok t

/-- What is printed for a rock type (upscale_avg.cpp:505-525). -/
structure RockReport (K : Type) where
  vol : K
  cells : Nat
  active : Nat
  /-- pore volume, porosity, variance of the porosity -/
  poro : Option (K × K × K)
  /-- arithmetic and harmonic average weighted by volume, the same not weighted -/
  perm : Option (K × K × K × K)

def Rock.report (d : Deck K) (o : Rock K) : RockReport K where
  vol := o.vol
  cells := o.cells
  active := o.active
  poro := d.poro.map fun _ => (o.pore, o.pore / o.vol, o.var / o.vol)
  perm := d.permx.map fun _ => (o.volPerm / o.vol, o.vol / o.invVolPerm, o.perm / (o.active : K), (o.active : K) / o.invPerm)

/-- `maxsatnumvalue` (upscale_avg.cpp:427-438). -/
def maxSat (sat : List Int) : Nat := sat.foldl (fun m s => if s > (m : Int) then s.toNat else m) 0

/-- The loop for the variance, if there are porosities (upscale_avg.cpp:492-500). -/
def variances (d : Deck K) (vol : Nat → K) (sat : List Int) (t : Nat → Rock K) : Except Err (Nat → Rock K) :=
  match d.poro with
  | none => .ok t
  | some poro => (List.range d.n).foldlM (varStep vol sat poro) t

/-- Statistics of the rock types (upscale_avg.cpp:412-527): for every rock type with an active cell. -/
def rocks (d : Deck K) (vol : Nat → K) : Except Err (List (Nat × RockReport K)) :=
  match d.satnum <|> d.rocktype with
  | none => .ok []
  | some sat =>
    if sat.any fun s => decide (s < 0 ∨ s > 1000) then .error .exit else
    ((List.range d.n).foldlM (rockStep d vol sat) fun _ => ⟨0, 0, 0, 0, 0, 0, 0, 0, 0⟩).bind fun t =>
    (variances d vol sat t).map fun t =>
    ((List.range (maxSat sat + 1)).filter fun r => decide (0 < (t r).active)).map fun r => (r, (t r).report d)

/-- What is printed. -/
structure Report (K : Type) where
  active : Nat
  volume : K
  /-- pore volume, porosity -/
  poro : Option (K × K)
  /-- net volume, net-to-gross, net pore volume, net porosity -/
  ntg : Option (K × K × K × K)
  permx : Option (Means K)
  permy : Option (Means K)
  permz : Option (Means K)
  rocks : List (Nat × RockReport K)

/-- Averages for a direction that may be missing. -/
def meansOpt (ln ex : K → K) (n : Nat) (a : Arrays K) (k : Option (List K)) : Except Err (Option (Means K)) :=
  match k with
  | none => .ok none
  | some k => (means ln ex n a k).map some

/-- `main` of upscale_avg (upscale_avg.cpp:88-531) after reading the deck and making the grid. PERMY and PERMZ are used only together
and with PERMX (upscale_avg.cpp:216-223). -/
def upscaleAvg (ln ex : K → K) (use : Bool) (d : Deck K) (grid : List (Nat × K)) : Except Err (Report K) :=
  (actnums use d).bind fun act =>
  (fill d act grid).bind fun a =>
  (meansOpt ln ex d.n a d.permx).bind fun mx =>
  (meansOpt ln ex d.n a (d.permx.bind fun _ => d.permz.bind fun _ => d.permy)).bind fun my =>
  (meansOpt ln ex d.n a (d.permx.bind fun _ => d.permy.bind fun _ => d.permz)).bind fun mz =>
  (rocks d a.vol).map fun rs =>
  ⟨a.count, total d.n a.vol,
   d.poro.map fun _ => (total d.n a.pore, total d.n a.pore / total d.n a.vol),
   (d.poro.bind fun _ => d.ntg).map fun _ => (total d.n a.net, total d.n a.net / total d.n a.vol, total d.n a.netPore,
     total d.n a.netPore / total d.n a.net),
   mx, my, mz, rs⟩

end Verif.Stat
