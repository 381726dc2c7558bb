/-!
Model of the element colouring (`opm/elasticity/meshcolorizer.hpp`, `meshcolorizer.cpp`) and of the work chunks
(`opm/elasticity/logutils.hpp`). Machine integers are unbounded. `none` is an access outside of a vector.
-/

namespace Verif.Coloring

/-- `getStripDirection` (meshcolorizer.hpp:66-96); `nel - nel/parts*parts` is `nel % parts`. -/
def stripDirection (n1 n2 n3 parts : Nat) : Nat :=
  let r1 := n1 - n1 / parts * parts
  let r2 := n2 - n2 / parts * parts
  let r3 := n3 - n3 / parts * parts
  if r1 * n2 * n3 < n1 * r2 * n3 ∧ r1 * n2 * n3 < n1 * n2 * r3 then 0
  else if n1 * r2 * n3 < r1 * n2 * n3 ∧ n1 * r2 * n3 < n1 * n2 * r3 then 1
  else if n1 * n2 * r3 < r1 * n2 * n3 ∧ n1 * n2 * r3 < n1 * r2 * n3 then 2
  else if r1 * n2 * n3 > n1 * r2 * n3 then (if n2 > n3 then 1 else 2)
  else if n1 * r2 * n3 > n1 * n2 * r3 then (if n1 > n3 then 0 else 2)
  else if n1 * n2 * r3 > r1 * n2 * n3 then (if n1 > n2 then 0 else 1)
  else if n1 ≥ n2 ∧ n1 ≥ n3 then 0
  else if n2 ≥ n1 ∧ n2 ≥ n3 then 1
  else 2

/-- The loop that reduces the number of threads (meshcolorizer.cpp:44-47); `parts` is twice the number of threads. -/
def reduceThreads (els : Nat) : Nat → Nat
  | 0 => 0
  | t + 1 => if t + 1 > 1 ∧ els / (2 * (t + 1)) < 2 then reduceThreads els t else t + 1

/-- `stripsizes[i%2][threads-(i+1)/2]++` (meshcolorizer.cpp:80-81). -/
def bump (threads : Nat) (s : Nat → Nat → Nat) (i : Nat) : Option (Nat → Nat → Nat) :=
  if 1 ≤ (i + 1) / 2 ∧ (i + 1) / 2 ≤ threads then
    some fun c t => if c = i % 2 ∧ t = threads - (i + 1) / 2 then s c t + 1 else s c t
  else none

/-- `stripsizes` (meshcolorizer.cpp:77-81): colour, thread. -/
def stripSizes (threads stripsize remainder : Nat) : Option (Nat → Nat → Nat) :=
  (List.range' 1 remainder).foldlM (bump threads) fun _ _ => stripsize

/-- `offs` before the two strips of thread `t` (meshcolorizer.cpp:83-90). -/
def offset (s : Nat → Nat → Nat) : Nat → Nat
  | 0 => 0
  | t + 1 => offset s t + s 0 t + s 1 t

/-- `startelms` without the factor `mul`. -/
def start (s : Nat → Nat → Nat) (colour t : Nat) : Nat := if colour = 0 then offset s t else offset s t + s 0 t

/-- `globalActive` (meshcolorizer.cpp:72-75). -/
def globalActive (size : Nat) (globalCell : List Nat) : Option (List (Option Nat)) :=
  globalCell.zipIdx.foldlM (fun ga p => if p.1 < ga.length then some (ga.set p.1 (some p.2)) else none)
    (List.replicate size none)

/-- The three nested loops (meshcolorizer.cpp:98-107): numbers of the visited cells. -/
def visited (n1 n2 first maxx maxy maxz : Nat) : List Nat :=
  (List.range maxz).flatMap fun i3 => (List.range maxy).flatMap fun i2 => (List.range maxx).map fun i1 =>
    first + i1 + n1 * (i2 + n2 * i3)

/-- Elements of one colour and thread (meshcolorizer.cpp:95-107). -/
def strip (n1 n2 n3 dir mul : Nat) (ga : List (Option Nat)) (s : Nat → Nat → Nat) (colour t : Nat) : Option (List Nat) :=
  ((visited n1 n2 (start s colour t * mul) (if dir = 0 then s colour t else n1) (if dir = 1 then s colour t else n2)
    (if dir = 2 then s colour t else n3)).mapM fun e => ga[e]?).map fun l => l.filterMap id

/-- `calcGroups` (meshcolorizer.cpp:24-118) with OpenMP and `maxThreads` threads: elements of each thread for both colours.
The summary that is printed divides by `stripsize` (lines 54-58): `none` if this is zero, i.e. if the chosen direction has no
elements. -/
def calcGroups (n1 n2 n3 : Nat) (globalCell : List Nat) (maxThreads : Nat) : Option (List (List Nat) × List (List Nat)) :=
  let dir := stripDirection n1 n2 n3 (if maxThreads > 1 then 2 * maxThreads else 1)
  let mul := if dir = 0 then 1 else n1 * (if dir = 1 then 1 else n2)
  let els := if dir = 0 then n1 else if dir = 1 then n2 else n3
  let threads := reduceThreads els maxThreads
  if threads = 1 then (if els = 0 then none else some ([List.range globalCell.length], []))
  else
    let stripsize := els / (2 * threads)
    (globalActive (n1 * n2 * n3) globalCell).bind fun ga =>
    (stripSizes threads stripsize (els - stripsize * (2 * threads))).bind fun s =>
    ((List.range threads).mapM (strip n1 n2 n3 dir mul ga s 0)).bind fun g0 =>
    ((List.range threads).mapM (strip n1 n2 n3 dir mul ga s 1)).map fun g1 => (g0, g1)

/-- `calcGroups` without OpenMP (meshcolorizer.cpp:60-69). -/
def calcGroupsSerial (globalCell : List Nat) : List (List Nat) × List (List Nat) := ([List.range globalCell.length], [])

/-! ### Chunks -/

/-- `sizes` in the constructor of `LoggerHelper` (logutils.hpp:31-35). -/
def chunkSizes (max chunks : Nat) : List Nat :=
  (List.range' (chunks - max % chunks) (max % chunks)).foldl (fun l i => l.modify i (· + 1))
    (List.replicate chunks (max / chunks))

/-- `groups` (logutils.hpp:36-40); `none` if a vector is accessed out of its range. -/
def chunkGroups (max chunks : Nat) : Option (List Nat) :=
  if chunks = 0 then none
  else
    ((List.range' 1 (chunks - 1)).foldlM (fun g i => (g[i - 1]?).bind fun a => ((chunkSizes max chunks)[i - 1]?).map fun b =>
      g ++ [a + b]) [0]).map fun g => g ++ [max]

/-- `group(i)` (logutils.hpp:47-50). -/
def chunk (max chunks i : Nat) : Option (Nat × Nat) :=
  (chunkGroups max chunks).bind fun g => (g[i]?).bind fun a => (g[i + 1]?).map fun b => (a, b)

end Verif.Coloring
