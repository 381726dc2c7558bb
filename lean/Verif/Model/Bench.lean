import Mathlib.Algebra.Order.Floor.Ring
import Verif.Model.Compare

/-!
Model of `benchmarks/upscale_relperm_benchmark.cpp`: the two tables that are compiled into the program, the verdict on the computed curves, and what
the caller of the program sees.

The decompressed files are lists of characters. `num` reads a word as a number (`none` if the extraction fails); that a word is read in full or not
at all is a simplification. The upscaling itself (RelPermUtils) is a parameter: it gives the computed curves or throws. Computed values are doubles
with infinities and `nan` (`Verif.Compare.Dbl`), values that are read are finite.
-/

namespace Verif.Bench

open Verif.Compare

/-- A stream over the words of a line, and the variable that values are extracted to; `none` is a variable that was never set. -/
structure In (K : Type) where
  words : List (List Char)
  failed : Bool
  value : Option K

/-- The curves of the reference: pressure, saturation and the three relative permeabilities (upscale_relperm_benchmark.cpp:484-497). -/
structure Reference (K : Type) where
  p : List K
  s : List K
  k0 : List K
  k1 : List K
  k2 : List K
deriving DecidableEq

/-- The columns of the stone file (upscale_relperm_benchmark.cpp:337-339). -/
structure Stone (K : Type) where
  sw : List K
  kr : List K
  j : List K
deriving DecidableEq

/-- The computed curves (upscale_relperm_benchmark.cpp:461, 474-476, 524-538): number of points, number of elements of the tensors, saturations,
pressures times surface tension and, for every element, the relative permeabilities of the phase. -/
structure Computed (K : Type) where
  points : Nat
  elements : Nat
  s : List (Dbl K)
  p : List (Dbl K)
  kr : List (List (Dbl K))

/-- What is said about the result (upscale_relperm_benchmark.cpp:590-603). -/
inductive Verdict where
  | count
  | equal
  | different
deriving DecidableEq

/-- What the program writes. -/
inductive Message where
  | start
  | usage
  | error
  | report (v : Verdict)
deriving DecidableEq

/-- How the program ends: with an exit code, after messages to the output and to the error stream, or with undefined behaviour. -/
inductive Ending where
  | exit (code : Nat) (out err : List Message)
  | undefined
deriving DecidableEq

section

variable {K : Type} [Field K] [LinearOrder K]

/-- `line >> x` for a `double`: a stream that has failed, or that is at its end, leaves `x` as it is; text that is not a number makes it zero. -/
def In.extract (num : List Char → Option K) (s : In K) : In K :=
  if s.failed then s
  else match s.words with
    | [] => { s with failed := true }
    | w :: ws => match num w with
      | some x => ⟨ws, false, some x⟩
      | none => ⟨ws, true, some 0⟩

/-- A line of the reference (upscale_relperm_benchmark.cpp:504-518); `none` is the use of a value that was never set. -/
def referenceLine (num : List Char → Option K) (r : Reference K) (line : List Char) : Option (Reference K) :=
  if line.take 1 = ['#'] then some r
  else
    let a := In.extract num ⟨words [] line, false, none⟩
    let b := a.extract num
    let c := b.extract num
    let d := c.extract num
    let e := d.extract num
    do
      let p ← a.value
      let s ← b.value
      let x ← c.value
      let y ← d.value
      let z ← e.value
      pure ⟨r.p ++ [p], r.s ++ [s], r.k0 ++ [x], r.k1 ++ [y], r.k2 ++ [z]⟩

/-- Reading the reference (upscale_relperm_benchmark.cpp:499-519). -/
def readReference (num : List Char → Option K) (file : List Char) : Option (Reference K) :=
  (getlines [] file).foldlM (referenceLine num) ⟨[], [], [], [], []⟩

/-- The columns of a line of the stone file (upscale_relperm_benchmark.cpp:347-353); `n` is `colNr`. -/
def stoneColumns (num : List Char → Option K) (relPermCurve jFunctionCurve : Nat) : Nat → List (List Char) → Stone K → Stone K
  | _, [], t => t
  | n, w :: ws, t =>
    match num w with
    | none => t
    | some x => stoneColumns num relPermCurve jFunctionCurve (n + 1) ws
        (if n = 1 then { t with sw := t.sw ++ [x] }
        else if n = relPermCurve then { t with kr := t.kr ++ [x] }
        else if n = jFunctionCurve then { t with j := t.j ++ [x] }
        else t)

/-- A line of the stone file (upscale_relperm_benchmark.cpp:342-353). -/
def stoneLine (num : List Char → Option K) (relPermCurve jFunctionCurve : Nat) (t : Stone K) (line : List Char) : Stone K :=
  if line.take 1 = ['#'] then t else stoneColumns num relPermCurve jFunctionCurve 1 (words [] line) t

/-- Reading the stone file (upscale_relperm_benchmark.cpp:335-354). -/
def readStone (num : List Char → Option K) (relPermCurve jFunctionCurve : Nat) (file : List Char) : Stone K :=
  (getlines [] file).foldl (stoneLine num relPermCurve jFunctionCurve) ⟨[], [], []⟩

/-- `fabs(reference - computed) > tol`. -/
def exceeds (tol a : K) (b : Dbl K) : Bool := (Dbl.fin tol).lt ((Dbl.fin a).sub b).abs

/-- The loop over saturations and pressures (upscale_relperm_benchmark.cpp:531-540), from point `i` with `n` points left: the flags
`saturationsEqual` and `pressuresEqual`; `none` is an access out of range. -/
def curves (tol : K) (r : Reference K) (c : Computed K) : Nat → Nat → Option (Bool × Bool)
  | _, 0 => some (true, true)
  | i, n + 1 => do
    let a ← r.s[i]?
    let b ← c.s[i]?
    if exceeds tol a b then pure (false, true)
    else do
      let x ← r.p[i]?
      let y ← c.p[i]?
      if exceeds (tol * 100) x y then pure (true, false) else curves tol r c (i + 1) n

/-- The inner loop over the relative permeabilities of an element (upscale_relperm_benchmark.cpp:542-547): no value deviates. -/
def element (tol : K) (a : List K) (b : List (Dbl K)) : Nat → Nat → Option Bool
  | _, 0 => some true
  | i, n + 1 => do
    let x ← a[i]?
    let y ← b[i]?
    if exceeds tol x y then pure false else element tol a b (i + 1) n

/-- The outer loop (upscale_relperm_benchmark.cpp:541-548): `relpermsEqual`. -/
def elements (tol : K) (a : List (List K)) (b : List (List (Dbl K))) (points : Nat) : Nat → Nat → Option Bool
  | _, 0 => some true
  | v, n + 1 => do
    let x ← a[v]?
    let y ← b[v]?
    let here ← element tol x y 0 points
    let rest ← elements tol a b points (v + 1) n
    pure (here && rest)

/-- The verdict (upscale_relperm_benchmark.cpp:521-549, 590-603). -/
def verify (tol : K) (r : Reference K) (c : Computed K) : Option Verdict :=
  if r.s.length = c.points ∧ r.p.length = c.points ∧ r.k0.length = c.points ∧ r.k1.length = c.points ∧ r.k2.length = c.points then do
    let f ← curves tol r c 0 c.points
    let k ← elements tol [r.k0, r.k1, r.k2] c.kr c.points 0 c.elements
    pure (if f.2 && f.1 && k then .equal else .different)
  else some .count

/-- The standard streams while the program runs: `redirected` says that both write to a local string stream (upscale_relperm_benchmark.cpp:199-204,
557-558). -/
structure Console where
  redirected : Bool
  out : List Message
  err : List Message

/-- `cout << m`. -/
def Console.cout (s : Console) (m : Message) : Console := if s.redirected then s else { s with out := s.out ++ [m] }

/-- `cerr << m`. -/
def Console.cerr (s : Console) (m : Message) : Console := if s.redirected then s else { s with err := s.err ++ [m] }

/-- `return` from `main` (upscale_relperm_benchmark.cpp:635): the local string stream is destroyed, and the standard streams are flushed after that. -/
def Console.return (s : Console) : Ending := if s.redirected then .undefined else .exit 0 s.out s.err

/-- `exit(1)` (upscale_relperm_benchmark.cpp:145-151): local variables live on. -/
def Console.exit (s : Console) : Ending := .exit 1 s.out s.err

/-- The handler of exceptions (upscale_relperm_benchmark.cpp:637-640): the local string stream is gone when it runs, so writing to a stream that is
redirected is undefined. -/
def Console.handler (s : Console) : Ending :=
  if s.redirected then .undefined else ((s.cerr .error).cerr .usage).exit

/-- `main` (upscale_relperm_benchmark.cpp:169-640): `rank` is the number of the process, `args` the number of arguments given by the user, `reference`
the text of the reference and `compute` the curves (`none` for an exception). -/
def main (num : List Char → Option K) (tol : K) (rank args : Nat) (reference : List Char) (compute : Option (Computed K)) : Ending :=
  let s : Console := ⟨false, [], []⟩
  let s := if rank = 0 then s.cout .start else s
  let s := { s with redirected := true }
  if args > 0 then (s.cerr .usage).exit
  else
    match compute with
    | none => s.handler
    | some c =>
      if rank = 0 then
        match (readReference num reference).bind fun r => verify tol r c with
        | none => .undefined
        | some v =>
          let s := { s with redirected := false }
          (s.cout (.report v)).return
      else s.return

/-- Minutes and seconds of a time in seconds (upscale_relperm_benchmark.cpp:563-564). -/
def minSec [FloorRing K] (t : K) : K × K :=
  let m : K := (⌊t / 60⌋ : Int)
  (m, t - m * 60)

end

end Verif.Bench
