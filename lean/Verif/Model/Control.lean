import Verif.Model.DenseMatrix
import Mathlib.Algebra.Order.Field.Basic

/-!
Model of the input and output of the steady-state managers (`SteadyStateUpscalerManager.hpp`,
`SteadyStateUpscalerManagerImplicit.hpp`) and of the Voigt access functions in `RelPermUtils.cpp`.

Simplifications: a text stream is a list of characters; an extraction that fails (after which the code goes on with
unspecified values) is the outcome `none`; integers are not bounded; number formatting is a parameter.
-/

namespace Verif.Control

open Verif.Dense

variable {K : Type}

/-! ### Voigt access -/

/-- `voigt_idx_tab` (RelPermUtils.cpp:172). -/
def voigtTab : List Nat := [0, 4, 8, 5, 2, 1, 7, 6, 3]

/-- `getVoigtValue` (RelPermUtils.cpp:175-189): `none` is the thrown exception, or undefined behaviour for storage of
fewer than nine elements. -/
def getVoigtValue (T : FullMatrix K) (v : Int) : Option K :=
  if v < 0 ∨ v > 8 then none else
  match voigtTab[v.toNat]? with
  | some i => T.data[i]?
  | none => none

/-- `setVoigtValue` (RelPermUtils.cpp:192-206). -/
def setVoigtValue (T : FullMatrix K) (v : Int) (val : K) : Option (FullMatrix K) :=
  if v < 0 ∨ v > 8 then none else
  match voigtTab[v.toNat]? with
  | some i => if i < T.data.length then some { T with data := T.data.set i val } else none
  | none => none

/-! ### Relative permeability lines -/

/-- The element accesses of one line of `writeRelPerm` (SteadyStateUpscalerManager.hpp:118-126,
SteadyStateUpscalerManagerImplicit.hpp:118-126), in order. -/
def relPermColumns : List (Nat × Nat) :=
  [(0, 0), (1, 1), (2, 2), (1, 2), (0, 2), (0, 1), (2, 1), (2, 0), (1, 2)]

/-- `writeRelPerm` (SteadyStateUpscalerManager.hpp:99-132): the numbers of one line. -/
def writeRelPerm (T : FullMatrix K) (sat pdrop : K) : Option (List K) :=
  (relPermColumns.mapM fun ij => T.get ij.1 ij.2).map fun l => pdrop :: sat :: l

/-! ### Control files -/

/-- Number formatting: `os << x` and the conversion done by `is >> x` on a maximal run of non-blank characters. -/
structure NumFmt (K : Type) where
  print : K → List Char
  parse : List Char → Option K

/-- Characters skipped by `>>`. -/
def isWs (c : Char) : Bool := c = ' ' || c = '\n' || c = '\t'

/-- `is >> int`: skip blanks, then take the digits. A sign is not accepted: negative counts make the vector constructor
throw, and writers never produce them. -/
def readNat (s : List Char) : Option (Nat × List Char) :=
  let s := s.dropWhile isWs
  let d := s.takeWhile Char.isDigit
  if d = [] then none else some (Nat.ofDigitChars 10 d 0, s.dropWhile Char.isDigit)

/-- `is >> double`. -/
def readReal (N : NumFmt K) (s : List Char) : Option (K × List Char) :=
  let s := s.dropWhile isWs
  match N.parse (s.takeWhile fun c => !isWs c) with
  | some x => some (x, s.dropWhile fun c => !isWs c)
  | none => none

/-- The inner loop over the pressure drops (SteadyStateUpscalerManager.hpp:67-69). -/
def readReals (N : NumFmt K) : Nat → List Char → Option (List K × List Char)
  | 0, s => some ([], s)
  | n + 1, s =>
    match readReal N s with
    | some (x, s) =>
      match readReals N n s with
      | some (l, s) => some (x :: l, s)
      | none => none
    | none => none

/-- One pass of the loop over the saturations (SteadyStateUpscalerManager.hpp:63-70). -/
def readRow (N : NumFmt K) (s : List Char) : Option ((K × List K) × List Char) :=
  match readReal N s with
  | some (x, s) =>
    match readNat s with
    | some (n, s) =>
      match readReals N n s with
      | some (l, s) => some ((x, l), s)
      | none => none
    | none => none
  | none => none

/-- The loop over the saturations (SteadyStateUpscalerManager.hpp:62-71). -/
def readRows (N : NumFmt K) : Nat → List Char → Option (List (K × List K) × List Char)
  | 0, s => some ([], s)
  | n + 1, s =>
    match readRow N s with
    | some (r, s) =>
      match readRows N n s with
      | some (l, s) => some (r :: l, s)
      | none => none
    | none => none

/-- `readControl` (SteadyStateUpscalerManager.hpp:53-74): saturations and pressure drops, and the unread text. -/
def readControl (N : NumFmt K) (s : List Char) : Option ((List K × List (List K)) × List Char) :=
  match readNat s with
  | some (n, s) =>
    match readRows N n s with
    | some (rows, s) => some ((rows.map (·.1), rows.map (·.2)), s)
    | none => none
  | none => none

/-- `os << n` for a non-negative integer. -/
def writeNat (n : Nat) : List Char := Nat.toDigits 10 n

/-- One pass of the loop of `writeControl` (SteadyStateUpscalerManager.hpp:85-92). -/
def writeRow (N : NumFmt K) (x : K) (l : List K) : List Char :=
  N.print x ++ '\n' :: (writeNat l.length ++ (l.flatMap fun y => ' ' :: N.print y) ++ ['\n'])

/-- `writeControl` (SteadyStateUpscalerManager.hpp:79-94). Reading a row that does not exist is undefined. -/
def writeControl (N : NumFmt K) (sats : List K) (pdrops : List (List K)) : Option (List Char) :=
  if sats.length ≤ pdrops.length then
    some (writeNat sats.length ++ '\n' :: ((sats.zip pdrops).flatMap fun r => writeRow N r.1 r.2))
  else none

/-! ### Sampling ranges -/

/-- `double factor = n == 1 ? 0 : double(i)/double(n - 1)` (SteadyStateUpscalerManager.hpp:159, 168). -/
def factor [Field K] (n : Int) (i : Nat) : K := if n = 1 then 0 else (i : K) / ((n - 1 : Int) : K)

/-- The linear range of saturations (SteadyStateUpscalerManager.hpp:155-161); a negative count makes `resize` throw. -/
def linRange [Field K] (n : Int) (lo hi : K) : Option (List K) :=
  if n < 0 then none else
  some ((List.range n.toNat).map fun i => (1 - factor n i) * lo + factor n i * hi)

/-- The logarithmic range of pressure drops (SteadyStateUpscalerManager.hpp:163-170), with `std::exp` and `std::log`
given. -/
def expRange [Field K] (exp log : K → K) (n : Int) (lo hi : K) : Option (List K) :=
  if n < 0 then none else
  some ((List.range n.toNat).map fun i => exp ((1 - factor n i) * log lo + factor n i * log hi))

/-! ### The sampling loop -/

/-- What one call of `upscaleSteadyState` leaves: the two tensors, the final saturations and the success flag. -/
structure Outcome (S T : Type) where
  lambda : T × T
  state : S
  usat : K
  success : Bool

/-- The inner loop of `SteadyStateUpscalerManagerImplicit::upscale` (SteadyStateUpscalerManagerImplicit.hpp:236-257):
for each pressure drop limit the initial saturations in place, solve, keep the new state if the solve succeeded, write
a row `(pdrop, usat, lambda, success)`. `none` from `solve` is an exception: the rows written so far remain. -/
def pdropLoop {S T : Type} (limit : S → S) (solve : K → S → Option (Outcome (K := K) S T)) :
    List K → S → List (K × K × (T × T) × Bool) × Bool
  | [], _ => ([], true)
  | p :: ps, init =>
    match solve p (limit init) with
    | none => ([], false)
    | some o =>
      let next := if o.success then o.state else limit init
      let r := pdropLoop limit solve ps next
      ((p, o.usat, o.lambda, o.success) :: r.1, r.2)

/-- The outer loop (SteadyStateUpscalerManagerImplicit.hpp:218-258): every saturation starts from its own initial
profile. The explicit manager (SteadyStateUpscalerManager.hpp:214-239) is the case `limit = id` with success always
set. -/
def satLoop {S T : Type} (limit : S → S) (start : K → S) (solve : K → K → S → Option (Outcome (K := K) S T)) :
    List (K × List K) → List (K × K × (T × T) × Bool) × Bool
  | [] => ([], true)
  | (s, ps) :: rest =>
    let r := pdropLoop limit (solve s) ps (start s)
    if r.2 then
      let q := satLoop limit start solve rest
      (r.1 ++ q.1, q.2)
    else (r.1, false)

/-- `initSatLimits` (SteadyStateUpscalerImplicit_impl.hpp:415-424); `eps` is the constant 1e-4 of the code. -/
def initSatLimits [Field K] [LinearOrder K] (eps : K) (smin smax : Nat → K) (s : List K) : List K :=
  s.zipIdx.map fun e => min (smax e.2 - eps) (max (smin e.2 + eps) e.1)

end Verif.Control
