import Mathlib.Logic.Function.Basic

/-!
Model of the command lines of the example programs: options of the form `-name value`, then the Eclipse file, then the files of the
rock types. An argument is a list of characters. `argv` is the list of arguments with the name of the program first; `vararg[varnum]` is
the null pointer of the C standard, and making a `std::string` or a stream from it is undefined behaviour (`ub`).
-/

namespace Verif.Cmd

abbrev Arg := List Char

/-- How a program goes on: with a value, by printing its usage and stopping, by an exception, or not defined. -/
inductive Outcome (α : Type) where
  | ok (a : α)
  | usage
  | throw
  | ub

/-- The map `options`. -/
abbrev Opts := Arg → Option Arg

/-- `string(vararg[argidx]).substr(0,1) == "-"`. -/
def isOption (a : Arg) : Bool := a.head? == some '-'

/-- The loop over arguments (upscale_avg.cpp:120-141, upscale_cap.cpp:172-193, upscale_cond.cpp:226-248, upscale_relperm.cpp:172-195,
upscale_relpermvisc.cpp:220-241). The list holds the arguments from `argidx` on; `ecl` is `argeclindex`. -/
def scan (argidx ecl : Nat) (opts : Opts) : List Arg → Outcome (Opts × Nat)
  | [] => .ok (opts, ecl)
  | [a] =>
    if isOption a then (if (opts a.tail).isSome then .ub else .usage)
    else .ok (opts, argidx)
  | a :: b :: rest =>
    if isOption a then
      if (opts a.tail).isSome then scan (argidx + 2) (argidx + 2) (Function.update opts a.tail (some b)) rest
      else .usage
    else .ok (opts, argidx)

/-- upscale_cap.cpp:137-208, upscale_cond.cpp:155-262, upscale_relperm.cpp:463-497, upscale_relpermvisc.cpp:206-262: options, Eclipse file
and the files of the rock types. Missing rock files give a usage message or an exception (upscale_relperm), here `usage`. -/
def withRocks (defaults : Opts) (argv : List Arg) : Outcome (Opts × Arg × List Arg) :=
  if argv.length = 1 then .usage else
  match scan 1 0 defaults argv.tail with
  | .ok (opts, ecl) =>
    if argv.length ≤ ecl + 1 then .usage
    else match argv[ecl]? with
      | some f => .ok (opts, f, argv.drop (ecl + 1))
      | none => .ub
  | .usage => .usage
  | .throw => .throw
  | .ub => .ub

/-- upscale_avg.cpp:96-150: options and Eclipse file, which is opened. -/
def fileOnly (defaults : Opts) (argv : List Arg) : Outcome (Opts × Arg) :=
  if argv.length = 1 then .usage else
  match scan 1 0 defaults argv.tail with
  | .ok (opts, ecl) =>
    match argv[ecl]? with
    | some f => .ok (opts, f)
    | none => .ub
  | .usage => .usage
  | .throw => .throw
  | .ub => .ub

/-- The loop of upscale_perm (upscale_perm.cpp:118-131): it stops before the last argument, goes on after unknown options without
counting them, and `substr(1)` of an empty argument throws. -/
def scanPerm (ecl : Nat) (opts : Opts) : List Arg → Outcome (Opts × Nat)
  | [] => .ok (opts, ecl)
  | [_] => .ok (opts, ecl)
  | a :: b :: rest =>
    if a = [] then .throw
    else if isOption a then
      if (opts a.tail).isSome then scanPerm (ecl + 2) (Function.update opts a.tail (some b)) rest
      else scanPerm ecl opts rest
    else .usage

/-- upscale_perm.cpp:98-143: options and Eclipse file, which is opened. -/
def permLine (defaults : Opts) (argv : List Arg) : Outcome (Opts × Arg) :=
  if argv.length = 1 then .usage else
  match scanPerm 1 defaults argv.tail with
  | .ok (opts, ecl) =>
    match argv[ecl]? with
    | some f => .ok (opts, f)
    | none => .ub
  | .usage => .usage
  | .throw => .throw
  | .ub => .ub

/-- Which file is read for the rock types (upscale_cap.cpp:320-386, upscale_cond.cpp:341-420, upscale_relperm.cpp:588-592 and 419-423,
upscale_relpermvisc.cpp:503-638): one for each of the `n` types or one for all. -/
def rockFiles (n : Nat) (files : List Arg) : Outcome (List Arg) :=
  if files.length = n then .ok files
  else match files with
    | [f] => .ok (List.replicate n f)
    | _ => .usage

/-- Neighbouring arguments in pairs. -/
def pairs : List Arg → List (Arg × Arg)
  | a :: b :: l => (a, b) :: pairs l
  | _ => []

/-- The same for anisotropic input (upscale_relpermvisc.cpp:644-850): a file for water and one for oil for each type, or for all. -/
def rockPairs (n : Nat) (files : List Arg) : Outcome (List (Arg × Arg)) :=
  if files.length = 2 * n then .ok (pairs files)
  else match files with
    | [w, o] => .ok (List.replicate n (w, o))
    | _ => .usage

/-- The boundary conditions requested from upscale_perm (upscale_perm.cpp:147-177): fixed, linear, periodic. -/
def conditions (bc : Arg) : Outcome (Bool × Bool × Bool) :=
  if 1 ≤ bc.length ∧ bc.length ≤ 3 then
    let has := fun c => decide (bc.findIdx (· == c) < 3 ∧ bc.findIdx (· == c) < bc.length)
    if !has 'f' && !has 'l' && !has 'p' then .usage
    else .ok (has 'f', has 'l', has 'p')
  else .usage

end Verif.Cmd
