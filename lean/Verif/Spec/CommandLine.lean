import Verif.Model.CommandLine

/-! How the usage texts describe the command lines. -/

namespace Verif.Cmd.Spec

open Verif.Cmd

/-- `prog -name value ... -name value` followed by other arguments. -/
def line (prog : Arg) (os : List (Arg × Arg)) (rest : List Arg) : List Arg :=
  prog :: (os.flatMap fun o => ['-' :: o.1, o.2]) ++ rest

/-- The value of option `k`: the last one given, the default if there is none. -/
def Value (defaults : Opts) (os : List (Arg × Arg)) (k v : Arg) : Prop :=
  (∃ l r, os = l ++ (k, v) :: r ∧ ∀ o ∈ r, o.1 ≠ k) ∨ (∀ o ∈ os, o.1 ≠ k) ∧ defaults k = some v

/-- All options are known. -/
def Known (defaults : Opts) (os : List (Arg × Arg)) : Prop := ∀ o ∈ os, ∃ v, defaults o.1 = some v

/-- A file name does not begin with a minus sign. -/
def IsFile (f : Arg) : Prop := ∀ l, f ≠ '-' :: l

end Verif.Cmd.Spec
