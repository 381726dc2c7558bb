import Mathlib.Algebra.Order.Field.Basic
import Mathlib.Algebra.Order.Group.Abs
import Mathlib.Data.List.Basic
import Verif.Model.Compare

/-!
Specification of files of values and of their comparison.
-/

namespace Verif.Compare.Spec

/-- White space within a line. -/
def Blank (c : Char) : Prop := c = ' ' ∨ c = '\t' ∨ c = '\r' ∨ c.toNat = 11 ∨ c.toNat = 12

/-- A value as written: no white space, not the start of a comment. -/
def Word (w : List Char) : Prop := w ≠ [] ∧ (∀ c ∈ w, ¬ Blank c ∧ c ≠ '\n') ∧ w.head? ≠ some '#'

/-- The end of a line. -/
inductive Tail where
  | nothing
  | word (w : List Char)
  | comment (text : List Char)

/-- A line: white space, words each followed by white space, end. -/
structure Line where
  lead : List Char
  values : List (List Char × List Char)
  tail : Tail

/-- The line is written as described. -/
def Line.Ok (l : Line) : Prop :=
  (∀ c ∈ l.lead, Blank c) ∧ (∀ p ∈ l.values, Word p.1 ∧ p.2 ≠ [] ∧ ∀ c ∈ p.2, Blank c) ∧
    match l.tail with
    | .nothing => True
    | .word w => Word w
    | .comment t => ∀ c ∈ t, c ≠ '\n'

/-- Its characters. -/
def Line.chars (l : Line) : List Char :=
  l.lead ++ l.values.flatMap (fun p => p.1 ++ p.2) ++ match l.tail with | .nothing => [] | .word w => w | .comment t => '#' :: t

/-- Its values as written. -/
def Line.content (l : Line) : List (List Char) :=
  l.values.map Prod.fst ++ match l.tail with | .word w => [w] | _ => []

/-- The text of a file. -/
def text : List Line → List Char
  | [] => []
  | l :: ls => l.chars ++ '\n' :: text ls

/-- The lists have the same number of values, and values at the same place agree to the absolute or to the relative tolerance. -/
def Agree {K : Type} [Field K] [LinearOrder K] (absTol relTol : K) (a b : List K) : Prop :=
  a.length = b.length ∧ ∀ (i : Nat) (x y : K), a[i]? = some x → b[i]? = some y → |x - y| ≤ absTol ∨ |x - y| ≤ relTol * max |x| |y|

end Verif.Compare.Spec
