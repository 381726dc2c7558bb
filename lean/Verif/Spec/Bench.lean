import Verif.Model.Bench
import Verif.Spec.Compare

/-!
Specification of tables as text files, and of the agreement of curves with a reference.
-/

namespace Verif.Bench.Spec

open Verif.Compare

/-- A line of a table: a comment, or a row of words. -/
inductive Item where
  | comment (t : List Char)
  | row (l : Compare.Spec.Line)

/-- The line is written as described; a row has no comment at its end. -/
def Item.Ok : Item → Prop
  | .comment t => ∀ c ∈ t, c ≠ '\n'
  | .row l => l.Ok ∧ ∀ t, l.tail ≠ .comment t

/-- Its characters. -/
def Item.chars : Item → List Char
  | .comment t => '#' :: t
  | .row l => l.chars

/-- The text of a table. -/
def text (l : List Item) : List Char := l.flatMap fun x => x.chars ++ ['\n']

/-- The words of the rows. -/
def rows (l : List Item) : List (List (List Char)) := l.filterMap fun x => match x with | .comment _ => none | .row l => some l.content

/-- A column (counted from zero) of rows of numbers. -/
def column {K : Type} [Zero K] (value : List Char → K) (rows : List (List (List Char))) (i : Nat) : List K :=
  rows.map fun r => (r.map value).getD i 0

/-- Every computed curve of the three has as many values as there are points. -/
def Complete {K : Type} (c : Computed K) : Prop :=
  c.elements ≤ 3 ∧ c.elements ≤ c.kr.length ∧ c.s.length = c.points ∧ c.p.length = c.points ∧ ∀ k ∈ c.kr, k.length = c.points

/-- A computed value is a number that is as close to a reference value as `tol` says. -/
def Close {K : Type} [Field K] [LinearOrder K] (tol a : K) (b : Dbl K) : Prop := ∃ y, b = .fin y ∧ |a - y| ≤ tol

/-- The reference has the number of points of the result, saturations and relative permeabilities are within `tol` of it, and pressures are within
`tolP` of it. -/
def Agrees {K : Type} [Field K] [LinearOrder K] (tol tolP : K) (r : Reference K) (c : Computed K) : Prop :=
  (r.s.length = c.points ∧ r.p.length = c.points ∧ r.k0.length = c.points ∧ r.k1.length = c.points ∧ r.k2.length = c.points) ∧
    (∀ (i : Nat) (a : K) (b : Dbl K), r.s[i]? = some a → c.s[i]? = some b → Close tol a b) ∧
    (∀ (i : Nat) (a : K) (b : Dbl K), r.p[i]? = some a → c.p[i]? = some b → Close tolP a b) ∧
    ∀ (v i : Nat) (k : List (Dbl K)) (a : K) (b : Dbl K), v < c.elements → c.kr[v]? = some k →
      (if v = 0 then r.k0 else if v = 1 then r.k1 else r.k2)[i]? = some a → k[i]? = some b → Close tol a b

/-- No computed value is `nan`. -/
def Numbers {K : Type} (c : Computed K) : Prop := .nan ∉ c.s ∧ .nan ∉ c.p ∧ ∀ k ∈ c.kr, .nan ∉ k

end Verif.Bench.Spec
