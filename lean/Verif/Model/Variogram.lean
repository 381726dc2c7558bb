import Mathlib.Algebra.Order.Field.Basic
import Verif.Model.Chopper
import Verif.Model.DepthTrend

/-!
Model of `examples/exp_variogram.cpp`: pairs of subsamples, and the table of their distances and differences.

Simplifications: as in `Model/DepthTrend.lean`; the square root is a parameter. The header and the formatting of numbers are left out.
-/

namespace Verif.Variogram

open Verif.Chopper
open Verif.DepthTrend (Upscaler)

variable {K : Type} [Field K] [LinearOrder K]

structure Opts (K : Type) where
  imin : Int
  imax : Int
  jmin : Int
  jmax : Int
  zmin : K
  zmax : K
  pairs : Int
  ilen : Int
  jlen : Int
  zlen : K
  direction : String

/-- `variogram_direction` (exp_variogram.cpp:119-129); the value `undefined` is overwritten in both branches, so the check that follows
(exp_variogram.cpp:132-135) has no effect. -/
def vertical (o : Opts K) : Bool := o.direction == "vertical" || o.direction == "vert"

/-- What the distributions give for one pair; the horizontal variogram does not use `z2`, the vertical one does not use `i2` and `j2`. -/
structure Draw (K : Type) where
  i1 : Int
  j1 : Int
  z1 : K
  i2 : Int
  j2 : Int
  z2 : K

/-- What the distributions can give (exp_variogram.cpp:158-163): both ends are included for the whole numbers; the end is excluded for the depth, unless the
interval is a single point. -/
def Possible (o : Opts K) (d : Draw K) : Prop :=
  (∀ i ∈ [d.i1, d.i2], o.imin ≤ i ∧ i ≤ o.imax - o.ilen) ∧ (∀ j ∈ [d.j1, d.j2], o.jmin ≤ j ∧ j ≤ o.jmax - o.jlen) ∧
  ∀ z ∈ [d.z1, d.z2], o.zmin ≤ z ∧ (z < max (o.zmax - o.zlen) o.zmin ∨ (z = o.zmin ∧ max (o.zmax - o.zlen) o.zmin = o.zmin))

/-- Column, row and depth where a subsample begins. -/
structure Start (K : Type) where
  i : Int
  j : Int
  z : K

/-- The first subsample of a pair (exp_variogram.cpp:173-175). -/
def first (d : Draw K) : Start K := ⟨d.i1, d.j1, d.z1⟩

/-- The second subsample of a pair (exp_variogram.cpp:187-198). -/
def second (o : Opts K) (d : Draw K) : Start K :=
  if vertical o then ⟨d.i1, d.j1, d.z2⟩ else ⟨d.i2, d.j2, d.z1⟩

/-- The arguments of `chop` (exp_variogram.cpp:176, 199). -/
def request (o : Opts K) (s : Start K) : Req K :=
  ⟨s.i.toNat, (s.i + o.ilen).toNat, s.j.toNat, (s.j + o.jlen).toNat, s.z, s.z + o.zlen, false⟩

/-- Porosity and the diagonal of the tensor in millidarcy. -/
structure Sample (K : Type) where
  poro : K
  kx : K
  ky : K
  kz : K

/-- Chopping and upscaling one subsample (exp_variogram.cpp:176-184, 199-207), and the chopper afterwards; `none`: an exception. -/
def take (D : Deck K) (L : Limits K) (U : Upscaler K) (ch : Out K) (R : Req K) : Option (Out K × Sample K) :=
  match chop D L ch R with
  | .error _ => none
  | .ok sub =>
    match U.tensor sub with
    | none => none
    | some T =>
      let s := 1 / U.mD
      some (sub, ⟨U.poro sub, T 0 0 * s, T 1 1 * s, T 2 2 * s⟩)

/-- The distance (exp_variogram.cpp:209-214). -/
def distance (sqrt : K → K) (o : Opts K) (a b : Start K) : K :=
  if vertical o then |b.z - a.z| else sqrt (((b.i - a.i : Int) : K) ^ 2 + ((b.j - a.j : Int) : K) ^ 2)

/-- The five vectors of results (exp_variogram.cpp:166-170). -/
structure Cols (K : Type) where
  dist : List K
  poro : List K
  kx : List K
  ky : List K
  kz : List K

/-- One pass of the loop (exp_variogram.cpp:172-219). -/
def pass (D : Deck K) (L : Limits K) (U : Upscaler K) (sqrt : K → K) (o : Opts K) (draws : Nat → Draw K) (st : Out K × Cols K) (p : Nat) :
    Option (Out K × Cols K) := do
  let d := draws p
  let a ← take D L U st.1 (request o (first d))
  let b ← take D L U a.1 (request o (second o d))
  let c := st.2
  return (b.1, ⟨c.dist ++ [distance sqrt o (first d) (second o d)], c.poro ++ [|b.2.poro - a.2.poro|],
    c.kx ++ [|b.2.kx - a.2.kx|], c.ky ++ [|b.2.ky - a.2.ky|], c.kz ++ [|b.2.kz - a.2.kz|]⟩)

/-- A line of the table. -/
structure Row (K : Type) where
  dist : K
  poro : K
  kx : K
  ky : K
  kz : K
deriving DecidableEq

/-- The table (exp_variogram.cpp:244-251); `none`: a vector is read past its end. -/
def table (o : Opts K) (c : Cols K) : Option (List (Row K)) :=
  (List.range o.pairs.toNat).mapM fun (s : Nat) => do
    let z ← c.dist[s]?
    let p ← c.poro[s]?
    let x ← c.kx[s]?
    let y ← c.ky[s]?
    let w ← c.kz[s]?
    return ⟨z, p, x, y, w⟩

/-- How a run ends: `exits` with an error message, `refused` or `aborted` with an exception, `ub`, or the table with the metric of its first column. -/
inductive Result (K : Type) where
  | exits
  | refused
  | ub
  | aborted
  | printed (metric : String) (rows : List (Row K))

/-- `main` after the options are read (exp_variogram.cpp:105-262). -/
def run (D : Deck K) (L : Limits K) (U : Upscaler K) (sqrt : K → K) (o : Opts K) (draws : Nat → Draw K) : Result K :=
  if o.ilen ≤ 0 ∨ o.jlen ≤ 0 ∨ o.zlen ≤ 0 then .exits
  else if verifyInscribedShoebox D L o.imin o.ilen o.imax o.jmin o.jlen o.jmax o.zmin o.zlen o.zmax then
    if o.imin ≤ o.imax - o.ilen ∧ o.jmin ≤ o.jmax - o.jlen then
      match (List.range o.pairs.toNat).foldlM (pass D L U sqrt o draws) (Out.init, ⟨[], [], [], [], []⟩) with
      | none => .aborted
      | some st =>
        match table o st.2 with
        | none => .ub
        | some rows => .printed (if vertical o then "zcorn" else "cells") rows
    else .ub
  else .refused

end Verif.Variogram
