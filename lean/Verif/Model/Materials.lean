import Mathlib.Algebra.Order.Field.Basic
import Verif.Model.Upscale

/-!
Model of `opm/elasticity/material.cpp` and `opm/elasticity/materials.cpp`.

Simplifications: `double` is a linearly ordered field and dividing by zero gives no value (`none`); file reading is split
off, a rock file is its keyword and its numbers; printing is left out.
-/

namespace Verif.Elastic

open Verif.Upscale (quot)

variable {K : Type} [Field K] [LinearOrder K]

/-- The three classes of material (materials.hh). `sym` holds the upper triangle as stored, row by row. -/
inductive Material (K : Type) where
  | iso (E nu rho : K)
  | orthoD (E : Fin 6 → K)
  | sym (Cupper : Nat → K)

/-- Constructor of `OrthotropicD` (materials.cpp:99-108); shear moduli that are not positive default to the previous one. -/
def mkOrthoD (Ex Ey Ez Gxy Gxz Gyz : K) : Material K :=
  let E4 := if Gxz > 0 then Gxz else Gxy
  let E5 := if Gyz > 0 then Gyz else E4
  .orthoD fun i => [Ex, Ey, Ez, Gxy, E4, E5].getD i 0

/-- `std::swap` of two entries. -/
def swapAt (c : Nat → K) (i j : Nat) : Nat → K := fun k => if k = i then c j else if k = j then c i else c k

/-- Constructor of `OrthotropicSym` (materials.cpp:155-166): five swaps in the stored triangle. -/
def mkSym (Cu : Nat → K) : Material K :=
  .sym (swapAt (swapAt (swapAt (swapAt (swapAt Cu 3 5) 8 10) 12 14) 15 20) 16 19)

/-- `Material::create(ID, params)` (material.cpp:23-64); `none` is the null pointer. -/
def create (params : List K) : Option (Material K) :=
  match params with
  | [a] => some (.iso a 0 0)
  | [a, b] => some (.iso a b 0)
  | [a, b, c] => some (.iso a b c)
  | [a, b, c, d] => some (mkOrthoD a b c d (-1) (-1))
  | [a, b, c, d, e] => some (mkOrthoD a b c d e (-1))
  | [a, b, c, d, e, f] => some (mkOrthoD a b c d e f)
  | [p0, p1, p2, p3, p4, p5, p6, p7, p8] =>
    some (mkSym fun i => [p0, p1, p2, 0, 0, 0, p3, p4, 0, 0, 0, p5, 0, 0, 0, p6, 0, 0, p7, 0, p8].getD i 0)
  | l => if l.length = 21 then some (mkSym fun i => l.getD i 0) else none

/-- The contents of a rock file: keyword and numbers (the keyword `density` and the density follow). -/
inductive RockFile (K : Type) where
  | ti (a b c d e rho : K)
  | anisotropic (c : List K) (rho : K)
  | vpvs (vp vs rho : K)
  | km (bulk shear rho : K)
  | lm (lambda shear rho : K)
  | en (E nu rho : K)

/-- Results of reading a rock file. -/
inductive FileRes (K : Type) where
  | material (m : Material K)
  /-- `exit(1)` -/
  | exit
  /-- a division by zero: the values are not numbers, and are used -/
  | nan

/-- The last part of `Material::create(ID, file)` (material.cpp:136-141). -/
def isoOrExit (rho : K) (Enu : Option (K × K)) : FileRes K :=
  match Enu with
  | none => .nan
  | some (E, nu) => if nu < 0 ∨ nu > 1 / 2 then .exit else .material (.iso E nu rho)

/-- Case `km` (material.cpp:122-124). -/
def fromKM (k g : K) : Option (K × K) :=
  (quot (3 * k - 2 * g) (6 * k + 2 * g)).map fun nu => (2 * g * (1 + nu), nu)

/-- Case `lm` (material.cpp:125-127). -/
def fromLM (l g : K) : Option (K × K) :=
  match quot l (2 * (g + l)) with
  | none => none
  | some nu => (quot ((1 + nu) * (1 - 2 * nu) * l) nu).map fun E => (E, nu)

/-- `Material::create(ID, file)` (material.cpp:66-143) for an existing file of the right format. -/
def createFile : RockFile K → FileRes K
  | .ti a b c d e _ => .material (mkSym fun i =>
      [a, a - 2 * e, b, 0, 0, 0, a, b, 0, 0, 0, c, 0, 0, 0, d, 0, 0, d, 0, e].getD i 0)
  | .anisotropic c _ => .material (mkSym fun i => c.getD i 0)
  | .vpvs vp vs rho => isoOrExit rho (fromKM (rho * vp * vp - 4 / 3 * rho * vs * vs) (rho * vs * vs))
  | .km k g rho => isoOrExit rho (fromKM k g)
  | .lm l g rho => isoOrExit rho (fromLM l g)
  | .en E nu rho => isoOrExit rho (some (E, nu))

/-- Mass density of a material (material.hh:36, 77-80). -/
def Material.density : Material K → K
  | .iso _ _ rho => rho
  | .orthoD _ => 0
  | .sym _ => 0

/-- `Isotropic::getConstitutiveMatrix`, 6 x 6 (materials.cpp:47-76): result flag and matrix. -/
def isoC6 (E nu : K) (inv : Bool) : Bool × (Fin 6 → Fin 6 → K) :=
  if nu < 0 ∨ nu ≥ 1 / 2 then (false, fun _ _ => 0)
  else
    let fact := E / ((1 + nu) * (1 - nu - nu))
    let d := if inv then 1 / E else (1 - nu) * fact
    let o := if inv then -nu / E else nu * fact
    let s := if inv then (2 + nu + nu) / E else (1 / 2 - nu) * fact
    (true, fun i j =>
      if i.val < 3 ∧ j.val < 3 then (if i = j then d else o)
      else if i = j then s else 0)

/-- `Isotropic::getConstitutiveMatrix`, 3 x 3 (materials.cpp:78-97); `C` is the matrix passed in, of which the elements
(0,2), (1,2), (2,0) and (2,1) are not written, nor is anything if the Poisson ratio is refused. -/
def isoC3 (E nu : K) (inv : Bool) (C : Fin 3 → Fin 3 → K) : Bool × (Fin 3 → Fin 3 → K) :=
  if nu < 0 ∨ nu ≥ 1 / 2 then (false, C)
  else
    let fact := E / ((1 + nu) * (1 - nu - nu))
    let d := if inv then (1 - nu * nu) / E else (1 - nu) * fact
    let o := if inv then (-nu - nu * nu) / E else nu * fact
    let s := if inv then (2 + nu + nu) / E else (1 / 2 - nu) * fact
    (true, fun i j =>
      if i.val < 2 ∧ j.val < 2 then (if i = j then d else o)
      else if i = j then s else C i j)

/-- `OrthotropicD::getConstitutiveMatrix`, 6 x 6 (materials.cpp:139-146): only the diagonal of `C` is written. -/
def orthoDC6 (E : Fin 6 → K) (inv : Bool) (C : Fin 6 → Fin 6 → K) : Bool × (Fin 6 → Fin 6 → K) :=
  (true, fun i j => if i = j then (if inv then 1 / E i else E i) else C i j)

/-- Position of element (i, j), `i ≤ j`, in the upper triangle stored row by row: the value of `k` in the loops of
materials.cpp:197-203. -/
def triPos (i j : Nat) : Nat := ((List.range i).map fun r => 6 - r).sum + (j - i)

/-- `OrthotropicSym::getConstitutiveMatrix`, 6 x 6 (materials.cpp:194-211). -/
def symC6 (Cupper : Nat → K) (i j : Fin 6) : K :=
  if i.val ≤ j.val then Cupper (triPos i j) else Cupper (triPos j i)

/-- `getConstitutiveMatrix(C, invers)`; `none` is the failing assertion of the inverse of a general symmetric material
(materials.cpp:205-208). -/
def Material.constitutive (m : Material K) (inv : Bool) (C : Fin 6 → Fin 6 → K) :
    Option (Bool × (Fin 6 → Fin 6 → K)) :=
  match m with
  | .iso E nu _ => some (isoC6 E nu inv)
  | .orthoD E => some (orthoDC6 E inv C)
  | .sym Cu => if inv then none else some (true, symC6 Cu)

end Verif.Elastic
