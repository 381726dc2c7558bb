import Mathlib.Algebra.BigOperators.Group.List.Basic
import Verif.Model.Materials

/-!
Model of `loadMaterialsFromGrid` and `loadMaterialsFromRocklist` (`opm/elasticity/elasticity_upscale_impl.hpp:573-771`).

Simplifications: the deck is given as the arrays it holds; `double` is a linearly ordered field; the loop over cells is
split into independent loops for materials, saturation regions and density; the object starts without materials and
volume fractions; the order in which `std::map` lists materials, the assertion that cells have positive volume and
printing are left out; the sum of the volumes starts from a `float` zero, which is exact.
-/

namespace Verif.Elastic

open Verif.Upscale (quot)

variable {K : Type} [Field K] [LinearOrder K]

/-- Ways to end. -/
inductive Out (α : Type) where
  /-- `exit(1)` -/
  | exit
  /-- undefined behaviour: access out of range or a wrong cast -/
  | ub
  /-- a division by zero -/
  | nan
  | ok (a : α)

/-- Sequencing. -/
def Out.bind {α β : Type} (o : Out α) (f : α → Out β) : Out β :=
  match o with
  | .exit => .exit
  | .ub => .ub
  | .nan => .nan
  | .ok a => f a

/-- The moduli found in the deck, in the order in which they are looked for (elasticity_upscale_impl.hpp:584-646). -/
inductive Moduli (K : Type) where
  | uniform (cells : Nat)
  | en (E nu : List K)
  | lm (lame shear : List K)
  | km (bulk shear : List K)
  | permporo (perm poro : List K)
  | missing

/-- `min_element` (first of the smallest); `none` for an empty list. -/
def minElem : List K → Option K
  | [] => none
  | x :: l => some (l.foldl min x)

/-- The conversion loop: one pair of numbers per cell of the first array (elasticity_upscale_impl.hpp:606-609, 625-628). -/
def convert (f : K → K → Option (K × K)) (a b : List K) : Out (List K × List K) :=
  match a, b with
  | [], _ => .ok ([], [])
  | _ :: _, [] => .ub
  | x :: a, y :: b =>
    match f x y with
    | none => .nan
    | some p => (convert f a b).bind fun r => .ok (p.1 :: r.1, p.2 :: r.2)

/-- Lamé and shear modulus (elasticity_upscale_impl.hpp:607-608). -/
def convLM (l g : K) : Option (K × K) :=
  match quot (g * (3 * l + 2 * g)) (l + g), quot (1 / 2 * l) (l + g) with
  | some E, some nu => some (E, nu)
  | _, _ => none

/-- Bulk and shear modulus (elasticity_upscale_impl.hpp:626-627). -/
def convKM (k g : K) : Option (K × K) :=
  match quot (9 * k * g) (3 * k + g), quot (1 / 2 * (3 * k - 2 * g)) (3 * k + g) with
  | some E, some nu => some (E, nu)
  | _, _ => none

/-- The check for auxetic material (elasticity_upscale_impl.hpp:594-599, 610-616, 629-635). -/
def auxetic (r : List K × List K) : Out (List K × List K) :=
  match minElem r.2 with
  | none => .ub
  | some m => if m < 0 then .exit else .ok r

/-- Young's moduli and Poisson's ratios by deck cell (elasticity_upscale_impl.hpp:584-646). -/
def moduli : Moduli K → Out (List K × List K)
  | .uniform n => .ok (List.replicate n 100, List.replicate n (38 / 100))
  | .en E nu => auxetic (E, nu)
  | .lm l g => (convert convLM l g).bind auxetic
  | .km k g => (convert convKM k g).bind auxetic
  | .permporo p q => .ok (p, q)
  | .missing => .exit

/-- Scaling of the moduli (elasticity_upscale_impl.hpp:653-657); also the value of `Emin`. -/
def scaleE (Escale Emin0 : K) (Emod : List K) : Out (List K × K) :=
  if Escale > 0 then
    match minElem Emod with
    | none => .ub
    | some m => if m = 0 then .nan else .ok (Emod.map fun e => e * (Escale / m), m)
  else .ok (Emod, Emin0)

/-- State of the loop over cells: material number of each cell, the distinct materials, volume per material. -/
structure Cells (K : Type) where
  mats : List Nat
  cache : List (K × K)
  vol : Nat → K

/-- One cell (elasticity_upscale_impl.hpp:667-681); `findIdx` is the look-up in the cache. -/
def cellStep (Emod nu : List K) (s : Cells K) (c : Nat × K) : Option (Cells K) :=
  match Emod[c.1]?, nu[c.1]? with
  | some E, some n =>
    let id := s.cache.findIdx fun p => decide (p.1 = E ∧ p.2 = n)
    if id < s.cache.length then
      some ⟨s.mats ++ [id], s.cache, fun j => if j = id then s.vol j + c.2 else s.vol j⟩
    else
      some ⟨s.mats ++ [s.cache.length], s.cache ++ [(E, n)], fun j => if j = s.cache.length then c.2 else s.vol j⟩
  | _, _ => none

/-- The loop over cells, given as (deck cell, volume) (elasticity_upscale_impl.hpp:664-690). -/
def cellLoop (Emod nu : List K) (cells : List (Nat × K)) : Option (Cells K) :=
  cells.foldlM (cellStep Emod nu) ⟨[], [], fun _ => 0⟩

/-- `totalvolume` (elasticity_upscale_impl.hpp:693-696). -/
def totalVolume (s : Cells K) : K := ((List.range s.cache.length).map s.vol).sum

/-- Enlarging a vector with zeros. -/
def resize (v : List K) (n : Nat) : List K := v ++ List.replicate (n - v.length) 0

/-- Volumes by saturation region, one cell (elasticity_upscale_impl.hpp:682-686). -/
def satStep (satnum : List Int) (vf : List K) (c : Nat × K) : Option (List K) :=
  match satnum[c.1]? with
  | none => none
  | some n =>
    let vf' := if n > (vf.length : Int) then resize vf n.toNat else vf
    if n < 1 then none else some (vf'.modify (n.toNat - 1) fun x => x + c.2)

/-- Mass, one cell (elasticity_upscale_impl.hpp:687-688). -/
def rhoStep (rho : List K) (m : K) (c : Nat × K) : Option K := (rho[c.1]?).map fun r => m + c.2 * r

/-- What `loadMaterialsFromGrid` leaves behind. -/
structure Loaded (K : Type) where
  mats : List Nat
  table : List (K × K)
  fractions : List K
  rho : K
  Emin : K

/-- Division of a list by the total volume. -/
def divAll (l : List K) (v : K) : Out (List K) := if v = 0 then .nan else .ok (l.map fun x => x / v)

/-- From an access that may be out of range. -/
def Out.ofOpt {α : Type} : Option α → Out α
  | none => .ub
  | some a => .ok a

/-- `loadMaterialsFromGrid` (elasticity_upscale_impl.hpp:573-708). -/
def loadGrid (Escale Emin0 : K) (mods : Moduli K) (satnum : List Int) (rho : List K) (cells : List (Nat × K)) :
    Out (Loaded K) :=
  (moduli mods).bind fun EN =>
  (scaleE Escale Emin0 EN.1).bind fun Es =>
  (Out.ofOpt (cellLoop Es.1 EN.2 cells)).bind fun s =>
  (if satnum = [] then divAll ((List.range s.cache.length).map s.vol) (totalVolume s)
   else (Out.ofOpt (cells.foldlM (satStep satnum) [])).bind fun vf => divAll vf (totalVolume s)).bind fun fr =>
  (if rho = [] then .ok (-1)
   else (Out.ofOpt (cells.foldlM (rhoStep rho) (-1))).bind fun m =>
     if m > 0 then (if totalVolume s = 0 then .nan else .ok (m / totalVolume s)) else .ok m).bind fun r =>
  .ok ⟨s.mats, s.cache, fr, r, Es.2⟩

/-- `getE` through `static_cast<Isotropic*>`: undefined for another class. -/
def Material.getE : Material K → Option K
  | .iso E _ _ => some E
  | _ => none

/-- Scaling of the materials of a rock list (elasticity_upscale_impl.hpp:727-735). -/
def scaleRocks (Escale : K) (rocks : List (Material K)) : Out (List (Material K)) :=
  if Escale > 0 then
    (Out.ofOpt (rocks.mapM Material.getE)).bind fun Es =>
      let Emin := Es.foldl min (10 ^ 10)
      if Emin = 0 then .nan
      else .ok (rocks.map fun m => match m with
        | .iso E nu rho => .iso (E * Escale / Emin) nu rho
        | m => m)
  else .ok rocks

/-- One cell of a deck with a rock list (elasticity_upscale_impl.hpp:753-761): number of the rock; volumes. -/
def rockStep (satnum : List Int) (n : Nat) (s : List Nat × (Nat → K)) (c : Nat × K) : Out (List Nat × (Nat → K)) :=
  match satnum[c.1]? with
  | none => .ub
  | some sn =>
    if sn - 1 ≥ (n : Int) then .exit
    else if sn < 1 then .ub
    else .ok (s.1 ++ [(sn - 1).toNat], fun j => if j = (sn - 1).toNat then s.2 j + c.2 else s.2 j)

/-- The loop over the cells of a deck with a rock list. -/
def rockLoop (satnum : List Int) (n : Nat) (s : List Nat × (Nat → K)) : List (Nat × K) → Out (List Nat × (Nat → K))
  | [] => .ok s
  | c :: l => (rockStep satnum n s c).bind fun t => rockLoop satnum n t l

/-- Rock numbers and volume fractions of `loadMaterialsFromRocklist` with a deck (elasticity_upscale_impl.hpp:736-770). -/
def loadRocks (satnum : List Int) (n : Nat) (cells : List (Nat × K)) : Out (List Nat × List K) :=
  (rockLoop satnum n ([], fun _ => 0) cells).bind fun s =>
    let v := (List.range n).map s.2
    if n = 0 then .ok (s.1, []) else (divAll v v.sum).bind fun fr => .ok (s.1, fr)

end Verif.Elastic
