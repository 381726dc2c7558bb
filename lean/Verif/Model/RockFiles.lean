import Verif.Model.MaterialLoad

/-!
Model of reading rock files and rock lists, of the arrangement `uniform`, and of the parameters and text of a material
(`opm/elasticity/material.cpp:66-143`, `opm/elasticity/material.hh:52-86`, `opm/elasticity/materials.hh:41-51, 105-113, 146-154`,
`opm/elasticity/materials.cpp:20-25, 111-129, 169-182`, `opm/elasticity/elasticity_upscale_impl.hpp:710-749, 763-769`).

Simplifications: a file is the list of its words separated by blanks, and a word either is a number as a whole or does not begin with
one; `num` and `int` read numbers; a text is the list of its words; messages are left out.
-/

namespace Verif.RockFiles

open Verif.Elastic

variable {K : Type} [Field K] [LinearOrder K]

/-- An input stream: the words left and the absence of `failbit`. -/
structure In where
  rest : List String
  good : Bool

/-- `f >> str` into an empty string (material.cpp:75, 80, 99, 111; elasticity_upscale_impl.hpp:720-721). -/
def In.word (s : In) : String × In :=
  match s.good, s.rest with
  | true, w :: l => (w, ⟨l, true⟩)
  | _, l => ("", ⟨l, false⟩)

/-- `f >> x` into a number that is zero: a word that is no number stays and gives zero, and nothing is read after a failure
(material.cpp:79, 88, 97, 107, 110, 118). -/
def In.number (num : String → Option K) (s : In) : K × In :=
  match s.good, s.rest with
  | true, w :: l =>
    match num w with
    | some x => (x, ⟨l, true⟩)
    | none => (0, ⟨w :: l, false⟩)
  | _, l => (0, ⟨l, false⟩)

/-- Reading `n` numbers one after the other. -/
def In.numbers (num : String → Option K) : Nat → In → List K × In
  | 0, s => ([], s)
  | n + 1, s => ((s.number num).1 :: (In.numbers num n (s.number num).2).1, (In.numbers num n (s.number num).2).2)

/-- The keyword `density` and the number after it (material.cpp:80-88, 99-107, 111-118); `none` is `exit(1)`. -/
def In.density (num : String → Option K) (s : In) : Option K :=
  if s.word.1 = "density" then some (s.word.2.number num).1 else none

/-- The last branch by keyword (material.cpp:119-136). -/
def twoModuli (key : String) (p1 p2 rho : K) : Option (RockFile K) :=
  if key = "vpvs" then some (.vpvs p1 p2 rho)
  else if key = "km" then some (.km p1 p2 rho)
  else if key = "lm" then some (.lm p1 p2 rho)
  else if key = "en" then some (.en p1 p2 rho)
  else none

/-- What a rock file says (material.cpp:74-136); `none` is `exit(1)`. -/
def parseRock (num : String → Option K) (text : List String) : Option (RockFile K) :=
  let k := In.word ⟨text, true⟩
  if k.1 = "ti" then
    let v := In.numbers num 5 k.2
    (v.2.density num).map fun rho => .ti (v.1.getD 0 0) (v.1.getD 1 0) (v.1.getD 2 0) (v.1.getD 3 0) (v.1.getD 4 0) rho
  else if k.1 = "anisotropic" then
    let v := In.numbers num 21 k.2
    (v.2.density num).map fun rho => .anisotropic v.1 rho
  else
    let v := In.numbers num 2 k.2
    (v.2.density num).bind fun rho => twoModuli k.1 (v.1.getD 0 0) (v.1.getD 1 0) rho

/-- `Material::create(ID, file)` (material.cpp:66-143); `files` gives the words of the files that can be opened. -/
def createNamed (num : String → Option K) (files : String → Option (List String)) (name : String) : FileRes K :=
  match files name with
  | none => .material (.iso 100 (38 / 100) 3)
  | some text =>
    match parseRock num text with
    | none => .exit
    | some r => createFile r

/-- The loop over the names of a rock list (elasticity_upscale_impl.hpp:719-723). A material with values that are not numbers is
used. -/
def readMats (num : String → Option K) (files : String → Option (List String)) : Nat → In → Out (List (Material K))
  | 0, _ => .ok []
  | n + 1, s =>
    match createNamed num files s.word.1, readMats num files n s.word.2 with
    | .exit, _ => .exit
    | _, .exit => .exit
    | _, .ub => .ub
    | .nan, _ => .nan
    | _, .nan => .nan
    | .material m, .ok l => .ok (m :: l)

/-- The rocks of a rock list (elasticity_upscale_impl.hpp:713-723): if nothing can be read, the number of rocks is not initialized. -/
def readList (num : String → Option K) (int : String → Option Int) (files : String → Option (List String)) (name : String) :
    Out (List (Material K)) :=
  match files name with
  | none => .ub
  | some [] => .ub
  | some (w :: l) =>
    match int w with
    | none => .ok []
    | some m => readMats num files m.toNat ⟨l, true⟩

/-- The loop of the arrangement `uniform` over the cells (elasticity_upscale_impl.hpp:743-746): rock numbers and volumes. -/
def uniformLoop (n : Nat) (vols : List K) : List Nat × (Nat → K) :=
  vols.zipIdx.foldl (fun s c => (s.1 ++ [c.2 % n], fun j => if j = c.2 % n then s.2 j + c.1 else s.2 j)) ([], fun _ => 0)

/-- Rock numbers of the cells and volume fractions with `uniform` (elasticity_upscale_impl.hpp:735-747, 763-769); `vols` are the volumes
of the cells. Without rocks there is a remainder modulo zero for the first cell. -/
def uniform (n : Nat) (vols : List K) : Out (List Nat × List K) :=
  if n = 1 then (divAll [1] 1).bind fun fr => .ok (vols.map fun _ => 0, fr)
  else if n = 0 then (if vols = [] then .ok ([], []) else .ub)
  else
    let s := uniformLoop n vols
    let v := (List.range n).map s.2
    (divAll v v.sum).bind fun fr => .ok (s.1, fr)

/-- `numPar` (materials.hh:41-45, 105-109, 146-150). -/
def numPar : Material K → Nat
  | .iso _ _ _ => 2
  | .orthoD _ => 6
  | .sym _ => 21

/-- `getPar` (materials.hh:47-51, materials.cpp:123-129, 176-182). -/
def getPar (m : Material K) (i : Int) : K :=
  match m with
  | .iso E nu _ => if i = 1 then E else nu
  | .orthoD E => if h : 0 < i ∧ i ≤ 6 then E ⟨(i - 1).toNat, by omega⟩ else 0
  | .sym C => if 0 < i ∧ i ≤ 21 then C (i - 1).toNat else 0

/-- `write` (materials.cpp:20-25, 111-120, 169-173) as words. -/
def write (showNum : K → String) (showInt : Int → String) (id : Int) : Material K → List String
  | .iso E nu _ => ["Isotropic", "material", showInt id ++ ":", "E", "=", showNum E, "nu", "=", showNum nu]
  | .orthoD E =>
    ["Orthotropic", "material", showInt id ++ ":", "Ex", "=", showNum (E 0), "Ey", "=", showNum (E 1), "Ez", "=", showNum (E 2)] ++
      if E 4 = E 3 ∧ E 5 = E 3 then ["G", "=", showNum (E 3)]
      else ["Gxy", "=", showNum (E 3), "Gxz", "=", showNum (E 4), "Gyz", "=", showNum (E 5)]
  | .sym _ => []

end Verif.RockFiles
