import Verif.Model.Upscale
import Mathlib.Order.Lattice
import Mathlib.Data.List.Basic

/-!
Model of the set-up of the program `upscale_elasticity`: `/repo/examples/upscale_elasticity.cpp` lines 91-184, 275-381 and 456-503, and
`LinSolParams::parse` in `/repo/opm/elasticity/elasticity_upscale.hpp` lines 124-185.

The parameter group is a structure of functions from names to the values given, one for each type that is asked for; conversion errors are left out.
Messages other than the choice of the preconditioner are left out.
-/

namespace Verif.ElasticTool

/-- `UpscaleMethod` (upscale_elasticity.cpp:91-95). -/
inductive Method where
  | none
  | mpc
  | mortar
  deriving DecidableEq

/-- `Solver` (elasticity_upscale.hpp:51-54). -/
inductive SolverType where
  | direct
  | iterative
  deriving DecidableEq

/-- `Preconditioner` (elasticity_upscale.hpp:56-62). -/
inductive Pre where
  | amg
  | fastamg
  | schwarz
  | twolevel
  | undetermined
  deriving DecidableEq

/-- `MultiplierPreconditioner` (elasticity_upscale.hpp:65-71). -/
inductive MortarPre where
  | simple
  | schur
  | schurAmg
  | schurSchwarz
  | schurTwolevel
  deriving DecidableEq

/-- `Smoother` (elasticity_upscale.hpp:74-79). -/
inductive Smoother where
  | ssor
  | schwarz
  | jacobi
  | ilu
  deriving DecidableEq

/-- What is given on the command line. -/
structure Group (K : Type) where
  str : String → Option String
  int : String → Option Int
  num : String → Option K
  flag : String → Option Bool

/-- `LinSolParams` (elasticity_upscale.hpp:82-120). -/
structure LinSol (K : Type) where
  type : SolverType
  restart : Int
  maxit : Int
  tol : K
  symmetric : Bool
  uzawa : Bool
  pre : Int
  post : Int
  coarsen : Int
  zcells : Int
  report : Bool
  smoother : Smoother
  precond : Pre
  mortarpre : MortarPre
  deriving DecidableEq

/-- `Params` (upscale_elasticity.cpp:98-148). `method` is `none` if it is not set; the numbers of cells are used for `uniform` only. -/
structure Params (K : Type) where
  file : String
  rocklist : String
  vtufile : List Char
  output : String
  method : Option Method
  Emin : K
  ctol : K
  min : Fin 3 → K
  max : Fin 3 → K
  lambda : Int × Int
  dip : K
  azimuth : K
  linsolver : LinSol K
  cells : Fin 3 → Int
  verbose : Bool
  outputSpeeds : Bool
  inspect : String
  resultfilename : String

variable {K : Type} [Field K] [LinearOrder K]

/-- The choice of the preconditioner (elasticity_upscale.hpp:140-153). -/
def parsePre (s : String) : Pre :=
  let s := if s = "" then "heuristic" else s
  if s = "schwarz" then .schwarz else if s = "fastamg" then .fastamg else if s = "twolevel" then .twolevel
  else if s = "heuristic" then .undetermined else .amg

/-- The choice of the preconditioner of the multipliers (elasticity_upscale.hpp:155-165). -/
def parseMortar (s : String) : MortarPre :=
  if s = "simple" then .simple else if s = "amg" then .schurAmg else if s = "schwarz" then .schurSchwarz
  else if s = "twolevel" then .schurTwolevel else .schur

/-- The choice of the smoother (elasticity_upscale.hpp:170-181). -/
def parseSmoother (s : String) : Smoother :=
  if s = "schwarz" then .schwarz else if s = "ilu" then .ilu else if s = "jacobi" then .jacobi else .ssor

/-- `LinSolParams::parse` (elasticity_upscale.hpp:124-185). -/
def parseLinSol (g : Group K) : LinSol K :=
  let steps0 := (g.int "linsolver_presteps").getD 2
  let steps1 := (g.int "linsolver_poststeps").getD 2
  let symmetric := (g.flag "linsolver_symmetric").getD true
  { type := if (g.str "linsolver_type").getD "iterative" = "iterative" then .iterative else .direct
    restart := (g.int "linsolver_restart").getD 1000
    tol := (g.num "ltol").getD (1 / 10 ^ 8)
    maxit := (g.int "linsolver_maxit").getD 10000
    pre := steps0
    coarsen := (g.int "linsolver_coarsen").getD 5000
    symmetric := symmetric
    report := (g.flag "linsolver_report").getD false
    precond := parsePre ((g.str "linsolver_pre").getD "")
    mortarpre := parseMortar ((g.str "linsolver_mortarpre").getD "schur")
    uzawa := (g.flag "linsolver_uzawa").getD false
    zcells := (g.int "linsolver_zcells").getD 2
    smoother := parseSmoother ((g.str "linsolver_smoother").getD "ssor")
    post := if symmetric then steps0 else steps1 }

/-- The choice of the method (upscale_elasticity.cpp:161-167). -/
def parseMethod (s : String) : Option Method :=
  if s = "none" then some .none else if s = "mortar" then some .mortar else if s = "mpc" then some .mpc else none

/-- `p.vtufile.substr(0,p.vtufile.find(".vtu"))`, or the whole name if it is not found (upscale_elasticity.cpp:183-185). -/
def cutVtu : List Char → List Char
  | [] => []
  | c :: l => if ['.', 'v', 't', 'u'].isPrefixOf (c :: l) then [] else c :: cutVtu l

/-- The coordinates, read as integers (upscale_elasticity.cpp:153-158). -/
def coord (g : Group K) (x y z : String) (i : Fin 3) : K :=
  (((g.int ((![x, y, z] : Fin 3 → String) i)).getD (-1) : Int) : K)

/-- `parseCommandLine` (upscale_elasticity.cpp:150-195); `none`: exception, since there is no grid file. `n1` and `n2` are always -1. -/
def parse (pi : K) (g : Group K) : Option (Params K) :=
  (g.str "gridfilename").map fun file =>
    { max := coord g "xmax" "ymax" "zmax"
      min := coord g "xmin" "ymin" "zmin"
      lambda := ((g.int "lambdax").getD 2, (g.int "lambday").getD 2)
      method := parseMethod ((g.str "method").getD "mortar")
      Emin := (g.num "Emin").getD 0
      dip := (g.num "dip_angle").getD (pi / 2)
      azimuth := (g.num "azimuth_angle").getD 0
      ctol := (g.num "ctol").getD (1 / 10 ^ 6)
      file := file
      rocklist := (g.str "rock_list").getD ""
      vtufile := cutVtu ((g.str "vtufilename").getD "").toList
      resultfilename := (g.str "resultfilename").getD ""
      output := (g.str "output").getD ""
      verbose := (g.flag "verbose").getD false
      outputSpeeds := (g.flag "output_wave_speeds").getD false
      inspect := (g.str "inspect").getD ""
      cells := fun i => (g.int ((!["cellsx", "cellsy", "cellsz"] : Fin 3 → String) i)).getD 3
      linsolver := parseLinSol g }

/-- The type of the preconditioner that is fixed at compile time. -/
inductive Family where
  | fastamg
  | schwarz
  | amg1 (s : Smoother)
  | amg2 (s : Smoother)
  deriving DecidableEq

/-- The template argument in `main` and `runAMG` (upscale_elasticity.cpp:456-467, 494-501). -/
def family (l : LinSol K) : Family :=
  if l.precond = .fastamg then .fastamg
  else if l.precond = .schwarz then .schwarz
  else if l.precond = .twolevel then .amg2 l.smoother
  else .amg1 l.smoother

/-- Where the grid comes from (upscale_elasticity.cpp:286-302). -/
inductive Source (K : Type) where
  | uniform (cells : Fin 3 → Int) (size : Fin 3 → K)
  | deck (file : String)

/-- The grid of the program (upscale_elasticity.cpp:286-302). -/
def source (p : Params K) : Source K :=
  if p.file = "uniform" then
    .uniform p.cells fun i => if p.max i > -1 then p.max i / (p.cells i : K) else 1
  else .deck p.file

/-- The coordinates of the sides (upscale_elasticity.cpp:306-311); `found` are those of `findBoundaries`. -/
def box (p : Params K) (found : (Fin 3 → K) × (Fin 3 → K)) : (Fin 3 → K) × (Fin 3 → K) :=
  if p.max 0 < 0 ∨ p.min 0 < 0 then found else (p.min, p.max)

/-- The number of layers to join when it is given as -1 (upscale_elasticity.cpp:316-325); `none`: undefined behaviour. `trunc` is the conversion to `int`,
`sqrt` is `none` where the root is not a number. -/
def zcells (sqrt : K → Option K) (trunc : K → Int) (size : Fin 3 → Nat) (b : (Fin 3 → K) × (Fin 3 → K)) (z : Int) : Option Int :=
  if z = -1 then do
    let hz ← Upscale.quot (b.2 2 - b.1 2) (size 2 : K)
    let lp ← sqrt ((b.2 0 - b.1 0) * (b.2 1 - b.1 1))
    let hp ← Upscale.quot lp ((max (size 0) (size 1) : Nat) : K)
    let q ← Upscale.quot (2 * hp) hz
    some (trunc (q + 1 / 2))
  else some z

/-- The choice of the preconditioner from the shape of the cells (upscale_elasticity.cpp:334-347). A flat cell has an infinite ratio. The numbers of cells are
positive. -/
def heuristic (sqrt : K → Option K) (size : Fin 3 → Nat) (b : (Fin 3 → K) × (Fin 3 → K)) (pre : Pre) : Pre :=
  if pre = .undetermined then
    let h := fun i : Fin 3 => (b.2 i - b.1 i) / (size i : K)
    match sqrt (h 0 * h 1) with
    | none => .amg
    | some r => match Upscale.quot r (h 2) with
      | none => if r > 0 then .twolevel else .amg
      | some aspect => if aspect > 80 then .twolevel else .amg
  else pre

/-- What the program does with one load case (upscale_elasticity.cpp:382-402); files by the letter and number that are put into the name. -/
inductive Action where
  | load (letter : String) (n : Nat)
  | assemble (case : Nat)
  | solve (case : Nat)
  | store (letter : String) (n : Nat)
  deriving DecidableEq

/-- The loop body up to the expansion of the solution (upscale_elasticity.cpp:382-402). -/
def actions (inspect : String) (i : Nat) : List Action :=
  if inspect = "results" then [.load "x" (i + 1)]
  else [.assemble i] ++ (if inspect = "load" then [.store "b" (i + 1)] else []) ++ [.solve i] ++ (if inspect = "load" then [.store "x" (i + 1)] else [])

/-- What the program has decided when the computations start. -/
structure Plan (K : Type) where
  source : Source K
  box : (Fin 3 → K) × (Fin 3 → K)
  n1 : Nat
  n2 : Nat
  zcells : Int
  /-- the preconditioner that is announced and passed to `setupSolvers` -/
  announced : Pre
  /-- the preconditioner that is used -/
  family : Family
  method : Method
  cases : List (List Action)

/-- How `run` ends. -/
inductive End (K : Type) where
  | thrown
  | ub
  | mesh
  | go (p : Plan K)

/-- `main` and `run` up to the output (upscale_elasticity.cpp:275-402, 470-503). `size` and `found` are the logical size and the extent of the grid made from the source;
exceptions while it is made are left out. -/
def main (pi : K) (sqrt : K → Option K) (trunc : K → Int) (size : Source K → Fin 3 → Nat) (found : Source K → (Fin 3 → K) × (Fin 3 → K)) (g : Group K) : End K :=
  match parse pi g with
  | none => .thrown
  | some p =>
    let src := source p
    let b := box p (found src)
    match zcells sqrt trunc (size src) b p.linsolver.zcells with
    | none => .ub
    | some z =>
      if p.inspect = "mesh" then .mesh
      else match p.method with
        | none => .ub
        | some m =>
          .go { source := src, box := b, n1 := size src 0, n2 := size src 1, zcells := z
                announced := heuristic sqrt (size src) b p.linsolver.precond, family := family p.linsolver, method := m
                cases := (List.range 6).map (actions p.inspect) }

end Verif.ElasticTool
