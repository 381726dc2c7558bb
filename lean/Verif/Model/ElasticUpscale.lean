import Verif.Model.Stiffness
import Verif.Model.Asm

/-!
Model of the run of one load case in `opm/elasticity/elasticity_upscale_impl.hpp` and of the loop over the load cases and the
report in `examples/upscale_elasticity.cpp`, for the periodic couplings by constraints (`-m mpc`): resolution of chains and
numbering, assembly of the matrix in the order of the colouring, assembly of the load vector, solution, extraction of the
displacements of every cell, average stress.

Simplifications: `double` is a linearly ordered field; the linear solver is a function; threads run one after the other (that
chunks of a colour share no node is C40); the geometry of a cell is given by its quadrature points. Timing, printing and files
are left out.
-/

namespace Verif.ElasticUp

open Verif.Elastic Verif.Asm

variable {K : Type} [Field K] [LinearOrder K]

/-- A cell of the grid: nodes of its vertices, material, quadrature points (`detJ * weight` and matrix `B`). -/
structure Cell (K : Type) where
  vertex : List Nat
  mat : Material K
  pts : List (QP K 6)

/-- What a run uses: cells, colouring (`color[i][j][k]`, elasticity_upscale.hpp:480-481), content of uninitialised matrices,
scaling of the moduli, tolerance of `MPC::DOF` and depth of the recursion (see `Verif.Asm.resolveChain`), prescribed values and
constraints. -/
structure Sample (K : Type) where
  cells : List (Cell K)
  color : List (List (List Nat))
  C0 : Fin 6 → Fin 6 → K
  Escale : K
  Emin : K
  tol : K
  fuel : Nat
  handler : Handler K

/-- One cell in `assemble` (elasticity_upscale_impl.hpp:469-514): `C` lives outside the loop over the cells of a chunk. A null
pointer for matrix or load vector contributes nothing. -/
def chunkStep (h : Handler K) (S : Sample K) (lc : Option Nat) (matrix : Bool) (st : (Fin 6 → Fin 6 → K) × Sys K) (k : Nat) :
    Option ((Fin 6 → Fin 6 → K) × Sys K) :=
  (S.cells[k]?).bind fun c => (c.mat.constitutive false st.1).map fun r =>
    (r.2, addElement h st.2
      ⟨c.vertex, if matrix then elemK r.2 c.pts else fun _ _ => 0,
        match lc with | some m => elemLoad r.2 (unitStrain m) c.pts | none => fun _ => 0⟩)

/-- `assemble` (elasticity_upscale_impl.hpp:441-519); `lc` is the load case, if it is not negative. -/
def assembleCase (h : Handler K) (S : Sample K) (lc : Option Nat) (matrix : Bool) : Option (Sys K) :=
  S.color.flatten.foldlM (fun s chunk => (chunk.foldlM (chunkStep h S lc matrix) (S.C0, s)).map fun r => r.2)
    ⟨fun _ _ => 0, fun _ => 0, []⟩

/-- Displacements of a cell: the loops of `extractValues` (asmhandler_impl.hpp:112-142) over vertices and directions. -/
def extractCell (h : Handler K) (u : Nat → K) (c : Cell K) : Option (Nat → K) :=
  ((c.vertex.flatMap fun n => (List.range h.dim).map fun i => (n, i)).mapM fun q => extractValue h u q.1 q.2).map
    fun l k => l.getD k 0

/-- `initForAssembly` (asmhandler_impl.hpp:20-30). -/
def initForAssembly (S : Sample K) : Option (Handler K) := (resolveChains S.tol S.fuel S.handler).map preprocess

/-- One load case of the driver (upscale_elasticity.cpp:365-366, 381-411): load vector, solution, average stress. -/
def upscaleCase (solver : Nat → (Nat → Nat → K) → (Nat → K) → Nat → K) (S : Sample K) (m : Nat) : Option (Fin 6 → K) :=
  (initForAssembly S).bind fun h => (assembleCase h S none true).bind fun sA => (assembleCase h S (some m) false).bind fun sb =>
    (S.cells.mapM fun c => (extractCell h (solver h.maxeqn sA.A sb.b) c).map fun v => (⟨c.mat, v, c.pts⟩ : Elem K)).bind fun els =>
      averageStress S.Escale S.Emin 24 S.C0 (fun _ => 0) m els

/-- `CLAMP` (upscale_elasticity.cpp:405). -/
def clamp (x : K) : K := if |x| < 1 / 10 ^ 4 then 0 else x

/-- `std::swap` of entries 3 and 5. -/
def swap35 (i : Fin 6) : Fin 6 := if i = 3 then 5 else if i = 5 then 3 else i

/-- The matrix that the driver reports (upscale_elasticity.cpp:412-437): row `i` is the clamped stress of load case `i`; then rows
3 and 5 and columns 3 and 5 are exchanged. -/
def report (solver : Nat → (Nat → Nat → K) → (Nat → K) → Nat → K) (S : Sample K) : Option (Fin 6 → Fin 6 → K) :=
  ((List.range 6).mapM fun m => upscaleCase solver S m).map fun rows =>
    let C : Fin 6 → Fin 6 → K := fun i j => clamp (rows.getD i (fun _ => 0) j)
    let C1 : Fin 6 → Fin 6 → K := fun i j => C (swap35 i) j
    fun i j => C1 i (swap35 j)

end Verif.ElasticUp
