import Mathlib.Algebra.Order.Field.Basic

/-!
Model of the single-point upwind two-phase model (opm/core/transport/implicit/SinglePointUpwindTwoPhase.hpp) and of the assembly of its Jacobian system
(opm/core/transport/implicit/ImplicitAssembly.hpp). `none` means an out-of-range access, a missing matrix entry or a division by a vanishing total mobility.
-/

namespace Verif.Implicit

variable {K : Type}

/-! ### Parameter storage -/

/-- The quantities kept in the common array of `ModelParameterStorage` (SinglePointUpwindTwoPhase.hpp:92-116). -/
inductive Qty where
  | mob | dmob | porevol | dg | ds | pc | dpc | trans
  deriving DecidableEq

/-- Start of each quantity in the array (SinglePointUpwindTwoPhase.hpp:108-115). -/
def offset (nc totconn : Nat) (q : Qty) : Nat :=
  let mob := 0
  let dmob := mob + 2 * nc
  let porevol := dmob + 2 * nc
  let dg := porevol + 1 * nc
  let ds := dg + 1 * totconn
  let pc := ds + 1 * nc
  let dpc := pc + 1 * nc
  let trans := dpc + 1 * nc
  match q with
  | .mob => mob
  | .dmob => dmob
  | .porevol => porevol
  | .dg => dg
  | .ds => ds
  | .pc => pc
  | .dpc => dpc
  | .trans => trans

/-- Size of the array (SinglePointUpwindTwoPhase.hpp:97-106). -/
def allocSize (nc totconn : Nat) : Nat := 2 * nc + 2 * nc + 1 * nc + 1 * totconn + 1 * nc + 1 * nc + 1 * nc + 1 * totconn

/-- The parameters, by name (SinglePointUpwindTwoPhase.hpp:118-262). -/
structure Store (K : Type) where
  drho : K
  mob : Nat → K × K
  dmob : Nat → K × K
  porevol : Nat → K
  dg : Nat → K
  ds : Nat → K
  pc : Nat → K
  dpc : Nat → K
  trans : Nat → K

/-! ### Grid -/

/-- The part of `UnstructuredGrid` used: faces of each cell in order, and the two cells of each face (-1: none). -/
structure Grid where
  nc : Nat
  nf : Nat
  cellFaces : Nat → List Nat
  faceCells : Nat → Int × Int

/-- `cell_facepos[c]`: half faces before those of cell `c`. -/
def Grid.facepos (g : Grid) (c : Nat) : Nat := ((List.range c).map fun k => (g.cellFaces k).length).sum

/-- The half faces of all cells in order: cell and face. -/
def Grid.halfFaces (g : Grid) : List (Nat × Nat) := (List.range g.nc).flatMap fun c => (g.cellFaces c).map fun f => (c, f)

/-- Whether both cells of a face exist (ImplicitAssembly.hpp:118, 152, 188). -/
def Grid.internal (g : Grid) (f : Nat) : Bool := decide ((g.faceCells f).1 ≥ 0) && decide ((g.faceCells f).2 ≥ 0)

/-- `(c1 == c) ? c2 : c1` (ImplicitAssembly.hpp:153, 221). -/
def Grid.other (g : Grid) (c f : Nat) : Int := if (g.faceCells f).1 = c then (g.faceCells f).2 else (g.faceCells f).1

/-- The constructor's table from faces to half faces (SinglePointUpwindTwoPhase.hpp:298-305); entry `2*f+p`, -1 where not set. -/
def f2hf (g : Grid) : Nat → Int :=
  (g.halfFaces.zipIdx).foldl (fun t h =>
    let p := if (g.faceCells h.1.2).1 = h.1.1 then 0 else 1
    fun j => if j = 2 * h.1.2 + p then (h.2 : Int) else t j) (fun _ => -1)

section
variable [Field K]

/-- `initGravityTrans` without the gravity part (SinglePointUpwindTwoPhase.hpp:477-498): the transmissibility of a face from those of its half faces. -/
def faceTrans (g : Grid) (htrans : Nat → K) (f : Nat) : K :=
  1 / ((g.halfFaces.zipIdx).foldl (fun t h => if h.1.2 = f then t + 1 / htrans h.2 else t) 0)

/-- `computeStaticGravity` for the half face `(c, f)` (SinglePointUpwindTwoPhase.hpp:666-688). -/
def staticGravity (d : Nat) (grav : Nat → K) (cc fc : Nat → Nat → K) (trans : Nat → K) (c f : Nat) : K :=
  trans f * (List.range d).foldl (fun s j => s + grav j * (fc f j - cc c j)) 0

/-- `gravityFlux` (SinglePointUpwindTwoPhase.hpp:690-707). -/
def gravityFlux (st : Store K) (gravity : Bool) (t : Nat → Int) (f : Nat) : Option K :=
  if gravity then
    if 0 ≤ t (2 * f) ∧ 0 ≤ t (2 * f + 1) then some ((st.dg (t (2 * f)).toNat - st.dg (t (2 * f + 1)).toNat) * st.drho) else none
  else some 0

/-- `capFlux` (SinglePointUpwindTwoPhase.hpp:708-718): flux and its two derivatives. -/
def capFlux (st : Store K) (f n0 n1 : Nat) : K × K × K :=
  (st.trans f * (st.pc n1 - st.pc n0), -st.trans f * st.dpc n0, st.trans f * st.dpc n1)

end

section
variable [Field K] [LinearOrder K]

/-- Cell of a face by position. -/
def side (n0 n1 : Nat) (p : Bool) : Nat := if p then n1 else n0

/-- `upwindMobility` (SinglePointUpwindTwoPhase.hpp:627-664): the positions `pix` (`false` is 0, `true` is 1). -/
def upwind (st : Store K) (dflux gflux : K) (n0 n1 : Nat) : Bool × Bool :=
  let equalSign := (!decide (dflux < 0) && !decide (gflux < 0)) || (!decide (dflux > 0) && !decide (gflux > 0))
  if equalSign then
    let p0 := !(!decide (dflux < 0) && !decide (gflux < 0))
    let m0 := (st.mob (side n0 n1 p0)).1
    let p1 := decide (dflux - m0 * gflux < 0)
    (p0, p1)
  else
    let p1 := !(!decide (dflux < 0) && !decide (gflux > 0))
    let m1 := (st.mob (side n0 n1 p1)).2
    let p0 := !decide (dflux + m1 * gflux > 0)
    (p0, p1)

/-- Increments made by `fluxConnection`: diagonal Jacobian, off-diagonal Jacobian, residual. -/
structure Contrib (K : Type) where
  J1 : K
  J2 : K
  F : K

/-- `fluxConnection` (SinglePointUpwindTwoPhase.hpp:363-422) for cell `c` and face `f` with cells `n0`, `n1`; `g0` is the static gravity flux. -/
def fluxConnection (st : Store K) (dt dflux g0 : K) (c f n0 n1 : Nat) : Option (Contrib K) :=
  let cap := capFlux st f n0 n1
  let gflux := g0 + cap.1
  let p := upwind st dflux gflux n0 n1
  let m0 := (st.mob (side n0 n1 p.1)).1
  let m1 := (st.mob (side n0 n1 p.2)).2
  let dm0 := (st.dmob (side n0 n1 p.1)).1
  let dm1 := (st.dmob (side n0 n1 p.2)).2
  let mt := m0 + m1
  if mt = 0 then none
  else
    let sgn : K := if n0 = c then 1 else -1
    let dflux := dflux * sgn
    let gflux := gflux * sgn
    let f1 := m0 / mt
    let v1 := dflux + m1 * gflux
    -- J[0] is J1 if n0 = c, else J2
    let first (p : Bool) : Bool := if n0 = c then !p else p
    let a0 := dt * (1 - f1) / mt * v1 * dm0
    let a1 := -(dt * f1 / mt * v1 * dm1) + dt * f1 * gflux * dm1
    let cap0 := sgn * dt * f1 * cap.2.1 * m1
    let cap1 := sgn * dt * f1 * cap.2.2 * m1
    some { J1 := (if n0 = c then cap0 else cap1) + (if first p.1 then a0 else 0) + (if first p.2 then a1 else 0)
           J2 := (if n0 = c then cap1 else cap0) + (if first p.1 then 0 else a0) + (if first p.2 then 0 else a1)
           F := dt * f1 * v1 }

/-- `sourceTerms` (SinglePointUpwindTwoPhase.hpp:438-472) for a source of inflow rate `rate` and water fraction `s` in cell `c`: Jacobian and residual increments. -/
def sourceTerms (st : Store K) (dt rate s : K) (c : Nat) : Option (K × K) :=
  let dflux := -rate
  if dflux < 0 then some (0, dt * dflux * s)
  else
    let m := st.mob c
    let dm := st.dmob c
    let mt := m.1 + m.2
    if mt = 0 then none
    else
      let f := m.1 / mt
      let df := ((1 - f) * dm.1 - f * dm.2) / mt
      some (dt * dflux * df, dt * dflux * f)

/-! ### Assembly (one unknown per cell) -/

/-- What a transport problem consists of. -/
structure Problem (K : Type) where
  grid : Grid
  st : Store K
  dt : K
  faceflux : Nat → K
  g0 : Nat → K
  /-- sources: cell, inflow rate, water fraction -/
  src : List (Nat × K × K)

/-- `countConnections(g, c)` (ImplicitAssembly.hpp:107-122). -/
def countConn (g : Grid) (c : Nat) : Nat := (g.cellFaces c).foldl (fun n f => n + (if g.internal f then 1 else 0)) 0

/-- Number of non-zeros reserved by `createSystem` (ImplicitAssembly.hpp:60-62, 124-134). -/
def nnz (g : Grid) : Nat := g.nc + (List.range g.nc).foldl (fun n c => n + countConn g c) 0

/-- The columns of row `c` (`createRowStructure`, ImplicitAssembly.hpp:136-160). -/
def rowStructure (g : Grid) (c : Nat) : List Int :=
  (g.cellFaces c).foldl (fun l f => if g.internal f then l ++ [g.other c f] else l) [(c : Int)]

/-- Size of the work buffer for `n` connections and `ndof` unknowns per cell (ImplicitAssembly.hpp:172). -/
def bufSize (n ndof : Nat) : Nat := (2 * n + 1) * (ndof * ndof) + (n + 2) * ndof

/-- Initial values of the pointers `F`, `J1`, `J2` as offsets into the buffer (ImplicitAssembly.hpp:175-177). -/
def offF (n ndof : Nat) : Nat := (2 * n + 1) * (ndof * ndof)
def offJ1 (n ndof : Nat) : Nat := (0 * n + 1) * (ndof * ndof)
def offJ2 (n ndof : Nat) : Nat := offJ1 n ndof + (1 * n + 0) * (ndof * ndof)

/-- `buf[i] += x`. -/
def bump (buf : List K) (i : Nat) (x : K) : Option (List K) :=
  match buf[i]? with
  | some v => some (buf.set i (v + x))
  | none => none

/-- Loop of `computeCellContrib` over the faces (ImplicitAssembly.hpp:181-193); `o1`, `o2`, `oF` are the pointers `J1`, `J2`, `F` as offsets into the buffer.
Result: buffer and final `F`. -/
def contribLoop (P : Problem K) (c : Nat) : List Nat → Nat → Nat → Nat → List K → Option (List K × Nat)
  | [], _, _, oF, buf => some (buf, oF)
  | f :: fs, o1, o2, oF, buf =>
    if P.grid.internal f then do
      let n := P.grid.faceCells f
      let x ← fluxConnection P.st P.dt (P.faceflux f) (P.g0 f) c f n.1.toNat n.2.toNat
      let buf ← bump buf o1 x.J1
      let buf ← bump buf o2 x.J2
      let buf ← bump buf oF x.F
      contribLoop P c fs (o1 + 1) (o2 + 1) (oF + 1) buf
    else contribLoop P c fs o1 o2 oF buf

/-- `computeCellContrib` (ImplicitAssembly.hpp:162-198) with one unknown per cell: connection count and buffer. -/
def cellContrib (P : Problem K) (c : Nat) : Option (Nat × List K) := do
  let n := countConn P.grid c
  let buf := List.replicate (bufSize n 1) (0 : K)
  -- `initResidual` overwrites the first residual entry with zero (SinglePointUpwindTwoPhase.hpp:357-361)
  let buf := buf.set (offF n 1) 0
  let (buf, oF) ← contribLoop P c (P.grid.cellFaces c) (offJ1 n 1) (offJ2 n 1) (offF n 1 + 1) buf
  -- `accumulation` (SinglePointUpwindTwoPhase.hpp:424-436)
  let buf ← bump buf 0 (P.st.porevol c)
  let buf ← bump buf oF (P.st.porevol c * P.st.ds c)
  return (n, buf)

/-- The linear system: matrix and residual. -/
structure Sys (K : Type) where
  mat : Nat → Nat → K
  res : Nat → K

/-- `matasm().assembleBlock` with a 1x1 block: add to an entry of the structure (`nc` rows). -/
def addMat (g : Grid) (S : Sys K) (i : Nat) (j : Int) (x : K) : Option (Sys K) :=
  if i < g.nc ∧ j ∈ rowStructure g i then
    some { S with mat := fun a b => if a = i ∧ (b : Int) = j then S.mat a b + x else S.mat a b }
  else none

/-- `vector().assembleBlock` with a block of size 1. -/
def addRes (g : Grid) (S : Sys K) (i : Nat) (x : K) : Option (Sys K) :=
  if i < g.nc then some { S with res := fun a => if a = i then S.res a + x else S.res a } else none

/-- Loop of `assembleCellContrib` over the faces (ImplicitAssembly.hpp:215-230). -/
def asmLoop (g : Grid) (c : Nat) (buf : List K) : List Nat → Nat → Nat → Sys K → Option (Sys K)
  | [], _, _, S => some S
  | f :: fs, o1, o2, S =>
    if g.other c f ≥ 0 then do
      let x1 ← buf[o1]?
      let S ← addMat g S c c x1
      let x2 ← buf[o2]?
      let S ← addMat g S c (g.other c f) x2
      asmLoop g c buf fs (o1 + 1) (o2 + 1) S
    else asmLoop g c buf fs o1 o2 S

/-- Assembly of the residual blocks (ImplicitAssembly.hpp:231-235). -/
def resLoop (g : Grid) (c : Nat) (buf : List K) : Nat → Nat → Sys K → Option (Sys K)
  | 0, _, S => some S
  | k + 1, oF, S => do
    let x ← buf[oF]?
    let S ← addRes g S c x
    resLoop g c buf k (oF + 1) S

/-- `assembleCellContrib` (ImplicitAssembly.hpp:200-236). -/
def assembleCell (g : Grid) (c n : Nat) (buf : List K) (S : Sys K) : Option (Sys K) := do
  let x ← buf[0]?
  let S ← addMat g S c c x
  let S ← asmLoop g c buf (g.cellFaces c) (0 + 1) (0 + (1 * n + 1) * 1) S
  resLoop g c buf (n + 2) ((2 * n + 1) * 1) S

/-- `assembleSourceContrib` (ImplicitAssembly.hpp:238-260). The scratch buffer is the one of the last cell (`hasBuf`: it has at least two entries). -/
def assembleSources (P : Problem K) (hasBuf : Bool) : List (Nat × K × K) → Sys K → Option (Sys K)
  | [], S => some S
  | s :: ss, S =>
    if hasBuf then do
      let x ← sourceTerms P.st P.dt s.2.1 s.2.2 s.1
      let S ← addMat P.grid S s.1 s.1 x.1
      let S ← addRes P.grid S s.1 x.2
      assembleSources P hasBuf ss S
    else none

/-- The loop over the cells in `assemble` (ImplicitAssembly.hpp:94-97). -/
def assembleCells (P : Problem K) : List Nat → Sys K → Option (Sys K)
  | [], S => some S
  | c :: cs, S => do
    let (n, buf) ← cellContrib P c
    let S ← assembleCell P.grid c n buf S
    assembleCells P cs S

/-- `assemble` (ImplicitAssembly.hpp:85-104) into a zeroed system. -/
def assemble (P : Problem K) : Option (Sys K) := do
  let S ← assembleCells P (List.range P.grid.nc) ⟨fun _ _ => 0, fun _ => 0⟩
  assembleSources P (decide (0 < P.grid.nc)) P.src S

/-! ### Newton control -/

/-- `initStep` (SinglePointUpwindTwoPhase.hpp:509-533): initial saturation change per cell. -/
def initStep (usePrevious : Bool) (s : List (K × K)) : List K :=
  if usePrevious then s.map fun _ => 0 else s.map fun p => 1 / 2 - p.1

/-- `initIteration` (SinglePointUpwindTwoPhase.hpp:535-587) for one cell: whether it is in range, and the saturations at which the fluid is evaluated. `tol` is 1e-5. -/
def initCell (tol smin smax s x : K) : Bool × K × K :=
  let s0 := s + x
  let ok := !(decide (s0 < smin - tol) || decide (s0 > smax + tol))
  let s0 := max smin s0
  let s0 := min smax s0
  (ok, s0, 1 - s0)

/-- `initIteration` over all cells: cells are `(s_min, s_max, s, x)`. -/
def initIteration (tol : K) (cells : List (K × K × K × K)) : Bool × List (K × K) :=
  cells.foldl (fun a q =>
    let r := initCell tol q.1 q.2.1 q.2.2.1 q.2.2.2
    (a.1 && r.1, a.2 ++ [r.2])) (true, [])

/-- `finishStep` (SinglePointUpwindTwoPhase.hpp:600-624): new saturations of the cells `(s_min, s_max, s, x)`. -/
def finishStep (cells : List (K × K × K × K)) : List (K × K) :=
  cells.map fun q =>
    let s0 := q.2.2.1 + q.2.2.2
    let s0 := max q.1 s0
    let s0 := min q.2.1 s0
    (s0, 1 - s0)

end

end Verif.Implicit
