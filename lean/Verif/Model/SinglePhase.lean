import Verif.Model.Hybrid
import Verif.Model.MimeticIP
import Verif.Model.Boundary
import Verif.Model.Upscale
import Verif.Spec.Numbering

/-!
Model of `UpscalerBase::upscaleSinglePhase` / `upscaleEffectivePerm` as a whole (UpscalerBase_impl.hpp:218-286): boundary
conditions, numbering of faces, inner products, assembly, recovery and post-processing of fluxes, and averaging are the models
of `Verif.Model.Boundary`, `Numbering`, `MimeticIP`, `Hybrid` and `Upscale`, put together.

Simplifications: cells are iterated in the order of their index; `double` is a linearly ordered field; `orthogonalizeColumns` and
the iterative linear solver are parameters, as is `std::sort`. `none` is an exception, a failing assertion, an access out of
bounds or a division by zero. The inner products are those of `MimeticIPEvaluator` (scalar mobilities).
-/

namespace Verif.SinglePhase

variable {K : Type}

/-- A face seen from one of its cells (`GridInterfaceEuler::Face`): index of the cell on the other side (`none`: `boundary()`),
boundary identifier, geometry with outward normal. -/
structure HalfFace (K : Type) where
  nbr : Option Nat
  bid : Nat
  area : K
  centroid : Fin 3 → K
  normal : Fin 3 → K

/-- A cell with its faces in the order of the local index. -/
structure GridCell (K : Type) where
  nf : Nat
  face : Fin nf → HalfFace K
  centroid : Fin 3 → K
  volume : K

structure Grid (K : Type) where
  nc : Nat
  cell : Fin nc → GridCell K

/-- Cell and local face number. -/
abbrev Half (G : Grid K) : Type := (c : Fin G.nc) × Fin (G.cell c).nf

namespace Grid

def face (G : Grid K) (p : Half G) : HalfFace K := (G.cell p.1).face p.2

/-- The double loop over cells and their faces. -/
def halves (G : Grid K) : List (Half G) :=
  (List.finRange G.nc).flatMap fun c => (List.finRange (G.cell c).nf).map fun i => ⟨c, i⟩

/-- What `enumerateGridDof` reads (IncompFlowSolverHybrid.hpp:946-1056). -/
def topology (G : Grid K) : Numbering.Grid where
  order := List.range G.nc
  nbrs c := if h : c < G.nc then List.ofFn fun i => ((G.cell ⟨c, h⟩).face i).nbr else []

/-- A face as the boundary code reads it (BoundaryPeriodicity.hpp:102-114, PeriodicHelpers.hpp:238-250). -/
def bface (G : Grid K) (p : Half G) : Boundary.Face K := ⟨(G.face p).bid, (G.face p).area, (G.face p).centroid⟩

def bfaces (G : Grid K) : List (Boundary.Face K) := G.halves.map G.bface

/-- What `buildStaticContrib` reads (MimeticIPEvaluator.hpp:200-274). -/
def geo (G : Grid K) (c : Fin G.nc) : Mimetic.Cell K 3 (G.cell c).nf where
  face i := ⟨((G.cell c).face i).area, ((G.cell c).face i).centroid, ((G.cell c).face i).normal⟩
  centroid := (G.cell c).centroid
  volume := (G.cell c).volume

/-- What `computeAverageVelocity` and `computeDelta` read (UpscalerBase_impl.hpp:301-302, 351-352); `id` is the position of the
face in the double loop. -/
def gface (G : Grid K) (p : Half G) : Upscale.GFace K where
  id := G.halves.idxOf p
  boundary := (G.face p).nbr.isNone
  bid := (G.face p).bid
  area := (G.face p).area
  normal := (G.face p).normal
  centroid := (G.face p).centroid

def gcells (G : Grid K) : List (Upscale.GCell K) :=
  (List.finRange G.nc).map fun c =>
    ⟨c.val, (G.cell c).volume, (List.finRange (G.cell c).nf).map fun i => G.gface ⟨c, i⟩⟩

end Grid

/-- What the upscaler holds: grid, permeabilities, result `Q` of `orthogonalizeColumns` in every cell, gravity (only the last
component is not zero), mobilities and densities of the fluid at saturation one, type of boundary conditions, `twodim_hack_`,
sorting, linear solver (matrix and right-hand side, number of unknowns). -/
structure Input (K : Type) where
  G : Grid K
  perm : Fin G.nc → Fin 3 → Fin 3 → K
  Q : (c : Fin G.nc) → Fin (G.cell c).nf → Fin 3 → K
  gravity : K
  mob : Fin G.nc → List K
  rho : Fin G.nc → List K
  bct : Upscale.BCType
  twodim : Bool
  sort : List (Boundary.BFI K) → List (Boundary.BFI K)
  solver : Hybrid.Sys K → Nat → Nat → K

/-- Value of `BoundaryConditionType` (UpscalerBase.hpp:58). -/
def code : Upscale.BCType → Int
  | .fixed => 0
  | .linear => 1
  | .periodic => 2

section
variable [Field K] [LinearOrder K]

/-- The call of `setupUpscalingConditions` (UpscalerBase_impl.hpp:244). -/
def setup (I : Input K) (pdd : Fin 3) (b : Boundary.BCs K) : Option (Boundary.BCs K) :=
  match Boundary.setupUpscalingConditions I.sort I.G.bfaces (code I.bct) pdd 1 1 I.twodim b with
  | .ok r => some r
  | .error _ => none

/-- The periodic faces that `enumerateBCDof` finds (IncompFlowSolverHybrid.hpp:1070-1078, 1083-1088). -/
def perFaces (G : Grid K) (n : Numbering.Numbers) (b : Boundary.BCs K) : Option (List Numbering.PerFace) :=
  ((G.halves.filter fun p => (G.face p).nbr.isNone).mapM fun p =>
    (b.flow[(G.face p).bid]?).bind fun c =>
      if c.type = .periodic then
        (b.hdl.getPartner (G.face p).bid).bind fun q => (n.at? p.1.val p.2.val).map fun d => some ⟨(G.face p).bid, q, d⟩
      else some none).map fun l => l.filterMap id

/-- `setExternalContrib` for one face (IncompFlowSolverHybrid.hpp:1750-1775); `m` is `bdry_id_map_`. -/
def extOf (b : Boundary.BCs K) (m : Nat → Option Nat) (f : HalfFace K) : Option (Hybrid.Ext K) :=
  match f.nbr with
  | some _ => some .interior
  | none =>
    (b.flow[f.bid]?).bind fun c =>
      match c.type with
      | .dirichlet => some (.dirichlet c.value)
      | .periodic => (b.hdl.getPartner f.bid).bind fun q => (m q).map fun t => .periodic c.value t
      | .neumann => some (.neumann c.value)

/-- Data of the cells for given face numbers and kinds of faces: inverse inner product and gravity flux of
`MimeticIPEvaluator`, no source (UpscalerBase_impl.hpp:235, 240-241). -/
def cellsOf (I : Input K) (dof : Half I.G → Nat) (ext : Half I.G → Hybrid.Ext K) : Fin I.G.nc → Hybrid.Cell K := fun c =>
  { nf := (I.G.cell c).nf
    dof := fun i => dof ⟨c, i⟩
    Binv := Mimetic.inverseMatrix (Mimetic.inner (I.G.geo c) (I.Q c) (I.perm c)) (I.mob c)
    gflux := Mimetic.gravityFlux (I.G.geo c) (I.perm c) ![0, 0, I.gravity] (I.rho c) (I.mob c)
    src := 0
    ext := fun i => ext ⟨c, i⟩ }

/-- Evaluate a partial function everywhere. -/
def total {G : Grid K} {α : Type} (f : Half G → Option α) : Option (Half G → α) :=
  if h : ∀ p, (f p).isSome then some fun p => (f p).get (h p) else none

/-- `solve` and `postProcessFluxes` (IncompFlowSolverHybrid.hpp:640-675, 747-801): fluxes of all faces of all cells in
iteration order; `pp` is `ppartner_dof_`. -/
def flow (I : Input K) (n : Numbering.Numbers) (m : Nat → Option Nat) (pp : Option (Nat → Option Nat))
    (b : Boundary.BCs K) : Option (List K) :=
  (total fun p : Half I.G => n.at? p.1.val p.2.val).bind fun dof =>
    (total fun p : Half I.G => extOf b m (I.G.face p)).bind fun ext =>
      let cells := cellsOf I dof ext
      let x := I.solver (Hybrid.linearSystem cells) n.total
      (Hybrid.postProcess pp (I.G.halves.map fun p =>
        ⟨dof p, (I.G.face p).nbr.isNone, (cells p.1).flux x p.2⟩)).map Prod.fst

/-- `getCanonicalBoundaryId` on the boundary faces (UpscalerBase_impl.hpp:306, 356). -/
def canonOf (G : Grid K) (b : Boundary.BCs K) : Option (Nat → Int) :=
  if ∀ p : Half G, (G.face p).nbr.isNone → (b.hdl.getCanon (G.face p).bid).isSome then
    some fun i => ((b.hdl.getCanon i).getD 0 : Nat)
  else none

/-- One pass of the loop over pressure drop directions, after the boundary conditions have been set
(UpscalerBase_impl.hpp:252-281). -/
def column (I : Input K) (n : Numbering.Numbers) (m : Nat → Option Nat) (pp : Option (Nat → Option Nat))
    (b : Boundary.BCs K) (pdd : Fin 3) : Option (Fin 3 → K) :=
  (flow I n m pp b).bind fun v => (canonOf I.G b).bind fun canon =>
    Upscale.permColumn I.bct I.G.gcells canon (fun id => v.getD id 0) pdd

/-- `upscaleEffectivePerm` (UpscalerBase_impl.hpp:231-286); `b` is `bcond_` before the call. The flow solver is initialised with
the conditions of the first direction. Entry `(i, pdd)` is in row `i`, column `pdd`. -/
def upscaleEffectivePerm (I : Input K) (b : Boundary.BCs K) : Option (Fin 3 → Fin 3 → K) := do
  let b0 ← setup I 0 b
  let n ← Numbering.enumerate I.G.topology
  let l ← perFaces I.G n b0
  let pp ← Numbering.partnerDofs l
  let m := Numbering.bdryMap l
  let pp := if l = [] then none else some pp
  let c0 ← column I n m pp b0 0
  let b1 ← setup I 1 b0
  let c1 ← column I n m pp b1 1
  let b2 ← setup I 2 b1
  let c2 ← column I n m pp b2 2
  pure fun i pdd => ![c0, c1, c2] pdd i

/-- `ReservoirPropertyTracerFluid` (ReservoirPropertyTracerFluid.hpp:40-66): mobilities `s` and `1 - s`, densities one. -/
def tracerMob (s : K) : List K := [s, 1 - s]

def tracerRho : List K := [1, 1]

/-- The single-phase fluid at saturation one. -/
abbrev tracer (I : Input K) : Input K := { I with mob := fun _ => tracerMob 1, rho := fun _ => tracerRho }

/-- `upscaleSinglePhase` (UpscalerBase_impl.hpp:218-223): saturation one. -/
def upscaleSinglePhase (I : Input K) (b : Boundary.BCs K) : Option (Fin 3 → Fin 3 → K) := upscaleEffectivePerm (tracer I) b

end
end Verif.SinglePhase
