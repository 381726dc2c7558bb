import Mathlib.Algebra.Order.Field.Basic
import Mathlib.Algebra.Order.Group.Abs
import Mathlib.Algebra.BigOperators.Fin

/-!
Model of the boundary-condition code in `opm/porsol/common`:
`BoundaryConditions.hpp`, `BoundaryPeriodicity.{hpp,cpp}`, `PeriodicHelpers.hpp`,
`setupBoundaryConditions.hpp`, and of `UpscalerBase::setBoundaryConditionType`.

Simplifications
* `double` is a linearly ordered field `K`.
* Surface-volume conditions (`ZC`, BoundaryConditions.hpp:215-240) are not modelled (unused by upscaling).
* A grid is the list of its faces in iteration order (cells, then faces of the cell); a face has a boundary
  id (0 for interior faces), an area and a centroid.
* Failed assertions and accesses outside a vector are the error `ub`; exceptions are `thrown`. An error carries
  the state of the condition table when it happened.
-/

namespace Verif.Boundary

/-- How an operation can fail: `OPM_THROW`, or a failed assertion / out-of-range access. -/
inductive Err where
  | thrown
  | ub
  deriving DecidableEq, Repr

/-- `std::vector::resize(n, d)`. -/
def resizeList {α : Type} (l : List α) (n : Nat) (d : α) : List α :=
  l.take n ++ List.replicate (n - l.length) d

/-! ### `PeriodicConditionHandler` -/

/-- `PeriodicConditionHandler` (BoundaryConditions.hpp:244-319): `periodic_partner_bid_` and
`canonical_bid_`. Partner 0 means "no partner". Ids are naturals (negative ids fail the assertions). -/
structure Handler where
  partner : List Nat
  canon : List Nat
  deriving DecidableEq, Repr

namespace Handler

/-- Constructor from a number of ids (BoundaryConditions.hpp:251-255). -/
def mkN (n : Nat) : Handler := ⟨List.replicate n 0, List.replicate n 0⟩

/-- `resize` (BoundaryConditions.hpp:257-261). -/
def resize (h : Handler) (n : Nat) : Handler := ⟨resizeList h.partner n 0, resizeList h.canon n 0⟩

/-- `clear` (BoundaryConditions.hpp:268-272). -/
def clear (_ : Handler) : Handler := ⟨[], []⟩

/-- `setPeriodicPartners` (BoundaryConditions.hpp:279-287) with its four assertions. -/
def setPartners (h : Handler) (a b : Nat) : Option Handler :=
  if a < h.partner.length ∧ b < h.partner.length ∧ h.partner[a]? = some 0 ∧ h.partner[b]? = some 0 then
    some { h with partner := (h.partner.set a b).set b a }
  else none

/-- `getPeriodicPartner` (BoundaryConditions.hpp:289-293). -/
def getPartner (h : Handler) (b : Nat) : Option Nat := h.partner[b]?

/-- `setCanonicalBoundaryId` (BoundaryConditions.hpp:295-299). -/
def setCanon (h : Handler) (b c : Nat) : Option Handler :=
  if b < h.canon.length then some { h with canon := h.canon.set b c } else none

/-- `getCanonicalBoundaryId` (BoundaryConditions.hpp:301-305). -/
def getCanon (h : Handler) (b : Nat) : Option Nat := h.canon[b]?

/-- The operations a user can apply to the handler. -/
inductive Op where
  | clear
  | resize (n : Nat)
  | setPartners (a b : Nat)
  | setCanon (b c : Nat)
  deriving DecidableEq, Repr

/-- One operation; a rejected operation (failed assertion) leaves the object as it is. -/
def step (h : Handler) : Op → Handler
  | .clear => h.clear
  | .resize n => h.resize n
  | .setPartners a b => (h.setPartners a b).getD h
  | .setCanon b c => (h.setCanon b c).getD h

/-- A history of operations. -/
def run (h : Handler) (ops : List Op) : Handler := ops.foldl step h

end Handler

/-! ### Condition tables -/

/-- `BCBase::BCType` (BoundaryConditions.hpp:58). -/
inductive BCType where
  | dirichlet
  | neumann
  | periodic
  deriving DecidableEq, Repr

/-- `FlowBC` / `SatBC` (BoundaryConditions.hpp:121-209): a tag and a value. -/
structure BC (K : Type) where
  type : BCType
  value : K
  deriving DecidableEq, Repr

variable {K : Type}

/-- Default `FlowBC()`: no-flow (BoundaryConditions.hpp:125-128). -/
def flowDefault [Zero K] : BC K := ⟨.neumann, 0⟩

/-- Default `SatBC()`: Dirichlet 1.0 (BoundaryConditions.hpp:179-182). -/
def satDefault [One K] : BC K := ⟨.dirichlet, 1⟩

/-- `BasicBoundaryConditions<true,true>` (BoundaryConditions.hpp:341-449). -/
structure BCs (K : Type) where
  hdl : Handler
  flow : List (BC K)
  sat : List (BC K)
  deriving DecidableEq, Repr

namespace BCs

/-- `resize` (BoundaryConditions.hpp:368-374). -/
def resize [Zero K] [One K] (b : BCs K) (n : Nat) : BCs K :=
  ⟨b.hdl.resize n, resizeList b.flow n flowDefault, resizeList b.sat n satDefault⟩

/-- `clear` (BoundaryConditions.hpp:381-387). -/
def clear (b : BCs K) : BCs K := ⟨b.hdl.clear, [], []⟩

/-- Assignment through `flowCond(i)` (BoundaryConditions.hpp:394-397). -/
def setFlow (b : BCs K) (i : Nat) (c : BC K) : Except (Err × BCs K) (BCs K) :=
  if i < b.flow.length then .ok { b with flow := b.flow.set i c } else .error (.ub, b)

/-- Assignment through `satCond(i)` (BoundaryConditions.hpp:411-414). -/
def setSat (b : BCs K) (i : Nat) (c : BC K) : Except (Err × BCs K) (BCs K) :=
  if i < b.sat.length then .ok { b with sat := b.sat.set i c } else .error (.ub, b)

/-- `setCanonicalBoundaryId` on the whole table. -/
def setCanon (b : BCs K) (i c : Nat) : Except (Err × BCs K) (BCs K) :=
  match b.hdl.setCanon i c with
  | some h => .ok { b with hdl := h }
  | none => .error (.ub, b)

/-- `setPeriodicPartners` on the whole table. -/
def setPartners (b : BCs K) (i j : Nat) : Except (Err × BCs K) (BCs K) :=
  match b.hdl.setPartners i j with
  | some h => .ok { b with hdl := h }
  | none => .error (.ub, b)

end BCs

/-! ### Geometry -/

/-- A face as seen by the boundary code. -/
structure Face (K : Type) where
  bid : Nat
  area : K
  centroid : Fin 3 → K

/-- `BoundaryFaceInfo` (BoundaryPeriodicity.hpp:37-73). `partner_face_index == -1` is `none`. -/
structure BFI (K : Type) where
  faceIndex : Nat
  bid : Nat
  canonPos : Nat
  partnerFace : Option Nat
  partnerBid : Nat
  area : K
  centroid : Fin 3 → K

section
variable [Field K] [LinearOrder K]

/-- Boundary faces of the grid in iteration order (BoundaryPeriodicity.hpp:102-114,
PeriodicHelpers.hpp:238-250). -/
def boundaryFaces (faces : List (Face K)) : List (Face K) := faces.filter (fun f => f.bid ≠ 0)

/-- Lower corner of the bounding box of the centroids, started at 1e100
(BoundaryPeriodicity.hpp:99,108; PeriodicHelpers.hpp:235,244). -/
def lowOf (bf : List (Face K)) (d : Fin 3) : K := bf.foldl (fun m f => min m (f.centroid d)) (10 ^ 100)

/-- Upper corner, started at -1e100 (BoundaryPeriodicity.hpp:100,109; PeriodicHelpers.hpp:236,245). -/
def hiOf (bf : List (Face K)) (d : Fin 3) : K := bf.foldl (fun m f => max m (f.centroid d)) (-(10 ^ 100))

/-- Largest boundary id (BoundaryPeriodicity.hpp:101,111; PeriodicHelpers.hpp:237,247). -/
def maxBid (bf : List (Face K)) : Nat := bf.foldl (fun m f => max m f.bid) 0

/-- The classification loop with its `break`s (BoundaryPeriodicity.hpp:133-142,
PeriodicHelpers.hpp:264-274). `none` is `canon_pos == -1`. -/
def canonPosOf (tol : K) (low hi : Fin 3 → K) (c : Fin 3 → K) : Option Nat :=
  [0, 1, 2].findSome? fun d : Fin 3 =>
    if |c d - low d| ≤ tol then some (2 * d.val)
    else if |c d - hi d| ≤ tol then some (2 * d.val + 1)
    else none

/-- `target_cp` of `match` (BoundaryPeriodicity.cpp:30). -/
def oppPos (cp : Nat) : Nat := if cp % 2 = 0 then cp + 1 else cp - 1

/-- The acceptance test of `match` (BoundaryPeriodicity.cpp:33-38). The comparison of the two-norm with the
tolerance is written with squares. -/
def accepts (a b : BFI K) : Prop :=
  b.canonPos = oppPos a.canonPos ∧ |a.area - b.area| ≤ 1 / 10 ^ 6 ∧
    ∑ d, (b.centroid d - a.centroid d) ^ 2 ≤ (1 / 10 ^ 6) ^ 2

instance (a b : BFI K) : Decidable (accepts a b) := by unfold accepts; infer_instance

/-- The acceptance test applied to position `j` of the list (BoundaryPeriodicity.cpp:33-38). -/
def acceptsAt (bs : List (BFI K)) (a : BFI K) (j : Nat) : Bool :=
  match bs[j]? with
  | some b => decide (accepts a b)
  | none => false

/-- `match(bfaces, face, lower, upper)` (BoundaryPeriodicity.cpp:25-49): the first accepted face in
`[lower, upper)` becomes the mutual partner; returns whether the face has a partner. -/
def matchFace (bs : List (BFI K)) (face lower upper : Nat) : Option (List (BFI K) × Bool) :=
  match bs[face]? with
  | none => none
  | some a =>
    match (List.range' lower (upper - lower)).find? (acceptsAt bs a) with
    | none => some (bs, a.partnerFace.isSome)
    | some j =>
      match bs[j]? with
      | none => none
      | some b =>
        some ((bs.set face { a with partnerFace := some b.faceIndex, partnerBid := b.bid }).set j
          { b with partnerFace := some a.faceIndex, partnerBid := a.bid }, true)

/-- One iteration of the partner loop (BoundaryPeriodicity.hpp:159-177). -/
def partnerStep (per : Nat → Bool) (n : Nat) (bs : List (BFI K)) (i : Nat) : Option (List (BFI K)) := do
  let a ← bs[i]?
  if a.partnerFace.isSome then pure bs
  else if !per a.canonPos then pure bs
  else
    let (bs1, ok) ← matchFace bs i (i - 10) (min n (i + 10))
    if ok then pure bs1
    else
      let (bs2, _) ← matchFace bs1 i 0 n
      pure bs2

/-- The partner loop (BoundaryPeriodicity.hpp:159-177). -/
def partnerLoop (per : Nat → Bool) (bs : List (BFI K)) : Option (List (BFI K)) :=
  (List.range bs.length).foldlM (partnerStep per bs.length) bs

/-- Building the list of `BoundaryFaceInfo` (BoundaryPeriodicity.hpp:120-152); `none` is the exception for a
centroid that is not on the bounding box. -/
def makeInfos (tol : K) (bf : List (Face K)) : Option (List (BFI K)) :=
  bf.zipIdx.mapM fun fi => do
    let cp ← canonPosOf tol (lowOf bf) (hiOf bf) fi.1.centroid
    pure { faceIndex := fi.2, bid := fi.1.bid, canonPos := cp, partnerFace := none, partnerBid := 0,
           area := fi.1.area,
           centroid := fun d => if d.val = cp / 2 then 0 else fi.1.centroid d }

/-- `side_areas` (BoundaryPeriodicity.hpp:121,149). -/
def sideArea (infos : List (BFI K)) (side : Nat) : K :=
  infos.foldl (fun acc b => if b.canonPos = side then acc + b.area else acc) 0

/-- `findPeriodicPartners` (BoundaryPeriodicity.hpp:86-178). `std::sort` (line 156) is a parameter: the
theorems quantify over every function returning a permutation, which covers every sort implementation and
every ordering of ties. -/
def findPeriodicPartners (sort : List (BFI K) → List (BFI K)) (faces : List (Face K)) (per : Nat → Bool)
    (tol : K) : Except Err (List (BFI K)) :=
  let bf := boundaryFaces faces
  if maxBid bf ≠ bf.length then .error .thrown
  else match makeInfos tol bf with
    | none => .error .thrown
    | some infos =>
      match partnerLoop per (sort infos) with
      | none => .error .ub
      | some r => .ok r

/-- `createPeriodicImpl` (PeriodicHelpers.hpp:182-209): returns the table and the face infos. -/
def createPeriodicImpl [DecidableEq K] (sort : List (BFI K) → List (BFI K)) (fbcs : BCs K)
    (faces : List (Face K)) (per : Nat → Bool) (tol : K) : Except (Err × BCs K) (BCs K × List (BFI K)) :=
  match findPeriodicPartners sort faces per tol with
  | .error e => .error (e, fbcs)
  | .ok infos => do
    let b0 := (fbcs.clear).resize (infos.length + 1)
    let b ← infos.foldlM (fun (b : BCs K) i => do
      let b1 ← if i.bid < i.partnerBid then b.setPartners i.bid i.partnerBid else pure b
      b1.setCanon i.bid (i.canonPos + 1)) b0
    pure (b, infos)

/-- `storeFlowCond` (PeriodicHelpers.hpp:53-67). A zero side area cannot be reached through
`findPeriodicPartners` with positive face areas; the division is otherwise `ub`. -/
def storeFlowCond (bcs : BCs K) (infos : List (BFI K)) (conds : Nat → BC K) (areas : Nat → K) :
    Except (Err × BCs K) (BCs K) :=
  infos.foldlM (fun (b : BCs K) i =>
    let c := conds i.canonPos
    if c.type = .neumann then
      if areas i.canonPos = 0 then .error (.ub, b)
      else b.setFlow i.bid ⟨.neumann, c.value * i.area / areas i.canonPos⟩
    else b.setFlow i.bid c) bcs

/-- `storeSatCond` (PeriodicHelpers.hpp:73-82). -/
def storeSatCond (bcs : BCs K) (infos : List (BFI K)) (conds : Nat → BC K) : Except (Err × BCs K) (BCs K) :=
  infos.foldlM (fun (b : BCs K) i => b.setSat i.bid (conds i.canonPos)) bcs

/-- The assertions of `createPeriodic` (PeriodicHelpers.hpp:113-123). -/
def periodicAsserts (fc sc : Nat → BC K) : Bool :=
  [0, 1, 2].all fun i =>
    if (fc (2 * i)).type = .periodic then
      decide ((fc (2 * i + 1)).type = .periodic) && decide ((fc (2 * i)).value = -(fc (2 * i + 1)).value) &&
      decide ((sc (2 * i)).type = .periodic) && decide ((sc (2 * i + 1)).type = .periodic) &&
      decide ((sc (2 * i)).value = 0) && decide ((sc (2 * i + 1)).value = 0)
    else true

/-- `createPeriodic` with flow and saturation conditions (PeriodicHelpers.hpp:104-129). -/
def createPeriodic (sort : List (BFI K) → List (BFI K)) (fbcs : BCs K) (faces : List (Face K))
    (fc sc : Nat → BC K) (tol : K) : Except (Err × BCs K) (BCs K) := do
  if periodicAsserts fc sc then
    let (b, infos) ← createPeriodicImpl sort fbcs faces (fun s => decide ((fc s).type = .periodic)) tol
    let b1 ← storeFlowCond b infos fc (sideArea infos)
    storeSatCond b1 infos sc
  else .error (.ub, fbcs)

/-- Body of the loop of `createLinear` (PeriodicHelpers.hpp:262-291). -/
def linearFace (low hi : Fin 3 → K) (pdrop : K) (pddir : Fin 3) (bdySat : K) (twodim : Bool) (tol : K)
    (b : BCs K) (f : Face K) : Except (Err × BCs K) (BCs K) :=
  match canonPosOf tol low hi f.centroid with
  | none => .error (.thrown, b)
  | some cp =>
    let cmin := low pddir
    let cdelta := hi pddir - low pddir
    if cdelta = 0 then .error (.ub, b)
    else do
      let pressure := pdrop * (1 - (f.centroid pddir - cmin) / cdelta)
      let b1 ← b.setCanon f.bid (cp + 1)
      let b2 ← b1.setSat f.bid ⟨.dirichlet, bdySat⟩
      let b3 ← b2.setFlow f.bid ⟨.dirichlet, pressure⟩
      if twodim ∧ 4 ≤ cp then b3.setFlow f.bid ⟨.neumann, 0⟩ else pure b3

/-- `createLinear` (PeriodicHelpers.hpp:219-292). The division by `cdelta == 0` is `ub`. -/
def createLinear (fbcs : BCs K) (faces : List (Face K)) (pdrop : K) (pddir : Fin 3) (bdySat : K)
    (twodim : Bool) (tol : K) : Except (Err × BCs K) (BCs K) :=
  let bf := boundaryFaces faces
  if maxBid bf ≠ bf.length then .error (.thrown, fbcs)
  else bf.foldlM (linearFace (lowOf bf) (hiOf bf) pdrop pddir bdySat twodim tol)
    (fbcs.resize (maxBid bf + 1))

/-- The `Fixed` branch of `setupUpscalingConditions` (setupBoundaryConditions.hpp:118-130). -/
def setupFixed (bcs : BCs K) (pddir : Fin 3) (pdrop bdySat : K) : Except (Err × BCs K) (BCs K) := do
  let b0 := (bcs.clear).resize 7
  let b1 ← b0.setFlow (2 * pddir + 1) ⟨.dirichlet, pdrop⟩
  let b2 ← b1.setFlow (2 * pddir + 2) ⟨.dirichlet, 0⟩
  let b3 ← b2.setSat (2 * pddir + 1) ⟨.dirichlet, bdySat⟩
  (List.range 7).foldlM (fun (b : BCs K) i => b.setCanon i i) b3

/-- Flow conditions of the six sides in the `Periodic` branch (setupBoundaryConditions.hpp:140-155). -/
def periodicFlowConds (pddir : Fin 3) (pdrop : K) (twodim : Bool) (side : Nat) : BC K :=
  if twodim ∧ (side = 4 ∨ side = 5) then ⟨.neumann, 0⟩
  else if side = 2 * pddir + 1 then ⟨.periodic, -pdrop⟩
  else if side = 2 * pddir then ⟨.periodic, pdrop⟩
  else ⟨.periodic, 0⟩

/-- Saturation conditions of the six sides in the `Periodic` branch (setupBoundaryConditions.hpp:144-155). -/
def periodicSatConds (twodim : Bool) (side : Nat) : BC K :=
  if twodim ∧ (side = 4 ∨ side = 5) then ⟨.dirichlet, 1⟩ else ⟨.periodic, 0⟩

/-- `setupUpscalingConditions` (setupBoundaryConditions.hpp:98-164). -/
def setupUpscalingConditions (sort : List (BFI K) → List (BFI K)) (faces : List (Face K)) (bct : Int)
    (pddir : Fin 3) (pdrop bdySat : K) (twodim : Bool) (bcs : BCs K) : Except (Err × BCs K) (BCs K) :=
  if bct < 0 ∨ bct > 2 then .error (.thrown, bcs)
  else if bct = 0 then setupFixed bcs pddir pdrop bdySat
  else if bct = 1 then createLinear bcs faces pdrop pddir bdySat twodim (1 / 10 ^ 6)
  else createPeriodic sort bcs faces (periodicFlowConds pddir pdrop twodim) (periodicSatConds twodim) (1 / 10 ^ 6)

/-- `isInside` (setupBoundaryConditions.hpp:170-179). -/
def isInside (low high pt : Fin 3 → K) : Bool :=
  decide (low 0 < pt 0) && decide (low 1 < pt 1) && decide (low 2 < pt 2) &&
  decide (high 0 > pt 0) && decide (high 1 > pt 1) && decide (high 2 > pt 2)

/-- `setupRegionBasedConditions` (setupBoundaryConditions.hpp:183-223). -/
def setupRegionBased (bcs : BCs K) (faces : List (Face K)) (low high : Fin 3 → K) (p : K) :
    Except (Err × BCs K) (BCs K) :=
  let mx := faces.foldl (fun m f => max f.bid m) 0
  let ids := (faces.filter fun f => decide (f.bid ≠ 0) && isInside low high f.centroid).map (·.bid)
  ids.foldlM (fun (b : BCs K) i => b.setFlow i ⟨.dirichlet, p⟩) (bcs.resize (mx + 1))

end

/-! ### `UpscalerBase` boundary condition type -/

/-- `UpscalerBase::BoundaryConditionType` (UpscalerBase.hpp: `Fixed = 0, Linear = 1, Periodic = 2`). -/
inductive UType where
  | fixed
  | linear
  | periodic
  deriving DecidableEq, Repr

/-- The two pieces of upscaler state the type affects: `bctype_` and the grid's unique-boundary-id flag. -/
structure UState where
  bctype : UType
  uniqueIds : Bool
  deriving DecidableEq, Repr

/-- `init` from a deck (UpscalerBase_impl.hpp:138-174), the parts concerning boundary ids
(lines 151, 167-171). -/
def UState.init (t : UType) : UState := ⟨t, decide (t = .linear ∨ t = .periodic)⟩

/-- `setBoundaryConditionType` (UpscalerBase_impl.hpp:189-205): result flag and state after the call. -/
def UState.setType (s : UState) (t : UType) : Except Err Unit × UState :=
  if (t = .periodic ∧ s.bctype ≠ .periodic) ∨ (t ≠ .periodic ∧ s.bctype = .periodic) then
    (.error .thrown, s)
  else (.ok (), ⟨t, decide (t = .periodic ∨ t = .linear)⟩)

/-- A sequence of calls, exceptions being caught by the caller. -/
def UState.runCalls (s : UState) (ts : List UType) : UState := ts.foldl (fun s t => (s.setType t).2) s

end Verif.Boundary
