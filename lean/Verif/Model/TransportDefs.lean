import Mathlib.Algebra.Order.Field.Basic

/-!
Model of the containers in `opm/porsol/common/ImplicitTransportDefs.hpp`, `opm/porsol/common/ImplicitTransportDefs.cpp` and of
`opm/porsol/common/ReservoirPropertyFixedMobility.hpp`. `none` is a failed assertion or an access outside of an array.
-/

namespace Verif.TransportDefs

variable {K : Type} [Field K]

/-- `ReservoirState<np>` (ImplicitTransportDefs.hpp:51-79): arrays of zeros. -/
structure RState (K : Type) where
  pressure : List K
  facepressure : List K
  faceflux : List K
  saturation : List K

/-- Constructor (ImplicitTransportDefs.hpp:54-59). -/
def RState.new (np cells faces : Nat) : RState K :=
  ⟨List.replicate cells 0, List.replicate faces 0, List.replicate faces 0, List.replicate (np * cells) 0⟩

/-- Class `Rock` (ImplicitTransportDefs.hpp:81-118). -/
structure HRock (K : Type) where
  dim : Nat
  perm : List K
  poro : List K

/-- Constructor (ImplicitTransportDefs.hpp:83-86). -/
def HRock.new (nc dim : Nat) : HRock K := ⟨dim, List.replicate (nc * dim * dim) 0, List.replicate nc 0⟩

/-- `v[i] = x`. -/
def put (l : List K) (i : Nat) (x : K) : Option (List K) := if i < l.length then some (l.set i x) else none

/-- The inner loop of `perm_homogeneous` (ImplicitTransportDefs.hpp:98-100). -/
def cellLoop (dim : Nat) (k : K) (v : List K) (c : Nat) : Option (List K) :=
  (List.range dim).foldlM (fun (v : List K) i => put v (c * (dim * dim) + i * (dim + 1)) k) v

/-- `perm_homogeneous` (ImplicitTransportDefs.hpp:91-102). -/
def HRock.permHomogeneous (r : HRock K) (k : K) : Option (HRock K) :=
  ((List.range r.poro.length).foldlM (cellLoop r.dim k) (List.replicate r.perm.length 0)).map fun v => { r with perm := v }

/-- `poro_homogeneous` (ImplicitTransportDefs.hpp:104-107). -/
def HRock.poroHomogeneous (r : HRock K) (phi : K) : HRock K := { r with poro := List.replicate r.poro.length phi }

/-- `compute_porevolume` (ImplicitTransportDefs.cpp:29-44): `cells` and `volumes` are those of the grid. -/
def computePorevolume (cells : Nat) (volumes : List K) (r : HRock K) : Option (List K) :=
  if r.poro.length = cells then
    (List.range r.poro.length).mapM fun (i : Nat) => (r.poro[i]?).bind fun p => (volumes[i]?).map fun v => p * v
  else none

/-- `TransportSource` (ImplicitTransportDefs.hpp:194-206), without the two unused arrays. -/
structure Source (K : Type) where
  nsrc : Nat
  cell : List Nat
  pressure : List K
  flux : List K
  saturation : List K

/-- Constructor. -/
def Source.new : Source K := ⟨0, [], [], [], []⟩

/-- `append_transport_source` (ImplicitTransportDefs.hpp:208-219). -/
def Source.append (s : Source K) (c : Nat) (p v : K) (sat : List K) : Source K :=
  { nsrc := s.nsrc + 1, cell := s.cell ++ [c], pressure := s.pressure ++ [p], flux := s.flux ++ [v], saturation := s.saturation ++ sat }

/-- `TwophaseFluidWrapper::density` (ImplicitTransportDefs.hpp:146-152). -/
def density (first second : K) (p : Nat) : K := if p = 0 then first else second

/-- `ReservoirPropertyFixedMobility::phaseMobilities` (ReservoirPropertyFixedMobility.hpp:56-61). -/
def phaseMobilities (mobs : List K) (c : Nat) (_sat : K) : Option (List K) := (mobs[c]?).map fun m => [m, 0]

/-- `ReservoirPropertyFixedMobility::phaseMobility` (ReservoirPropertyFixedMobility.hpp:63-70). -/
def phaseMobility (mobs : List K) (phase c : Nat) (_sat : K) : Option K := if phase = 0 then mobs[c]? else some 0

/-- `ReservoirPropertyFixedMobility::phaseDensities` (ReservoirPropertyFixedMobility.hpp:72-77). -/
def phaseDensities (_c : Nat) : List K := [1, 0]

end Verif.TransportDefs
