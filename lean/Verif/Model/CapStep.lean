import Verif.Model.Hybrid
import Verif.Model.Capillary
import Verif.Model.Euler

/-!
Model of a whole step of the implicit capillarity solver, `ImplicitCapillarity::transportSolve`
(`opm/porsol/euler/ImplicitCapillarity_impl.hpp:138-228`), for scalar mobilities. The parts for mobilities and for the matching of
volumes are in `Verif.Model.Capillary`, the pressure solver is in `Verif.Model.Hybrid`, the check of the result in
`Verif.Model.Euler`. The residual (`computeResidual`) and the phase mobilities are data of the cells; the face pressures found by the
linear solver and the points visited by the root finder are parameters. Cells are numbered in iteration order.
-/

namespace Verif.CapStep

open Verif.Hybrid Verif.Capillary

variable {K : Type} [Field K]

/-- What the pressure solver knows about a cell: faces, inverse inner product for mobility one, flow conditions on its faces; and, at
the present saturation, the two phase mobilities and the residual of viscous and gravity flow. -/
structure PCell (K : Type) where
  nf : Nat
  dof : Fin nf → Nat
  Binv : Fin nf → Fin nf → K
  ext : Fin nf → Ext K
  mob : K × K
  residual : K

/-- The conditions for the capillary pressure (ImplicitCapillarity_impl.hpp:167-173): jumps of periodic conditions are set to zero, all
others are kept. -/
def capExt : Ext K → Ext K
  | .periodic _ q => .periodic 0 q
  | e => e

/-- A cell as `psolver_.solve` sees it (ImplicitCapillarity_impl.hpp:149-188; `init` without gravity, 83-84 and 115-116): the inner
product scaled with the capillary mobility, sources equal to minus the residual. -/
def capCell (c : PCell K) (m : K) : Cell K :=
  ⟨c.nf, c.dof, fun i j => m * c.Binv i j, fun _ => 0, -c.residual, fun k => capExt (c.ext k)⟩

variable [LinearOrder K]

/-- The capillary mobilities of all cells (ImplicitCapillarity_impl.hpp:149-164). -/
def mobilities {nc : Nat} (cells : Fin nc → PCell K) : Option (List K) :=
  (List.finRange nc).mapM fun i => capMobility (cells i).mob.1 (cells i).mob.2

/-- The cells of the capillary pressure problem. -/
def capCells {nc : Nat} (cells : Fin nc → PCell K) (m : List K) (i : Fin nc) : Cell K := capCell (cells i) (m.getD i 0)

/-- `transportSolve` (ImplicitCapillarity_impl.hpp:138-228): `x` are the face pressures found by the linear solver, `points` the
evaluations of the root finder. `none` is a division by zero or an access out of range. -/
def transportSolve (sq : K → K) {nc : Nat} (cells : Fin nc → PCell K) (g : Grid K) (rp : RP K) (relax : K) (check clamp : Bool)
    (x : Nat → K) (points : List K) (sat : List K) : Option (Euler.InPlace (Nat → K)) :=
  (mobilities cells).bind fun m =>
    (capillaryUpdate sq g rp ((List.finRange nc).map fun i => (capCells cells m i).pressure x) relax points sat).map fun s =>
      if check || clamp then Euler.checkAndClamp clamp s.length (fun i => s.getD i 0) else ⟨fun i => s.getD i 0, none⟩

end Verif.CapStep
