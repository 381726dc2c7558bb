import Mathlib.Algebra.BigOperators.Fin
import Mathlib.Algebra.Order.Field.Basic

/-!
Model of `opm/porsol/mimetic/MimeticIPEvaluator.hpp` and `opm/porsol/mimetic/MimeticIPAnisoRelpermEvaluator.hpp`.

Matrices are functions of row and column; the BLAS wrappers are replaced by the products they compute (property C02:
`symmetricUpdate(fa, B)` is `fa B fa'` because `fa` is diagonal). `orthogonalizeColumns` (LAPACK) is not modelled: its result
`Q` is a parameter, of which the theorems assume what the routine documents. `double` is a field. The working arrays are
cleared before use (`zero`) and have no influence.
-/

namespace Verif.Mimetic

variable {K : Type} [Field K] {dim nf : Nat}

/-- A face as seen from its cell (`f->area()`, `f->centroid()`, `f->normal()`). -/
structure Face (K : Type) (dim : Nat) where
  area : K
  centroid : Fin dim → K
  normal : Fin dim → K

/-- A cell with `nf` faces. -/
structure Cell (K : Type) (dim nf : Nat) where
  face : Fin nf → Face K dim
  centroid : Fin dim → K
  volume : K

/-- `T1`: area weighted normals (MimeticIPEvaluator.hpp:242-248). -/
def nmat (c : Cell K dim nf) (i : Fin nf) (j : Fin dim) : K := (c.face i).normal j * (c.face i).area

/-- `T2` before orthogonalisation: area weighted centroids relative to the cell (MimeticIPEvaluator.hpp:241-249). -/
def cmat (c : Cell K dim nf) (i : Fin nf) (j : Fin dim) : K :=
  ((c.face i).centroid j - c.centroid j) * (c.face i).area

/-- `diag(A) (I - Q Q') diag(A)` (MimeticIPEvaluator.hpp:236-237, 258-262): identity, rank update, scaling by the diagonal
matrix of areas from both sides. -/
def second (c : Cell K dim nf) (Q : Fin nf → Fin dim → K) (i j : Fin nf) : K :=
  (c.face i).area * ((if i = j then 1 else 0) + (-1) * ∑ k, Q i k * Q j k) * (c.face j).area

/-- `trace`. -/
def trace (P : Fin dim → Fin dim → K) : K := ∑ k, P k k

/-- The last two products (MimeticIPEvaluator.hpp:265-274): `(N P N' + t diag(A) (I - Q Q') diag(A)) / vol`; the tensor `P` is
the permeability, or mobility times permeability in the anisotropic version
(MimeticIPAnisoRelpermEvaluator.hpp:361-388). -/
def inner (c : Cell K dim nf) (Q : Fin nf → Fin dim → K) (P : Fin dim → Fin dim → K) (i j : Fin nf) : K :=
  1 / c.volume * (∑ k, (∑ l, nmat c i l * P l k) * nmat c j k) +
    6 * trace P / dim / c.volume * second c Q i j

/-- `gflux_`: normal times `K g` (MimeticIPEvaluator.hpp:231, 244). -/
def gflux (c : Cell K dim nf) (P : Fin dim → Fin dim → K) (g : Fin dim → K) (i : Fin nf) : K :=
  ∑ k, nmat c i k * ∑ l, P k l * g l

/-- `computeDynamicParams` (MimeticIPEvaluator.hpp:297-312): total mobility. -/
def totmob (mob : List K) : K := mob.foldl (· + ·) 0

/-- `computeDynamicParams` (MimeticIPEvaluator.hpp:310-311): `inner_product` of densities and mobilities. -/
def mobDens (rho mob : List K) : K := (rho.zip mob).foldl (fun a p => a + p.1 * p.2) 0

/-- `getInverseMatrix` (MimeticIPEvaluator.hpp:343-351). -/
def inverseMatrix (B : Fin nf → Fin nf → K) (mob : List K) (i j : Fin nf) : K := B i j * totmob mob

/-- `gravityTerm` (MimeticIPEvaluator.hpp:477-495) with `omega`. -/
def gravityTerm (c : Cell K dim nf) (g : Fin dim → K) (omega : K) (i : Fin nf) : K :=
  omega * ∑ k, ((c.face i).centroid k - c.centroid k) * g k

/-- `omega` of the overloads (MimeticIPEvaluator.hpp:497-524); total mobility zero is a division by zero. -/
def omega [DecidableEq K] (rho mob : List K) : Option K :=
  if totmob mob = 0 then none else some (mobDens rho mob / totmob mob)

/-- `gravityFlux` (MimeticIPEvaluator.hpp:541-549). -/
def gravityFlux (c : Cell K dim nf) (P : Fin dim → Fin dim → K) (g : Fin dim → K) (rho mob : List K) (i : Fin nf) : K :=
  gflux c P g i * mobDens rho mob

/-- `computeDynamicParams` with tensor mobilities (MimeticIPAnisoRelpermEvaluator.hpp:299-332): `lambdaK_`. -/
def lambdaK (P : Fin dim → Fin dim → K) (pmob : List (Fin dim → Fin dim → K)) (i j : Fin dim) : K :=
  ∑ k, (pmob.foldl (fun a m => fun i j => a i j + m i j) (fun _ _ => 0)) i k * P k j

/-- `dyn_Kg_` (MimeticIPAnisoRelpermEvaluator.hpp:315-321), `Kg_` being permeability times gravity
(MimeticIPAnisoRelpermEvaluator.hpp:267-269). -/
def dynKg (P : Fin dim → Fin dim → K) (g : Fin dim → K) (phases : List (K × (Fin dim → Fin dim → K))) : Fin dim → K :=
  phases.foldl (fun a p => fun i => a i + p.1 * ∑ k, p.2 i k * ∑ l, P k l * g l) fun _ => 0

/-- `gravityFlux` with tensor mobilities (MimeticIPAnisoRelpermEvaluator.hpp:404-416). -/
def gravityFluxAniso (c : Cell K dim nf) (P : Fin dim → Fin dim → K) (g : Fin dim → K)
    (phases : List (K × (Fin dim → Fin dim → K))) (i : Fin nf) : K := ∑ k, nmat c i k * dynKg P g phases k

end Verif.Mimetic
