import Verif.Model.MimeticIP

/-! What C36 talks about: cell geometry, symmetric and non-negative tensors, and the flux of a linear pressure field. -/

namespace Verif.Mimetic

variable {K : Type} [Field K] {dim nf : Nat}

/-- The identity that the divergence theorem gives for a closed polyhedral cell with planar faces:
`∑ area n_d (x - x_c)_e = vol δ_de`. -/
def Closed (c : Cell K dim nf) : Prop :=
  ∀ d e, ∑ i, (c.face i).area * (c.face i).normal d * ((c.face i).centroid e - c.centroid e) =
    if d = e then c.volume else 0

/-- What a QR decomposition of the matrix `C` gives: `Q` has orthonormal columns whose combinations give the columns of `C`. -/
def OrthBasis (C Q : Fin nf → Fin dim → K) : Prop :=
  (∀ k l, ∑ i, Q i k * Q i l = if k = l then 1 else 0) ∧
    ∃ R : Fin dim → Fin dim → K, ∀ i e, C i e = ∑ k, Q i k * R k e

def Symm {n : Nat} (P : Fin n → Fin n → K) : Prop := ∀ i j, P i j = P j i

/-- Value of the quadratic form of a matrix. -/
def quadForm {n : Nat} (P : Fin n → Fin n → K) (v : Fin n → K) : K := ∑ i, ∑ j, v i * P i j * v j

variable [LinearOrder K]

def PosSemi {n : Nat} (P : Fin n → Fin n → K) : Prop := ∀ v, 0 ≤ quadForm P v

def PosDef {n : Nat} (P : Fin n → Fin n → K) : Prop := ∀ v, (∃ i, v i ≠ 0) → 0 < quadForm P v

omit [LinearOrder K]

/-- The pressure field `p(x) = p0 + g . x`. -/
def linearPressure (p0 : K) (g x : Fin dim → K) : K := p0 + ∑ k, g k * x k

/-- Flux of the constant velocity `- P g` out of a face. -/
def darcyFlux (f : Face K dim) (P : Fin dim → Fin dim → K) (g : Fin dim → K) : K :=
  -(f.area * ∑ k, f.normal k * ∑ l, P k l * g l)

end Verif.Mimetic
