import Verif.Model.ElasticUpscale
import Mathlib.Data.Real.Sqrt
import Mathlib.Analysis.SpecialFunctions.Trigonometric.Basic
import Mathlib.Data.List.Sort

/-!
Model of the wave speeds of elasticity upscaling: `/repo/opm/elasticity/elasticity.cpp` lines 23-62 (`waveSpeeds`) and their use in
`/repo/examples/upscale_elasticity.cpp` lines 426-437, 258-272. Real numbers; the eigenvalues of a matrix
(`Dune::FMatrixHelp::eigenValues`) are a parameter `eig`.
-/

namespace Verif.Wave

open Verif.ElasticUp

/-- The direction from dip `φ` and azimuth `θ` (elasticity.cpp:28-32). -/
noncomputable def dir (φ θ : ℝ) : Fin 3 → ℝ := ![Real.cos θ * Real.cos φ, Real.sin θ * Real.cos φ, Real.sin φ]

/-- `two_norm` of a vector. -/
noncomputable def norm (x : Fin 3 → ℝ) : ℝ := Real.sqrt (x 0 * x 0 + x 1 * x 1 + x 2 * x 2)

/-- `D` (elasticity.cpp:34-44); a field matrix is zero at first. -/
noncomputable def dMat (x : Fin 3 → ℝ) (i : Fin 3) (j : Fin 6) : ℝ :=
  (![![x 0, 0, 0, 0, x 2, x 1], ![0, x 1, 0, x 2, 0, x 0], ![0, 0, x 2, x 1, x 0, 0]] : Fin 3 → Fin 6 → ℝ) i j / norm x

/-- `E = D*C*Dt` (elasticity.cpp:45-53). -/
noncomputable def christoffel (C : Fin 6 → Fin 6 → ℝ) (x : Fin 3 → ℝ) (i k : Fin 3) : ℝ :=
  ∑ b : Fin 6, (∑ a : Fin 6, dMat x i a * C a b) * dMat x k b

/-- `waveSpeeds` (elasticity.cpp:23-62). -/
noncomputable def waveSpeeds (eig : (Fin 3 → Fin 3 → ℝ) → List ℝ) (C : Fin 6 → Fin 6 → ℝ) (φ θ ρ : ℝ) : List ℝ :=
  ((eig (christoffel C (dir φ θ))).insertionSort (· ≥ ·)).map fun a => Real.sqrt (a / ρ)

/-- What the driver prints as wave speeds (upscale_elasticity.cpp:426-431), `none` if there is no density. `C` is the matrix of the load cases,
before rows and columns are exchanged. -/
noncomputable def driverSpeeds (eig : (Fin 3 → Fin 3 → ℝ) → List ℝ) (C : Fin 6 → Fin 6 → ℝ) (dip azimuth rho : ℝ) : Option (List ℝ) :=
  if rho > -1 then some (waveSpeeds eig C dip azimuth 1) else none

/-- The matrix that the driver prints (upscale_elasticity.cpp:433-437). -/
def driverMatrix (C : Fin 6 → Fin 6 → ℝ) (i j : Fin 6) : ℝ := C (swap35 i) (swap35 j)

end Verif.Wave
