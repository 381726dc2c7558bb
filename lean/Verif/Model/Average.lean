import Mathlib.Analysis.SpecialFunctions.Sqrt

/-!
Model of `opm/core/utility/Average.hpp` for `T = double`, as real functions.
-/

namespace Verif.Average

/-- `arithmeticAverage` (Average.hpp:50-60). -/
noncomputable def arithmeticAverage (t1 t2 : ℝ) : ℝ := (t1 + t2) * (1 / 2)

/-- `geometricAverage` (Average.hpp:68-77). -/
noncomputable def geometricAverage (t1 t2 : ℝ) : ℝ := if t1 * t2 ≤ 0 then 0 else Real.sqrt (t1 * t2)

/-- `harmonicAverage` (Average.hpp:83-92). -/
noncomputable def harmonicAverage (t1 t2 : ℝ) : ℝ := if t1 * t2 ≤ 0 then 0 else (2 * t1 * t2) / (t1 + t2)

end Verif.Average
