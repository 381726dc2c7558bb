import Verif.Model.RelPermOutput

/-!
Specification for the output of `upscale_relperm`: the data has one value for each saturation; the written table and the Eclipse tables hold them.
-/

namespace Verif.RelPermOut.Spec

variable {K : Type}

/-- The data is complete: a pressure and a value of each component for every saturation, and three components at least. -/
structure Complete (both : Bool) (d : Data K) : Prop where
  points : d.S ≠ []
  pressures : d.P.length = d.S.length
  first : ∀ k ∈ d.kr1, k.length = d.S.length
  three : 3 ≤ d.kr1.length
  second : both = true → (∀ k ∈ d.kr2, k.length = d.S.length) ∧ d.kr2.length = d.kr1.length

end Verif.RelPermOut.Spec
