import Verif.Model.RelPerm

/-!
Model of `RelPermUpscaleHelper::upscaleCapillaryPressure` (RelPermUtils.cpp:885-991): sampling the upscaled saturation as a function of
capillary pressure. The table is the library's `MonotCubicInterpolator`, a map from `x` to `f` ordered by `x`; its `getMissingX` is a
parameter. `sw` computes the upscaled saturation (`upscaledSw`). Not modelled: NaN test values, `chopFlatEndpoints`, the final check.
-/

namespace Verif.RelPerm

variable {K : Type} [Field K] [LinearOrder K]

/-- `addPair`: insertion into the map; a point with the same `x` is replaced. -/
def addPair : List (K × K) → K → K → List (K × K)
  | [], x, f => [(x, f)]
  | e :: l, x, f => if x < e.1 then (x, f) :: e :: l else if x = e.1 then (x, f) :: l else e :: addPair l x f

/-- The local variables of the loop: the table and `largestSaturationInterval`. -/
structure Samp (K : Type) where
  table : List (K × K)
  interval : K

/-- Before the loop (RelPermUtils.cpp:890). -/
def sampInit (R : Range K) : Samp K := ⟨[], R.swor - R.swir⟩

/-- The test value and the new interval (RelPermUtils.cpp:898-923). -/
def sampNext (missing : List (K × K) → K × K) (R : Range K) (s : Samp K) : K × K :=
  if R.pcmax = R.pcmin then (R.pcmin, 0)
  else if s.table.length = 0 then (R.pcmax, s.interval)
  else if s.table.length = 1 then (R.pcmin, s.interval)
  else missing s.table

/-- One pass of the loop (RelPermUtils.cpp:898-965). -/
def sampStep (sw : K → Option K) (missing : List (K × K) → K × K) (R : Range K) (s : Samp K) : Option (Samp K) :=
  let t := sampNext missing R s
  (sw t.1).map fun w => ⟨addPair s.table t.1 w, t.2⟩

/-- The loop (RelPermUtils.cpp:897-966 with `parts` = 500, upscale_cap.cpp:540-610 with `parts` = 200), at most `n` tests of the condition. The
flag says whether the loop has ended. -/
def sampRun (parts : K) (sw : K → Option K) (missing : List (K × K) → K × K) (R : Range K) : Nat → Samp K → Option (Samp K × Bool)
  | 0, s => some (s, false)
  | n + 1, s =>
    if s.interval > (R.swor - R.swir) / parts then (sampStep sw missing R s).bind (sampRun parts sw missing R n)
    else some (s, true)

/-- `upscaleCapillaryPressure` (RelPermUtils.cpp:885-966). -/
def upscalePc (S : Sys K) (missing : List (K × K) → K × K) (R : Range K) (n : Nat) : Option (Samp K × Bool) :=
  sampRun 500 (upscaledSw S) missing R n (sampInit R)

end Verif.RelPerm
