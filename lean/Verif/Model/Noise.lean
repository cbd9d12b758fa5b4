import Verif.Num.Arr

/-!
# Model of `src/pybsm/noise.py`
-/

noncomputable section

open Classical

namespace PyBSM

/-- A 2-D filter kernel with finite entries, as the list of its rows (a 1-D kernel is one row of
columns for `noise_gain`, which only sums). (`noise.py`:37-60, `sensor.py`:231) -/
abbrev Kernel := List (List ℝ)

/-- `noise_gain`, `noise.py`:37-60. -/
def noiseGain (kernel : Kernel) : Except PyErr XR :=
  if ¬ XR.eq (asum (kernel.flatten.map .fin)) 1 then .error .valueError
  else .ok (XR.sqrt (asum (kernel.flatten.map fun k => (XR.fin k) ^ 2)))

/-- `quantization_noise`, `noise.py`:63-84.  The denominator is a numpy scalar (`np.sqrt(12)`), so
the division never raises.  `2.0 ** bit_depth` for a real bit depth. -/
def quantizationNoise (peRange : XR) (bitDepth : ℝ) : XR :=
  peRange / (XR.sqrt 12 * (.fin ((2 : ℝ) ^ bitDepth) - 1))

end PyBSM
