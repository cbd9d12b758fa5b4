import Verif.Model.Double
import Verif.Model.Rounded
import Verif.Model.OtfImage
import Verif.Model.Noise

/-!
# Comparisons and truncations in double precision

The places, other than the database lookup, where the program turns the result of a floating-point computation into a
discrete outcome: an exception, a number of samples or an array size.
-/

noncomputable section

open Classical

namespace PyBSM

/-- The sum of `f`, added up in the given order with a rounding after each addition (`np.sum` fixes no order).
(used at `noise.py`:57, 60) -/
def sumD (fl : ℝ → ℝ) (f : ℕ → ℝ) : SumTree → ℝ
  | .zero => 0
  | .leaf i => f i
  | .node a b => fl (sumD fl f a + sumD fl f b)

/-- `noise_gain` in double precision for a kernel of doubles, `noise.py`:37-60. -/
def noiseGainD (fl : ℝ → ℝ) (order : SumTree) (kernel : Kernel) : Except PyErr ℝ :=
  if sumD fl (fun i => kernel.flatten.getD i 0) order ≠ 1 then .error .valueError
  else .ok (fl (Real.sqrt (sumD fl (fun i => fl (kernel.flatten.getD i 0 ^ 2)) order)))

/-- The number of samples of `slice_otf` for an `n x n` OTF, `otf/functional.py`:1174-1176:
`len(np.arange(0.0, 1.0, u[1] - u[0]))` with `u = np.linspace(-1.0, 1.0, n)`. -/
def sliceCountD (fl : ℝ → ℝ) (n : ℕ) : ℕ :=
  (arangeD fl 0 1 (fl (linspaceD fl (-1) 1 n 1 - linspaceD fl (-1) 1 n 0))).length

/-- The size of the resized PSF, `otf/functional.py`:940-941, for positive spacings. -/
def psfSizeD (fl : ℝ → ℝ) (n : ℕ) (dxIn dxOut : ℝ) : ℤ := max 1 ⌊fl (fl (n * dxIn) / dxOut)⌋

/-- The size of a resampled image, `otf/functional.py`:1451-1452, for positive spacings. -/
def imageSizeD (fl : ℝ → ℝ) (n : ℕ) (dxIn dxOut : ℝ) : ℤ := roundHalfEven (fl (fl (n * dxIn) / dxOut))

end PyBSM
