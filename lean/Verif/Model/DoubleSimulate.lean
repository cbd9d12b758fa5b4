import Verif.Model.Decisions
import Verif.Model.DoubleGeometry

/-!
# The scalars of `simulate_image` in double precision

Frequencies, their spacing, field of view, noise and array sizes of `simulate_image`, with a rounding `fl` after every operation.
Simplifications: `x**2.0` is the rounded square; the bit depth is a natural number, so that `2.0**bit_depth` is exact (`pow` of the
C library returns powers of two exactly); nothing overflows or underflows.
-/

noncomputable section

namespace PyBSM

/-- Entry `j` of `u_rng` for the cutoff frequency `c`, `simulation/functional.py`:210. -/
def simFreqUD (fl : ℝ → ℝ) (c : ℝ) (j : ℕ) : ℝ := fl (linspaceD fl (-1) 1 1501 j * c)

/-- Entry `i` of `v_rng`, `simulation/functional.py`:211. -/
def simFreqVD (fl : ℝ → ℝ) (c : ℝ) (i : ℕ) : ℝ := fl (linspaceD fl 1 (-1) 1501 i * c)

/-- `df`, `simulation/functional.py`:227. -/
def simStepD (fl : ℝ → ℝ) (c : ℝ) : ℝ :=
  fl (fl (|fl (simFreqUD fl c 1 - simFreqUD fl c 0)| + |fl (simFreqVD fl c 0 - simFreqVD fl c 1)|) / 2)

/-- Whether `simulate_image` raises `ValueError("Cutoff frequency values must be increasing.")`, `simulation/functional.py`:229-230. -/
def simStepRejected (fl : ℝ → ℝ) (c : ℝ) : Prop := simStepD fl c ≤ 0

/-- `ifov`, `simulation/functional.py`:232. -/
def simIfovD (fl : ℝ → ℝ) (pX pY f : ℝ) : ℝ := fl (fl (fl (pX + pY) / 2) / f)

/-- `quantization_noise`, `noise.py`:83, for a bit depth that is a natural number. -/
def quantizationNoiseD (fl : ℝ → ℝ) (peRange : ℝ) (bits : ℕ) : ℝ :=
  fl (peRange / fl (fl (Real.sqrt 12) * fl (2 ^ bits - 1)))

/-- `g_noise`, `simulation/functional.py`:237-238. -/
def simNoiseD (fl : ℝ → ℝ) (maxN readNoise : ℝ) (bits : ℕ) : ℝ :=
  fl (Real.sqrt (fl (fl (quantizationNoiseD fl maxN bits ^ 2) + fl (readNoise ^ 2))))

/-- Size of the simulated image along an axis along which the reference image has `n` pixels: `new_x` or `new_y` of `resample_2D`
called by `apply_otf_to_image` called by `simulate_image`, `otf/functional.py`:1291, 1451-1452, `simulation/functional.py`:200, 250-252. -/
def simSizeD (fl : ℝ → ℝ) (n : ℕ) (gsd altitude groundRange pX pY f : ℝ) : ℤ :=
  imageSizeD fl n (fl (gsd / flatSlantRangeD fl altitude groundRange)) (simIfovD fl pX pY f)

/-- Size of the resampled point spread function: `new_x` and `new_y` of `otf_to_psf` called by `apply_otf_to_image` called by
`simulate_image`, `otf/functional.py`:1285, `simulation/functional.py`:200, 227, 250-252; `atanD` is `np.arctan`. -/
def simPsfSizeD (fl atanD : ℝ → ℝ) (c gsd altitude groundRange : ℝ) : ℤ :=
  psfSizeD fl 1501 (fl (1 / fl (1501 * simStepD fl c))) (fl (2 * atanD (fl (fl (gsd / 2) / flatSlantRangeD fl altitude groundRange))))

end PyBSM
