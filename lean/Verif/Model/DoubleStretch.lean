import Verif.Model.Simulation
import Verif.Num.Rounding

/-!
# Contrast stretching in double precision

`np.percentile` and `stretch_contrast_convert_8bit` with a rounding `fl` after every operation. Simplification: nothing
overflows or underflows.
-/

noncomputable section

open Classical

namespace PyBSM

/-- `np.percentile(a, q)` of a non-empty array (used at `simulation/functional.py`:275-276): numpy divides `q` by 100,
multiplies with `n - 1`, and interpolates from the nearer of the two neighbours. -/
def percentileD (fl : ℝ → ℝ) (a : List ℝ) (q : ℝ) : ℝ :=
  let s := a.insertionSort (· ≤ ·)
  let t := fl (fl (q / 100) * ((a.length : ℝ) - 1))
  let lo := s.getD (min ⌊t⌋₊ (a.length - 1)) 0
  let hi := s.getD (min (⌊t⌋₊ + 1) (a.length - 1)) 0
  let g := fl (t - ⌊t⌋₊)
  if g < 1 / 2 then fl (lo + fl (fl (hi - lo) * g)) else fl (hi - fl (fl (hi - lo) * fl (1 - g)))

/-- The division at `simulation/functional.py`:276; numpy returns an infinity or NaN for a zero divisor. -/
def stretchQuotD (fl : ℝ → ℝ) (x d : ℝ) : XR := if d = 0 then XR.fin x / XR.fin 0 else .fin (fl (x / d))

/-- `stretch_contrast_convert_8bit` on the pixels of a non-empty image, `simulation/functional.py`:269-278. -/
def stretchContrastD (fl : ℝ → ℝ) (img : List ℝ) (p0 : ℝ := 0.1) (p1 : ℝ := 99.9) : List (Option ℕ) :=
  let a := img.map fun v => fl (v - percentileD fl img p0)
  let den := fl (percentileD fl a p1 / 255)
  a.map fun x => toUint8 (clip255 (stretchQuotD fl x den))

end PyBSM
