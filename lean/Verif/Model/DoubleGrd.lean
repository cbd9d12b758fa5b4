import Verif.Model.DoubleTrueImage

/-!
# Ground resolved distance in double precision

`ground_resolved_distance` with a rounding `fl` after every operation, for `n` samples `m` of an MTF slice. Simplification: nothing
overflows or underflows.
-/

noncomputable section

open Classical

namespace PyBSM

/-- Entry `k` of `w`, `metrics/functional.py`:267. -/
def grdNodeD (fl : ℝ → ℝ) (df : ℝ) (k : ℕ) : ℝ := fl (df * k)

/-- `np.interp(t, mtf_slice[::-1], w[::-1])` for a threshold `t` not below the last of the samples `0 .. n`, `metrics/functional.py`:269:
the first interval from the last sample on whose other end is above `t`. -/
def grdFreqD (fl : ℝ → ℝ) (m : ℕ → ℝ) (df t : ℝ) : ℕ → ℝ
  | 0 => grdNodeD fl df 0
  | n + 1 =>
    if t < m n then
      if t = m (n + 1) then grdNodeD fl df (n + 1)
      else segmentD fl (m (n + 1)) (grdNodeD fl df (n + 1)) (m n) (grdNodeD fl df n) t
    else grdFreqD fl m df t n

/-- `np.interp(t, mtf_slice[::-1], w[::-1])`, `metrics/functional.py`:269: for a threshold below the last sample the last frequency. -/
def grdCrossD (fl : ℝ → ℝ) (n : ℕ) (m : ℕ → ℝ) (df t : ℝ) : ℝ :=
  if t < m (n - 1) then grdNodeD fl df (n - 1) else grdFreqD fl m df t (n - 1)

/-- `ground_resolved_distance`, `metrics/functional.py`:267-273, for a signal-to-noise ratio other than zero. -/
def grdD (fl : ℝ → ℝ) (n : ℕ) (m : ℕ → ℝ) (df snr ifov slant : ℝ) : ℝ :=
  let u := fl (grdCrossD fl n m df (fl (3 / snr)) + fl 1e-12)
  max (fl (slant * fl (1 / u))) (fl (slant * fl (2 * ifov)))

end PyBSM
