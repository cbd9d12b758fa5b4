import Verif.Model.Double
import Verif.Model.Rounded

/-!
# The edge response in double precision

`edge_response` and `relative_edge_response` with a rounding `fl` after every operation. `sinD` is `np.sin` of the
mathematical library, `order` the order in which `numpy` adds the terms of the trapezoid rule. Simplifications: the
samples of the MTF and the other inputs are numbers; nothing overflows or underflows.
-/

noncomputable section

open Classical

namespace PyBSM

/-- A sum of doubles, adding in the given order and rounding each partial sum (`np.sum`; used by `np.trapz` at
`metrics/functional.py`:672). -/
def SumTree.sumD (fl : ℝ → ℝ) (f : ℕ → ℝ) : SumTree → ℝ
  | zero => 0
  | leaf i => f i
  | node a b => fl (a.sumD fl f + b.sumD fl f)

/-- Entry `i` of `w` in double precision, `metrics/functional.py`:669. -/
def edgeFreqD (fl : ℝ → ℝ) (df : ℝ) (i : ℕ) : ℝ := fl (fl (df * i) + fl 1e-6)

/-- Entry `i` of `y` in double precision, `metrics/functional.py`:670. -/
def edgeTermD (fl sinD : ℝ → ℝ) (x : ℝ) (m : ℕ → ℝ) (df ifov : ℝ) (i : ℕ) : ℝ :=
  fl (fl (m i / edgeFreqD fl df i) * sinD (fl (fl (fl (fl (2 * fl Real.pi) * edgeFreqD fl df i) * ifov) * x)))

/-- `edge_response` in double precision at the distance `x`, `metrics/functional.py`:669-673. -/
def edgeResponseD (fl sinD : ℝ → ℝ) (order : SumTree) (x : ℝ) (m : ℕ → ℝ) (df ifov : ℝ) : ℝ :=
  fl (fl 0.5 + fl (fl (1 / fl Real.pi) * order.sumD fl fun i =>
    fl (fl (fl (edgeFreqD fl df (i + 1) - edgeFreqD fl df i) *
      fl (edgeTermD fl sinD x m df ifov (i + 1) + edgeTermD fl sinD x m df ifov i)) / 2)))

/-- `relative_edge_response` in double precision, `metrics/functional.py`:604. -/
def relativeEdgeResponseD (fl sinD : ℝ → ℝ) (order : SumTree) (m : ℕ → ℝ) (df ifov : ℝ) : ℝ :=
  fl (edgeResponseD fl sinD order 0.5 m df ifov - edgeResponseD fl sinD order (-0.5) m df ifov)

end PyBSM
