import Verif.Spec.Numeric

/-!
# Specification vocabulary for reflectance calibration and contrast stretching
-/

noncomputable section

namespace PyBSM.Spec

/-- `y` is the value at `x` of the broken line through the points of the increasing table, the first and the last
line being extended to the left and to the right. -/
def OnExtended (tbl : List (ℝ × ℝ)) (x y : ℝ) : Prop :=
  ∃ i a ya b yb, tbl[i]? = some (a, ya) ∧ tbl[i + 1]? = some (b, yb)
    ∧ (a ≤ x ∨ i = 0) ∧ (x ≤ b ∨ i + 2 = tbl.length) ∧ y = line a ya b yb x

/-- A calibration: at least two pairs (pixel value, reflectance), no pixel value twice. -/
structure Calibration (cal : List (ℝ × ℝ)) : Prop where
  two : 2 ≤ cal.length
  distinct : (cal.map Prod.fst).Nodup

/-- Larger pixel values have larger (or equal) reflectance. -/
def Brightening (cal : List (ℝ × ℝ)) : Prop := ∀ p ∈ cal, ∀ q ∈ cal, p.1 < q.1 → p.2 ≤ q.2

/-- Truncation to the interval `[0, 1]`. -/
def unit (y : ℝ) : ℝ := max 0 (min 1 y)

/-- `v` is the `q`-th percentile of the values: with the values in increasing order at positions `0, 1, …, n - 1`, it is
the value at position `q / 100 * (n - 1)`, on the straight line between neighbours if that is not a whole number. -/
def IsPercentile (values : List ℝ) (q v : ℝ) : Prop :=
  ∃ srt : List ℝ, srt.Perm values ∧ srt.Pairwise (· ≤ ·) ∧ ∃ (k : ℕ) (a : ℝ), srt[k]? = some a
    ∧ ((q / 100 * ((values.length : ℝ) - 1) = k ∧ v = a)
      ∨ (k < q / 100 * ((values.length : ℝ) - 1) ∧ q / 100 * ((values.length : ℝ) - 1) < k + 1
        ∧ ∃ b, srt[k + 1]? = some b ∧ v = line k a (k + 1) b (q / 100 * ((values.length : ℝ) - 1))))

end PyBSM.Spec
