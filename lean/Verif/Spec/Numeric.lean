import Verif.Num.XR
import Mathlib.Analysis.SpecialFunctions.Sqrt
import Mathlib.Algebra.BigOperators.Group.Finset.Basic
import Mathlib.Algebra.BigOperators.Intervals
import Mathlib.Data.List.GetD

/-!
# Specification: quadrature and linear interpolation over the reals
-/

noncomputable section

namespace PyBSM.Spec

/-- The array of length `n` with the finite entries `a 0, ..., a (n-1)`.  Every array without special
values has this form (`exists_vec`). -/
def vec (n : ℕ) (a : ℕ → ℝ) : List XR := (List.range n).map fun (i : ℕ) => .fin (a i)

/-- Trapezoid rule for the `n` samples `y` at abscissae `x`. -/
def trap (n : ℕ) (x y : ℕ → ℝ) : ℝ :=
  ∑ i ∈ Finset.range (n - 1), (x (i + 1) - x i) * ((y i + y (i + 1)) / 2)

/-- The point on the straight line through `(a, ya)` and `(b, yb)` with abscissa `x`. -/
def line (a ya b yb x : ℝ) : ℝ := ya + (yb - ya) * ((x - a) / (b - a))

/-- `(x, y)` is a table point, or lies on the segment between two neighbouring table points. -/
def OnTable (tbl : List (ℝ × ℝ)) (x y : ℝ) : Prop :=
  (x, y) ∈ tbl ∨ ∃ i a ya b yb, tbl[i]? = some (a, ya) ∧ tbl[i + 1]? = some (b, yb)
    ∧ a < x ∧ x < b ∧ y = line a ya b yb x

/-- The abscissae of the table strictly increase. -/
def Increasing (tbl : List (ℝ × ℝ)) : Prop := tbl.Pairwise fun p q => p.1 < q.1

end PyBSM.Spec
