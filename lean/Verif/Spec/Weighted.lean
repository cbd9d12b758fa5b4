import Verif.Spec.Numeric

/-!
# Specification vocabulary: weighted mean over (wavelength, weight) pairs
-/

noncomputable section

namespace PyBSM.Spec

/-- The weighted mean of `F` over the pairs `(wavelength, weight)`. -/
def wmean (pairs : List (ℝ × ℝ)) (F : ℝ → ℝ) : ℝ :=
  (pairs.map fun p => p.2 * F p.1).sum / (pairs.map fun p => p.2).sum

end PyBSM.Spec
