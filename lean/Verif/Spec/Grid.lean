import Verif.Spec.Numeric

/-!
# Specification vocabulary: square arrays
-/

noncomputable section

namespace PyBSM.Spec

/-- The `n x n` array with entry `g i j` in row `i` and column `j`.  As everywhere in the code, row 0 is the
largest `v` frequency and column 0 the smallest `u` frequency. -/
def grid (n : ℕ) (g : ℕ → ℕ → ℝ) : List (List XR) := (List.range n).map fun i => vec n (g i)

end PyBSM.Spec
