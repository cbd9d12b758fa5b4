import Verif.Num.Rounding
import Mathlib.Analysis.SpecialFunctions.Trigonometric.Inverse

/-!
# Specification of the trigonometric functions of the mathematical library (C106)
-/

noncomputable section

namespace PyBSM.Spec

/-- `cosD` is the cosine to four units in the last place, and exact at zero. -/
structure IsCosine (cosD : ℝ → ℝ) : Prop where
  accurate : ∀ x, |cosD x - Real.cos x| ≤ (2 : ℝ) ^ (-50 : ℤ) * |Real.cos x|
  zero : cosD 0 = 1

/-- `acosD` is the arc cosine to four units in the last place, and exact at one. -/
structure IsArccos (acosD : ℝ → ℝ) : Prop where
  accurate : ∀ x, |x| ≤ 1 → |acosD x - Real.arccos x| ≤ (2 : ℝ) ^ (-50 : ℤ) * Real.arccos x

end PyBSM.Spec
