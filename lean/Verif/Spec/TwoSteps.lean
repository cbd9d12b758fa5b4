import Verif.Spec.Psf

/-!
# Specification vocabulary: blurring in two steps
-/

noncomputable section

open Classical

namespace PyBSM.Spec

/-- Where the light of a point is found after two blurs: the sum over the ways to get there. -/
def twoSteps (h₁ h₂ : ℤ → ℤ → ℝ) (c d : ℤ) : ℝ :=
  ∑ a ∈ Finset.Icc (-5 : ℤ) 4, ∑ b ∈ Finset.Icc (-5 : ℤ) 4, h₁ a b * h₂ (c - a) (d - b)

/-- The two blurs together reach at most 5 pixels up or left and 4 pixels down or right. -/
def FitTogether (h₁ h₂ : ℤ → ℤ → ℝ) : Prop :=
  ∀ c d, ¬ (-5 ≤ c ∧ c ≤ 4 ∧ -5 ≤ d ∧ d ≤ 4) → twoSteps h₁ h₂ c d = 0

end PyBSM.Spec
