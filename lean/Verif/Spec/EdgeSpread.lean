import Mathlib.MeasureTheory.Integral.Bochner.Set
import Mathlib.Analysis.SpecialFunctions.Trigonometric.Basic
import Mathlib.MeasureTheory.Measure.Haar.OfBasis

/-!
# Specification vocabulary: the image of a step edge
-/

noncomputable section

open MeasureTheory

namespace PyBSM.Spec

/-- A line spread function: how the light of a bright line is spread over the angles on both sides of it. -/
structure LineSpread (L : ℝ → ℝ) : Prop where
  continuous : Continuous L
  nonneg : ∀ x, 0 ≤ L x
  even : ∀ x, L (-x) = L x
  integrable : Integrable L
  total : ∫ x, L x = 1

/-- Its MTF: the contrast with which a fringe of frequency `u` survives. -/
def contrast (L : ℝ → ℝ) (u : ℝ) : ℝ := ∫ x, L x * Real.cos (2 * Real.pi * u * x)

/-- The image of a step edge, dark on one side and of brightness 1 on the other, at the angle `x` from the edge: the
bright half plane is made of lines, each spread by `L`. -/
def blurredEdge (L : ℝ → ℝ) (x : ℝ) : ℝ := ∫ t in Set.Iic x, L t

end PyBSM.Spec
