import Mathlib.Probability.Distributions.Gaussian.Real

/-!
# Specification vocabulary: random phases and charge collection
-/

noncomputable section

open MeasureTheory

namespace PyBSM.Spec

/-- The average of `exp (i phase)` over a normally distributed phase of mean 0 and variance `V`: the contrast left by
a random phase difference. -/
def meanPhasor (V : ℝ) : ℂ := ∫ x, Complex.exp (x * Complex.I) ∂ProbabilityTheory.gaussianReal 0 V.toNNReal

/-- The share of the light that is collected as charge in a detector with absorption coefficient `a`, depletion
width `d` and diffusion length `L`: light is absorbed at depth `x` with density `a exp(-a x)`; charge from within the
depletion region is always collected, charge from below with probability `exp(-(x - d)/L)`. -/
def collected (a d L : ℝ) : ℝ :=
  ∫ x in Set.Ioi (0 : ℝ), a * Real.exp (-(a * x)) * (if x ≤ d then 1 else Real.exp (-((x - d) / L)))

end PyBSM.Spec
