import Mathlib.Probability.Distributions.Gaussian.Real
import Mathlib.Probability.Distributions.Poisson.Basic

/-!
# Specification vocabulary: blur kernels and their transfer functions

A one-dimensional blur is a measure on the line: how the light of a point source is spread over the
angles.  Its transfer function is the Fourier transform of that measure.  The kernels below are the physical
descriptions of the blurs, not formulas for their transforms.
-/

noncomputable section

open MeasureTheory

namespace PyBSM.Spec

/-- The transfer function of a blur: the amplitude and phase with which a fringe of frequency `u` survives. -/
def transferOf (μ : Measure ℝ) (u : ℝ) : ℂ := ∫ x, Complex.exp (-(2 * Real.pi * u * x * Complex.I)) ∂μ

/-- Light spread evenly over an interval of width `a` around the origin. -/
def box (a : ℝ) : Measure ℝ := (volume.restrict (Set.Icc (-1 / 2 : ℝ) (1 / 2))).map (a * ·)

/-- Light spread by a Gaussian of standard deviation `s`. -/
def gauss (s : ℝ) : Measure ℝ := ProbabilityTheory.gaussianReal 0 (s ^ 2).toNNReal

/-- `n` equal copies of a blur, shifted by `0, p, …, (n - 1) p`. -/
def copies (n : ℕ) (p : ℝ) (μ : Measure ℝ) : Measure ℝ :=
  ∑ k ∈ Finset.range n, (n : ENNReal)⁻¹ • μ.map (· + p * k)

/-- A Poisson number, `c` on average, of shifts by `p` each. -/
def trail (c : NNReal) (p : ℝ) : Measure ℝ := (ProbabilityTheory.poissonMeasure c).map fun k : ℕ => p * (k : ℝ)

/-- A blur moved by `d`. -/
def moved (d : ℝ) (μ : Measure ℝ) : Measure ℝ := μ.map (· + d)

end PyBSM.Spec
