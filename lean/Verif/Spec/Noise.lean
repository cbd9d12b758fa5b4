import Verif.Model.Simulation
import Mathlib.Probability.HasLaw
import Mathlib.Probability.Distributions.Poisson.Basic
import Mathlib.Probability.Distributions.Gaussian.Real

/-!
# Specification: what a random generator has to deliver
-/

noncomputable section

open MeasureTheory ProbabilityTheory

namespace PyBSM.Spec

/-- The draws of the runs `k` of `np.random.poisson` and `np.random.normal` are what their documentation says: the count
at a pixel asked for with mean `m` is Poisson distributed with mean `m`, the other draw is a standard normal one, the two
draws at a pixel are independent, and so are the draws at different pixels or in different runs. -/
structure FairDraws {Ω κ : Type*} [MeasurableSpace Ω] (μ : Measure Ω) (rng : κ → Ω → Rng) : Prop where
  counts : ∀ k i j (m : ℝ), 0 ≤ m → HasLaw (fun ω => (rng k ω).poisson i j m) (poissonMeasure m.toNNReal) μ
  normals : ∀ k i j, HasLaw (fun ω => (rng k ω).normal i j) (gaussianReal 0 1) μ
  within : ∀ k i j (m : ℝ), IndepFun (fun ω => (rng k ω).poisson i j m) (fun ω => (rng k ω).normal i j) μ
  across : ∀ m : κ → ℕ → ℕ → ℝ, iIndepFun (fun (p : κ × ℕ × ℕ) ω =>
    ((rng p.1 ω).poisson p.2.1 p.2.2 (m p.1 p.2.1 p.2.2), (rng p.1 ω).normal p.2.1 p.2.2)) μ

end PyBSM.Spec
