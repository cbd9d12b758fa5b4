import Verif.Spec.Numeric

/-!
# Specification vocabulary: edge response
-/

noncomputable section

namespace PyBSM.Spec

/-- The response to a step edge at distance `x` pixels from it, for the MTF samples `m 0, …, m (n-1)` at the
frequencies `df * i` (moved off zero by `1e-6`): one half plus the sine transform of MTF over frequency,
divided by pi, evaluated by the trapezoid rule. -/
def edge (n : ℕ) (m : ℕ → ℝ) (df ifov x : ℝ) : ℝ :=
  let w : ℕ → ℝ := fun i => df * i + 1e-6
  1 / 2 + trap n w (fun i => m i * Real.sin (2 * Real.pi * w i * (ifov * x)) / w i) / Real.pi

end PyBSM.Spec
