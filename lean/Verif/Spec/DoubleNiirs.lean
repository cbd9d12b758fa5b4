import Verif.Spec.Imaging

/-!
# Specification vocabulary: an edge whose shape beyond the edge is clear
-/

noncomputable section

namespace PyBSM.Spec

/-- Whether the responses 1, 1.25, …, 3 pixels from the edge with MTF samples `M 0, …, M 49` rise throughout can be told from values
known up to `η`: each step rises by more than `2 η`, or some step falls by more than `2 η`. -/
def ClearShape (M : ℕ → ℝ) (df ifov η : ℝ) : Prop :=
  (∀ i : ℕ, i < 8 → 2 * η < edge 50 M df ifov (1 + (i + 1 : ℕ) / 4) - edge 50 M df ifov (1 + i / 4))
    ∨ ∃ i : ℕ, i < 8 ∧ edge 50 M df ifov (1 + (i + 1 : ℕ) / 4) - edge 50 M df ifov (1 + i / 4) < -(2 * η)

/-- How far off the responses up to three pixels from an edge may be for MTF samples known up to `ε`, if there are `q` cycles of the
cutoff frequency per pixel. -/
def edgeRounding (ε q : ℝ) : ℝ := 2e-10 * (1 + 3 * q) + 6.3 * ε * q

/-- How far off the samples of the system MTF may be at the slant range `d`, for weights known up to the factor `exp δw` and an
exposure time known up to the factor `exp δt`. -/
def mtfError (d δw δt : ℝ) : ℝ := 1.4e-6 + 0.125 / d ^ 2 + 11 * δt + 7 * δw

end PyBSM.Spec
