import Verif.Spec.Giqe

/-!
# Vocabulary for C108: accuracy of library functions and of inputs
-/

noncomputable section

namespace PyBSM.Spec

/-- A mathematical library whose results have a relative error of at most `10^-15` (four units in the last place). -/
structure Accurate (lgD sinD expD : ℝ → ℝ) (powD : ℝ → ℝ → ℝ) : Prop where
  log : ∀ x, 0 < x → |lgD x - lg x| ≤ 1e-15 * |lg x|
  sin : ∀ x, |sinD x - Real.sin x| ≤ 1e-15 * |Real.sin x|
  exp : ∀ x, |expD x - Real.exp x| ≤ 1e-15 * Real.exp x
  pow : ∀ x p, 0 < x → |powD x p - x ^ p| ≤ 1e-15 * x ^ p
  pow_four : ∀ x, |powD x 4 - x ^ 4| ≤ 1e-15 * x ^ 4

/-- The positive numbers `r` and `x` differ by a factor of at most `e ^ δ` (for small `δ`: by the relative error `δ`). -/
def WithinFactor (δ r x : ℝ) : Prop := 0 < r ∧ 0 < x ∧ |Real.log r - Real.log x| ≤ δ

end PyBSM.Spec
