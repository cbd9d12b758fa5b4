import Mathlib.Analysis.SpecialFunctions.Trigonometric.Arctan
import Mathlib.Analysis.SpecialFunctions.Trigonometric.Inverse

/-!
# Specification of the mathematical library (C117)
-/

noncomputable section

namespace PyBSM.Spec

/-- A mathematical library whose results have a relative error of at most `10^-15` (four units in the last place); the
arc cosine stays below `π`. -/
structure TrigLibrary (sqD acosD sinD tanD atanD : ℝ → ℝ) : Prop where
  sq : ∀ x, |sqD x - x ^ 2| ≤ 1e-15 * x ^ 2
  acos : ∀ x, |x| ≤ 1 → |acosD x - Real.arccos x| ≤ 1e-15 * Real.arccos x
  acos_lt : ∀ x, |x| ≤ 1 → acosD x < Real.pi
  sin : ∀ x, |sinD x - Real.sin x| ≤ 1e-15 * |Real.sin x|
  tan : ∀ x, 0 ≤ x → x < Real.pi / 2 → |tanD x - Real.tan x| ≤ 1e-15 * Real.tan x
  arctan : ∀ x, |atanD x - Real.arctan x| ≤ 1e-15 * |Real.arctan x|

end PyBSM.Spec
