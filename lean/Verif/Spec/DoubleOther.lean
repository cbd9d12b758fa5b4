import Verif.Spec.DoubleMtf

/-!
# Specification of a cosine routine (C141)
-/

noncomputable section

namespace PyBSM.Spec

/-- A cosine routine whose results have a relative error of at most `10^-15` (four units in the last place). -/
def CosineLibrary (cosD : ℝ → ℝ) : Prop := ∀ x, |cosD x - Real.cos x| ≤ 1e-15 * |Real.cos x|

end PyBSM.Spec
