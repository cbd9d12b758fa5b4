import Verif.Spec.DoubleMtf

/-!
# Specification of the tenth power of the mathematical library (C119)
-/

noncomputable section

namespace PyBSM.Spec

/-- `h**10.0` of the mathematical library has a relative error of at most `10^-15`, also for negative heights. -/
def TenthPower (L : MathLib) : Prop := ∀ x, |L.pow x 10 - x ^ 10| ≤ 1e-15 * x ^ 10

end PyBSM.Spec
