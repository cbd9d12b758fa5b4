import Verif.Spec.Imaging
import Verif.Spec.Simulation

/-!
# Specification vocabulary: thicker and brighter air (C139)
-/

noncomputable section

open Classical

namespace PyBSM.Spec

/-- At one wavelength, the air of the row `a'` passes only the fraction `k` of the scene's light that the air of the row `a`
passes, and itself sends at least as much light to the camera. -/
structure Hazier (k : ℝ) (a a' : Fin 6 → ℝ) : Prop where
  wavelength : a' 0 = a 0
  transmission : a' 1 = k * a 1
  reflected : a' 5 = k * a 5
  path : a 2 + a 4 ≤ a' 2 + a' 4

/-- The contrast between two levels: their difference relative to their sum. -/
def contrastOf (x y : ℝ) : ℝ := (x - y) / (x + y)

end PyBSM.Spec
