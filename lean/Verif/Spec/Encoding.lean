import Verif.Model.Simulation

/-!
# Specification of a re-encoded image (C130)
-/

noncomputable section

namespace PyBSM.Spec

/-- The image with gain `a` and offset `b`. -/
def reencoded (a b : ℝ) (x : Img) : Img := { x with px := fun i j => a * x.px i j + b }

end PyBSM.Spec
