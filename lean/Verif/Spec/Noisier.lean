import Verif.Spec.Compare

/-!
# Specification vocabulary: the ratings that `niirs` reports
-/

noncomputable section

open Classical

namespace PyBSM.Spec

/-- The report gives the GIQE 3 rating `x` and the GIQE 4 rating `y`. -/
def Rated (m : Metrics) (x y : ℝ) : Prop :=
  m.niirs = .fin x ∧ ∃ gsdY gsd rer eho ng gp : XR, m.giqe34 = some (gsdY, gsd, rer, eho, ng, .fin y, gp)

/-- A step edge is imaged as an edge along both axes: the relative edge responses are positive and the overshoots are
not negative. -/
def RealSensor.Edges (s : RealSensor) (g : RealScene) (B : List (Fin 6 → ℝ)) (diag : ℕ → ℕ → Bool) : Prop :=
  ∀ (c : ℝ) (F : ℝ → ℝ → ℝ), s.Cutoff B c → s.Sharpening diag F →
    0 < rerOf (alongU (s.mtf g B F) (c / 50)) (c / 50) (s.pX / s.f)
    ∧ 0 < rerOf (alongV (s.mtf g B F) (c / 50)) (c / 50) (s.pY / s.f)
    ∧ (∀ e, IsOvershoot (alongU (s.mtf g B F) (c / 50)) (c / 50) (s.pX / s.f) e → 0 ≤ e)
    ∧ ∀ e, IsOvershoot (alongV (s.mtf g B F) (c / 50)) (c / 50) (s.pY / s.f) e → 0 ≤ e

/-- The background is seen brighter than the target, in at least part of a frame, from above the ground. -/
structure DarkTarget (s : RealSensor) (g : RealScene) (B : List (Fin 6 → ℝ)) : Prop where
  altitude : 0 < g.altitude
  frames : 0 < s.frameStacks
  cut : 0 < s.cut B
  darker : s.electrons B s.targetAt < s.electrons B s.backgroundAt

end PyBSM.Spec
