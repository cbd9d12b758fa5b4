import Verif.Spec.Compare

/-!
# Specification vocabulary: cameras whose blur only lowers the MTF
-/

noncomputable section

open Classical

namespace PyBSM.Spec

/-- The detectors sample the cutoff frequency at least twice per cycle in both directions. -/
def RealSensor.Nyquist (s : RealSensor) (B : List (Fin 6 → ℝ)) : Prop :=
  ∀ c, s.Cutoff B c → 2 * (s.pX / s.f) * (c + 1e-6) ≤ 1 ∧ 2 * (s.pY / s.f) * (c + 1e-6) ≤ 1

/-- The wavefront error is not negative, the platform does not move backwards during the exposure, and no wavelength of the band
is more than eight times another. -/
structure Passive (s : RealSensor) (g : RealScene) (B : List (Fin 6 → ℝ)) : Prop where
  wavefront : 0 ≤ s.pv
  motion : 0 ≤ g.aircraftSpeed * (s.exposure B * s.nTdi)
  band : ∀ a ∈ s.band B, ∀ b ∈ s.band B, a.1 ≤ 8 * b.1

end PyBSM.Spec
