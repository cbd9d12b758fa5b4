import Verif.Spec.Sensor

/-!
# Specification: cameras and scenes in thermal equilibrium (C102)
-/

noncomputable section

namespace PyBSM.Spec

/-- Everything in the camera that emits has the temperature `T`. -/
structure RealSensor.AtTemperature (s : RealSensor) (T : ℝ) : Prop where
  shield : s.coldShieldTemperature = T
  optics : s.opticsTemperature = T
  filter : s.coldFilterTemperature = T

/-- Nothing in the camera is hotter than `T`. -/
structure RealSensor.NotAbove (s : RealSensor) (T : ℝ) : Prop where
  shield : s.coldShieldTemperature ≤ T
  optics : s.opticsTemperature ≤ T
  filter : s.coldFilterTemperature ≤ T

/-- The fraction of the light that the camera would receive from an enclosure through its aperture and that is accounted
for: scene light that passes, emission of the optics that passes the cold filter, emission of the cold filter. -/
def RealSensor.accounted (s : RealSensor) (lam : ℝ) : ℝ :=
  s.coldFilterEmissivity + s.coldFilterTransmission * (s.opticsEmissivity + (1 - s.eta ^ 2) * tableAt s.transmission lam)

/-- Kirchhoff's law for the camera, without central obscuration: at each wavelength the optics emit what they do not
transmit, and so does the cold filter. -/
structure RealSensor.Kirchhoff (s : RealSensor) (n : ℕ) (wl : ℕ → ℝ) : Prop where
  unobscured : s.eta = 0
  optics : ∀ i < n, s.opticsEmissivity = 1 - tableAt s.transmission (wl i)
  filter : s.coldFilterEmissivity = 1 - s.coldFilterTransmission

/-- A camera that does not emit more than it absorbs, and whose transmissions and emissivities are not negative. -/
structure RealSensor.Passive (s : RealSensor) (n : ℕ) (wl : ℕ → ℝ) : Prop where
  optics : 0 ≤ s.opticsEmissivity
  filter : 0 ≤ s.coldFilterEmissivity
  transmission : 0 ≤ s.coldFilterTransmission
  obscuration : s.eta ^ 2 ≤ 1
  glass : ∀ i < n, 0 ≤ tableAt s.transmission (wl i)
  absorbs : ∀ i < n, s.accounted (wl i) ≤ 1

end PyBSM.Spec
