import Verif.Model.Sensor
import Verif.Model.Radiance
import Verif.Model.Metrics

/-!
# Specification of interchangeable settings (C128)
-/

noncomputable section

namespace PyBSM.Spec

/-- The sensor with `k` times the integration time and the number of TDI stages divided by `k`. -/
def traded (k : ℝ) (s : Sensor) : Sensor := { s with intTime := .fin k * s.intTime, nTdi := .fin k⁻¹ * s.nTdi }

/-- The report with `k` times the integration time and every other entry unchanged. -/
def longer (k : ℝ) (m : Metrics) : Metrics := { m with snr := { m.snr with intTime := .fin k * m.snr.intTime } }

/-- Two sensors that differ at most in read noise and other noise, with the same sum of squares. -/
structure SameNoisePower (s t : Sensor) : Prop where
  others : t = { s with readNoise := t.readNoise, otherNoise := t.otherNoise }
  power : t.readNoise ^ 2 + asum (t.otherNoise.map (· ^ 2)) = s.readNoise ^ 2 + asum (s.otherNoise.map (· ^ 2))

/-- The sensor whose wavefront error is given for `k` times the wavelength and divided by `k ^ 2`. -/
def restated (k : ℝ) (s : Sensor) : Sensor := { s with pv := .fin (k ^ 2)⁻¹ * s.pv, pvWavelength := .fin k * s.pvWavelength }

end PyBSM.Spec
