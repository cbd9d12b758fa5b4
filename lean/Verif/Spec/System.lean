import Verif.Spec.Sensor
import Verif.Spec.Geometry
import Verif.Spec.Pupil
import Verif.Spec.Weighted
import Verif.Model.Scenario
import Mathlib.Analysis.SpecialFunctions.Trigonometric.Sinc

/-!
# Specification vocabulary: the components of the system OTF, over the reals
-/

noncomputable section

namespace PyBSM.Spec

/-- What the optical calculations need: an open aperture, a focal length, correlation lengths. -/
structure RealSensor.Optical (s : RealSensor) : Prop where
  aperture : 0 < s.D
  focal : s.f ≠ 0
  obscuration : 0 ≤ s.eta
  open_ : s.eta < 1
  corrX : s.lX ≠ 0
  corrY : s.lY ≠ 0

/-- The finite geometry and weather of a scenario. -/
structure RealScene where
  altitude : ℝ
  groundRange : ℝ
  aircraftSpeed : ℝ
  windSpeed : ℝ
  cn2 : ℝ

/-- The `Scenario` object has these attributes. -/
structure RealScene.Of (g : RealScene) (sc : Scenario) : Prop where
  altitude : sc.altitude = .fin g.altitude
  groundRange : sc.groundRange = .fin g.groundRange
  aircraftSpeed : sc.aircraftSpeed = .fin g.aircraftSpeed
  windSpeed : sc.haWindSpeed = .fin g.windSpeed
  cn2 : sc.cn2At1m = .fin g.cn2

/-- The `Scenario` object has these attributes, except perhaps the ground range. -/
structure RealScene.Sky (g : RealScene) (sc : Scenario) : Prop where
  altitude : sc.altitude = .fin g.altitude
  aircraftSpeed : sc.aircraftSpeed = .fin g.aircraftSpeed
  windSpeed : sc.haWindSpeed = .fin g.windSpeed
  cn2 : sc.cn2At1m = .fin g.cn2

/-- The straight-line distance from the sensor to the target. -/
def RealScene.slant (g : RealScene) : ℝ := pdist (pointAt g.altitude 0) (pointAt 0 g.groundRange)

/-- The sensor is above the centre of the Earth and not at the target. -/
structure RealScene.Viewing (g : RealScene) : Prop where
  above : 0 < R + g.altitude
  away : pdist (pointAt g.altitude 0) (pointAt 0 g.groundRange) ≠ 0

/-- A band: distinct positive wavelengths with nonnegative weights, not all zero. -/
structure Band (pairs : List (ℝ × ℝ)) : Prop where
  distinct : (pairs.map (·.1)).Nodup
  positive : ∀ p ∈ pairs, 0 < p.1
  weights : ∀ p ∈ pairs, 0 ≤ p.2
  total : 0 < (pairs.map (·.2)).sum

/-- Diffraction, averaged over the band. -/
def apertureAt (s : RealSensor) (pairs : List (ℝ × ℝ)) (u v : ℝ) : ℝ :=
  wmean pairs fun l => diffractionMTF l s.D s.eta u v

/-- Blur by the finite detector. -/
def detectorAt (s : RealSensor) (u v : ℝ) : ℝ :=
  Real.sinc (Real.pi * (s.wX * u / s.f)) * Real.sinc (Real.pi * (s.wY * v / s.f))

/-- Blur by random line-of-sight motion. -/
def jitterAt (s : RealSensor) (u v : ℝ) : ℝ :=
  Real.exp (-(2 * Real.pi ^ 2 * ((s.sX * u) ^ 2 + (s.sY * v) ^ 2)))

/-- Blur by constant line-of-sight motion during the exposure. -/
def driftAt (s : RealSensor) (t u v : ℝ) : ℝ :=
  Real.sinc (Real.pi * (s.daX * t * s.nTdi * u)) * Real.sinc (Real.pi * (s.daY * t * s.nTdi * v))

/-- Wavefront errors, specified at one wavelength, scaled to each and averaged over the band. -/
def wavefrontAt (s : RealSensor) (pairs : List (ℝ × ℝ)) (u v : ℝ) : ℝ :=
  wmean pairs fun l => Real.exp (-(s.pv * (s.pvWavelength / l) ^ 2
    * (1 - Real.exp (-(l ^ 2 * ((u / s.lX) ^ 2 + (v / s.lY) ^ 2))))))

end PyBSM.Spec
