import Verif.Spec.Numeric
import Verif.Spec.Geometry
import Verif.Spec.System

/-!
# Specification vocabulary: atmospheric turbulence, over the reals
-/

noncomputable section

open Classical

namespace PyBSM.Spec

/-- The Hufnagel-Valley profile: refractive index structure parameter at height `h`. -/
def hv (wind cn2 h : ℝ) : ℝ :=
  5.94e-53 * (wind / 27) ^ 2 * h ^ 10 * Real.exp (-h / 1000)
    + 2.7e-16 * Real.exp (-h / 1500) + cn2 * Real.exp (-h / 100)

/-- Height above the Earth of the point a fraction `t` of the way from the target to the sensor. -/
def pathHeight (hs g t : ℝ) : ℝ := heightOf (between (pointAt 0 g) (pointAt hs 0) t)

/-- The path integral of spherical-wave turbulence from the target to the sensor: the profile weighted by the
5/3 power of the fraction of the path, trapezoid rule on 10000 equally spaced points. -/
def turbPath (hs g wind cn2 : ℝ) : ℝ :=
  let d := pdist (pointAt 0 g) (pointAt hs 0)
  trap 10000 (fun k => (k : ℝ) / 9999 * d)
    fun k => hv wind cn2 (pathHeight hs g ((k : ℝ) / 9999)) * ((k : ℝ) / 9999) ^ ((5 : ℝ) / 3)

/-- Fried's coherence diameter at wavelength `lam`. -/
def fried (hs g wind cn2 lam : ℝ) : ℝ :=
  (0.423 * (2 * Real.pi / lam) ^ 2 * turbPath hs g wind cn2) ^ (-(3 : ℝ) / 5)

/-- The mixture of short and long exposure turbulence at one frequency: the share of short exposure decays with
the distance `w * t` the wind moves during the exposure, in units of the coherence diameter `r`. -/
def turbMix (lam D r t w u v : ℝ) : ℝ :=
  let x := (lam * Real.sqrt (u ^ 2 + v ^ 2) / r) ^ ((5 : ℝ) / 3)
  let y := (lam * Real.sqrt (u ^ 2 + v ^ 2) / D) ^ ((1 : ℝ) / 3)
  Real.exp (-(w * t / r)) * Real.exp (-(3.44 * x * (1 - 0.5 * y)))
    + (1 - Real.exp (-(w * t / r))) * Real.exp (-(3.44 * x))

/-- Turbulence of the scene, averaged over the band; none if `cn2` is not positive. -/
def turbulenceAt (s : RealSensor) (g : RealScene) (pairs : List (ℝ × ℝ)) (t u v : ℝ) : ℝ :=
  if 0 < g.cn2 then
    wmean pairs fun l => turbMix l s.D (fried g.altitude g.groundRange g.windSpeed g.cn2 l) (t * s.nTdi)
      g.aircraftSpeed u v
  else 1

/-- The optical part of the system OTF: everything except the sharpening kernel. -/
def opticsAt (s : RealSensor) (g : RealScene) (pairs : List (ℝ × ℝ)) (t u v : ℝ) : ℝ :=
  apertureAt s pairs u v * turbulenceAt s g pairs t u v * detectorAt s u v * jitterAt s u v * driftAt s t u v
    * wavefrontAt s pairs u v

end PyBSM.Spec
