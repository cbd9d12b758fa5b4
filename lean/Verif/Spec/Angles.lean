import Verif.Model.Otf
import Verif.Spec.Sensor

/-!
# Specification of cameras with the same angles (C131)
-/

noncomputable section

namespace PyBSM.Spec

/-- The camera with focal length, detector pitches and detector widths multiplied by `k`. -/
def enlarged (k : ℝ) (s : Sensor) : Sensor :=
  { s with
    f := .fin k * s.f
    pX := .fin k * s.pX, pY := .fin k * s.pY
    wX := .fin k * s.wX, wY := .fin k * s.wY }

/-- The camera with the aperture, the correlation lengths of the wavefront error and the wavelength for which that error
is stated multiplied by `k`. -/
def widened (k : ℝ) (s : Sensor) : Sensor :=
  { s with D := .fin k * s.D, lX := .fin k * s.lX, lY := .fin k * s.lY, pvWavelength := .fin k * s.pvWavelength }

/-- The enlarged camera, for finite attributes. -/
def RealSensor.enlarged (k : ℝ) (s : RealSensor) : RealSensor :=
  { s with f := k * s.f, pX := k * s.pX, pY := k * s.pY, wX := k * s.wX, wY := k * s.wY }

/-- The factor by which a camera with f-number `F` collects more light if it is enlarged. -/
def lightGain (k F : ℝ) : ℝ := k ^ 2 * (1 + 4 * F ^ 2) / (1 + 4 * (k * F) ^ 2)

end PyBSM.Spec
