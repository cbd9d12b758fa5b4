import Verif.Spec.Compare

/-!
# Specification vocabulary: cameras with less sensitive or with warmer detectors
-/

noncomputable section

open Classical

namespace PyBSM.Spec

/-- The camera with the quantum efficiency of its detectors reduced to the fraction `k` at every wavelength. -/
def RealSensor.dimmed (s : RealSensor) (k : ℝ) : RealSensor := { s with qe := s.qe.map fun p => (p.1, k * p.2) }

/-- The camera with the dark current `d`. -/
def RealSensor.dark (s : RealSensor) (d : ℝ) : RealSensor := { s with darkCurrent := d }

end PyBSM.Spec
