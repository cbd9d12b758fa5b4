import Verif.Spec.Sensor

/-!
# Specification: the camera turned by a quarter (C107)
-/

noncomputable section

namespace PyBSM.Spec

/-- The same camera with its two axes exchanged, and the sharpening kernel `k`. -/
def RealSensor.turned (s : RealSensor) (k : Kernel) : RealSensor :=
  { s with
    pX := s.pY, pY := s.pX, wX := s.wY, wY := s.wX, sX := s.sY, sY := s.sX, daX := s.daY, daY := s.daX
    lX := s.lY, lY := s.lX, filterKernel := k }

end PyBSM.Spec
