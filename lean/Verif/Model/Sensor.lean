import Verif.Model.Noise

/-!
# Model of `src/pybsm/simulation/sensor.py`
-/

noncomputable section

open Classical

namespace PyBSM

/-- The attributes of a `Sensor` object, `sensor.py`:120-232.  `bitDepth` and the kernel entries are
finite reals; scalar attributes are Python floats. -/
structure Sensor where
  name : String
  D : XR
  f : XR
  pX : XR
  pY : XR
  wX : XR
  wY : XR
  optTransWavelengths : List XR
  opticsTransmission : List XR
  eta : XR
  intTime : XR
  darkCurrent : XR
  otherIrradiance : XR
  readNoise : XR
  maxN : XR
  maxWellFill : XR
  bitDepth : ℝ
  nTdi : XR
  qeWavelengths : List XR
  qe : List XR
  coldShieldTemperature : XR
  opticsTemperature : XR
  opticsEmissivity : XR
  coldFilterTransmission : XR
  coldFilterTemperature : XR
  coldFilterEmissivity : XR
  sX : XR
  sY : XR
  daX : XR
  daY : XR
  pv : XR
  pvWavelength : XR
  lX : XR
  lY : XR
  otherNoise : List XR
  filterKernel : Kernel
  frameStacks : XR

/-- `Sensor.__init__` with its default arguments, `sensor.py`:132-232.  `p_x / self.w_x` (194) is a
division of Python floats and raises `ZeroDivisionError` when the detector width is zero. -/
def Sensor.new (name : String) (D f pX : XR) (optTransWavelengths : List XR)
    (eta : XR := 0) (pY wX wY : Option XR := none) (intTime : XR := 1) (darkCurrent : XR := 0)
    (otherIrradiance : XR := 0) (readNoise : XR := 0) (maxN : XR := 100000000)
    (maxWellFill : XR := 1) (bitDepth : ℝ := 100) (nTdi : XR := 1)
    (coldShieldTemperature : XR := 70) (opticsTemperature : XR := 270) (opticsEmissivity : XR := 0)
    (coldFilterTransmission : XR := 1) (coldFilterTemperature : XR := 70)
    (coldFilterEmissivity : XR := 0) (sX sY daX daY pv : XR := 0)
    (pvWavelength : XR := 0.633e-6) : Except PyErr Sensor := do
  let pY' := pY.getD pX
  let wX' := wX.getD pX
  let wY' ← match wY with
    | some w => .ok w
    | none => do
      let q ← Scal.div (.py pX) (.py wX')
      .ok (q.val * pY')
  .ok {
    name := name, D := D, f := f, pX := pX, pY := pY', wX := wX', wY := wY'
    optTransWavelengths := optTransWavelengths
    opticsTransmission := List.replicate optTransWavelengths.length 1
    eta := eta, intTime := intTime, darkCurrent := darkCurrent
    otherIrradiance := otherIrradiance, readNoise := readNoise, maxN := maxN
    maxWellFill := maxWellFill, bitDepth := bitDepth, nTdi := nTdi
    qeWavelengths := optTransWavelengths
    qe := List.replicate optTransWavelengths.length 1
    coldShieldTemperature := coldShieldTemperature, opticsTemperature := opticsTemperature
    opticsEmissivity := opticsEmissivity, coldFilterTransmission := coldFilterTransmission
    coldFilterTemperature := coldFilterTemperature, coldFilterEmissivity := coldFilterEmissivity
    sX := sX, sY := sY, daX := daX, daY := daY, pv := pv, pvWavelength := pvWavelength
    lX := D, lY := D, otherNoise := [0], filterKernel := [[1]], frameStacks := 1 }

end PyBSM
