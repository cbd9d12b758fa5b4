import Verif.Model.Simulation

/-!
# Specification vocabulary: attributes that results depend on
-/

noncomputable section

namespace PyBSM.Spec

/-- Everything about the camera that the radiometry uses agrees: all attributes of the sensor except `name`,
`other_irradiance`, the pitches, the noise and sharpening attributes and those of the blur. -/
structure SameRadiometry (s t : Sensor) : Prop where
  D : s.D = t.D
  f : s.f = t.f
  wX : s.wX = t.wX
  wY : s.wY = t.wY
  optTransWavelengths : s.optTransWavelengths = t.optTransWavelengths
  opticsTransmission : s.opticsTransmission = t.opticsTransmission
  eta : s.eta = t.eta
  darkCurrent : s.darkCurrent = t.darkCurrent
  maxN : s.maxN = t.maxN
  nTdi : s.nTdi = t.nTdi
  qeWavelengths : s.qeWavelengths = t.qeWavelengths
  qe : s.qe = t.qe
  coldShieldTemperature : s.coldShieldTemperature = t.coldShieldTemperature
  opticsTemperature : s.opticsTemperature = t.opticsTemperature
  opticsEmissivity : s.opticsEmissivity = t.opticsEmissivity
  coldFilterTransmission : s.coldFilterTransmission = t.coldFilterTransmission
  coldFilterTemperature : s.coldFilterTemperature = t.coldFilterTemperature
  coldFilterEmissivity : s.coldFilterEmissivity = t.coldFilterEmissivity

/-- Everything that determines the noise of a measurement agrees as well. -/
structure SameDetection (s t : Sensor) : Prop where
  radiometry : SameRadiometry s t
  intTime : s.intTime = t.intTime
  readNoise : s.readNoise = t.readNoise
  maxWellFill : s.maxWellFill = t.maxWellFill
  bitDepth : s.bitDepth = t.bitDepth
  otherNoise : s.otherNoise = t.otherNoise

/-- Everything about the camera that its blur depends on agrees. -/
structure SameBlur (s t : Sensor) : Prop where
  D : s.D = t.D
  f : s.f = t.f
  pX : s.pX = t.pX
  wX : s.wX = t.wX
  wY : s.wY = t.wY
  eta : s.eta = t.eta
  nTdi : s.nTdi = t.nTdi
  sX : s.sX = t.sX
  sY : s.sY = t.sY
  daX : s.daX = t.daX
  daY : s.daY = t.daY
  pv : s.pv = t.pv
  pvWavelength : s.pvWavelength = t.pvWavelength
  lX : s.lX = t.lX
  lY : s.lY = t.lY
  filterKernel : s.filterKernel = t.filterKernel

/-- Everything about the camera that a simulated image depends on agrees. -/
structure SameImaging (s t : Sensor) : Prop where
  radiometry : SameRadiometry s t
  blur : SameBlur s t
  pY : s.pY = t.pY
  intTime : s.intTime = t.intTime
  readNoise : s.readNoise = t.readNoise
  bitDepth : s.bitDepth = t.bitDepth

/-- Everything about the camera that a rating depends on agrees: all attributes except `name` and
`other_irradiance`. -/
structure SameRating (s t : Sensor) : Prop where
  detection : SameDetection s t
  blur : SameBlur s t
  pY : s.pY = t.pY
  frameStacks : s.frameStacks = t.frameStacks

/-- The scenarios agree in what turbulence depends on. -/
structure SameAir (a b : Scenario) : Prop where
  altitude : a.altitude = b.altitude
  aircraftSpeed : a.aircraftSpeed = b.aircraftSpeed
  haWindSpeed : a.haWindSpeed = b.haWindSpeed
  cn2At1m : a.cn2At1m = b.cn2At1m

end PyBSM.Spec
