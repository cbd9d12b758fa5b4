import Verif.Model.Sensor
import Verif.Model.Scenario
import Verif.Lemmas.Scal
import Verif.Lemmas.Arr
import Verif.Lemmas.Sensor

/-!
# C64: what the constructors store when optional arguments are left out
-/

noncomputable section

open Classical

namespace PyBSM

/-- **C64** (default values). The values of the documented sensor parameters that the caller does not give: an unobscured
aperture, an integration time of one second, no dark current, background irradiance or read noise, a well of 100 million
electrons that may be filled completely, 100 bits, one TDI stage, a cold shield and a cold filter at 70 K, optics at 270 K
that do not emit, a cold filter that transmits everything and does not emit, no jitter, no drift, no wavefront error. -/
theorem C64_default_values (name : String) (D f : XR) {px : ℝ} (hp : px ≠ 0) (wl : List XR) :
    ∃ s, Sensor.new name D f (.fin px) wl = .ok s ∧ s.name = name ∧ s.eta = .fin 0 ∧ s.intTime = .fin 1
      ∧ s.darkCurrent = .fin 0 ∧ s.otherIrradiance = .fin 0 ∧ s.readNoise = .fin 0 ∧ s.maxN = .fin 1e8
      ∧ s.maxWellFill = .fin 1 ∧ s.bitDepth = 100 ∧ s.nTdi = .fin 1 ∧ s.coldShieldTemperature = .fin 70
      ∧ s.opticsTemperature = .fin 270 ∧ s.opticsEmissivity = .fin 0 ∧ s.coldFilterTransmission = .fin 1
      ∧ s.coldFilterTemperature = .fin 70 ∧ s.coldFilterEmissivity = .fin 0 ∧ s.sX = .fin 0 ∧ s.sY = .fin 0
      ∧ s.daX = .fin 0 ∧ s.daY = .fin 0 ∧ s.pv = .fin 0 ∧ s.pvWavelength = .fin 0.633e-6 ∧ s.otherNoise = [.fin 0] := by
  unfold Sensor.new
  obtain ⟨q, hq, -⟩ := Scal.div_fin (a := .py (.fin px)) (b := .py (.fin px)) (x := px) (y := px) rfl rfl hp
  simp only [Option.getD_none, hq, ok_bind]
  refine ⟨_, rfl, ?_⟩
  xr_simp
  norm_num

/-- **C64** (scenarios). A scenario stores the four required arguments, and for the optional ones the documented defaults:
a hovering platform, a target of reflectance 0.15 at 295 K, a background of reflectance 0.07 at 293 K, a high-altitude wind
of 21 m/s, `1.7e-14` for the turbulence at one metre, no interpolation. It starts without a loaded atmosphere. -/
theorem C64_scenario_defaults (name : String) (ihaze : ℤ) (altitude groundRange : XR) :
    let s := Scenario.new name ihaze altitude groundRange
    s.name = name ∧ s.ihaze = ihaze ∧ s.altitude = altitude ∧ s.groundRange = groundRange ∧ s.aircraftSpeed = .fin 0
      ∧ s.targetReflectance = .fin 0.15 ∧ s.targetTemperature = .fin 295 ∧ s.backgroundReflectance = .fin 0.07
      ∧ s.backgroundTemperature = .fin 293 ∧ s.haWindSpeed = .fin 21 ∧ s.cn2At1m = .fin 1.7e-14 ∧ s.interp = false
      ∧ s.atmCache = none := by
  simp only [Scenario.new]
  xr_simp
  norm_num

/-- **C64** (scenarios, explicit arguments). Arguments given are stored unchanged. -/
theorem C64_scenario_explicit (name : String) (ihaze : ℤ) (altitude groundRange speed tr tt br bt wind cn2 : XR) (i : Bool) :
    let s := Scenario.new name ihaze altitude groundRange speed tr tt br bt wind cn2 i
    s.name = name ∧ s.ihaze = ihaze ∧ s.altitude = altitude ∧ s.groundRange = groundRange ∧ s.aircraftSpeed = speed
      ∧ s.targetReflectance = tr ∧ s.targetTemperature = tt ∧ s.backgroundReflectance = br
      ∧ s.backgroundTemperature = bt ∧ s.haWindSpeed = wind ∧ s.cn2At1m = cn2 ∧ s.interp = i ∧ s.atmCache = none := by
  simp only [Scenario.new, and_self]

end PyBSM
