import Verif.Model.Sensor
import Verif.Spec.Radiance

/-!
# Specification: sensors all of whose attributes are ordinary numbers
-/

noncomputable section

open Classical

namespace PyBSM.Spec

/-- The value at `x` of the piecewise linear function through the table; zero off the table. -/
def tableAt (tbl : List (ℝ × ℝ)) (x : ℝ) : ℝ :=
  if h : ∃ y, OnTable tbl x y then h.choose else 0

/-- A sensor with finite attributes; the two spectra are tables of (wavelength, value). -/
structure RealSensor where
  D : ℝ
  f : ℝ
  pX : ℝ
  pY : ℝ
  wX : ℝ
  wY : ℝ
  transmission : List (ℝ × ℝ)
  eta : ℝ
  intTime : ℝ
  darkCurrent : ℝ
  readNoise : ℝ
  maxN : ℝ
  maxWellFill : ℝ
  bitDepth : ℝ
  nTdi : ℝ
  qe : List (ℝ × ℝ)
  coldShieldTemperature : ℝ
  opticsTemperature : ℝ
  opticsEmissivity : ℝ
  coldFilterTransmission : ℝ
  coldFilterTemperature : ℝ
  coldFilterEmissivity : ℝ
  sX : ℝ
  sY : ℝ
  daX : ℝ
  daY : ℝ
  pv : ℝ
  pvWavelength : ℝ
  lX : ℝ
  lY : ℝ
  otherNoise : List ℝ
  filterKernel : Kernel
  frameStacks : ℝ

/-- The `Sensor` object with these attributes. -/
def RealSensor.toSensor (s : RealSensor) : Sensor where
  name := "sensor"
  D := .fin s.D
  f := .fin s.f
  pX := .fin s.pX
  pY := .fin s.pY
  wX := .fin s.wX
  wY := .fin s.wY
  optTransWavelengths := (s.transmission.map (·.1)).map .fin
  opticsTransmission := (s.transmission.map (·.2)).map .fin
  eta := .fin s.eta
  intTime := .fin s.intTime
  darkCurrent := .fin s.darkCurrent
  otherIrradiance := 0
  readNoise := .fin s.readNoise
  maxN := .fin s.maxN
  maxWellFill := .fin s.maxWellFill
  bitDepth := s.bitDepth
  nTdi := .fin s.nTdi
  qeWavelengths := (s.qe.map (·.1)).map .fin
  qe := (s.qe.map (·.2)).map .fin
  coldShieldTemperature := .fin s.coldShieldTemperature
  opticsTemperature := .fin s.opticsTemperature
  opticsEmissivity := .fin s.opticsEmissivity
  coldFilterTransmission := .fin s.coldFilterTransmission
  coldFilterTemperature := .fin s.coldFilterTemperature
  coldFilterEmissivity := .fin s.coldFilterEmissivity
  sX := .fin s.sX
  sY := .fin s.sY
  daX := .fin s.daX
  daY := .fin s.daY
  pv := .fin s.pv
  pvWavelength := .fin s.pvWavelength
  lX := .fin s.lX
  lY := .fin s.lY
  otherNoise := s.otherNoise.map .fin
  filterKernel := s.filterKernel
  frameStacks := .fin s.frameStacks

/-- What the radiometric calculations need: a nonzero aperture, spectra tabulated at increasing
wavelengths, temperatures above absolute zero. -/
structure RealSensor.Usable (s : RealSensor) : Prop where
  aperture : s.D ≠ 0
  transmission_ne : s.transmission ≠ []
  transmission_inc : Increasing s.transmission
  qe_ne : s.qe ≠ []
  qe_inc : Increasing s.qe
  coldShield : 0 < s.coldShieldTemperature
  optics : 0 < s.opticsTemperature
  coldFilter : 0 < s.coldFilterTemperature

/-- Transmission of the optics at wavelength `lam`: cold filter, central obscuration, glass. -/
def RealSensor.transAt (s : RealSensor) (lam : ℝ) : ℝ :=
  s.coldFilterTransmission * (1 - s.eta ^ 2) * tableAt s.transmission lam

/-- Irradiance on the detector from the camera itself: cold shield outside the aperture cone, warm
optics through the cold filter, and the cold filter. -/
def RealSensor.selfAt (s : RealSensor) (lam : ℝ) : ℝ :=
  (Real.pi - apertureFactor s.D s.f) * planck lam s.coldShieldTemperature
  + apertureFactor s.D s.f
      * (s.coldFilterTransmission * s.opticsEmissivity * planck lam s.opticsTemperature)
  + apertureFactor s.D s.f * (s.coldFilterEmissivity * planck lam s.coldFilterTemperature)

/-- Spectral detection rate (photoelectrons / s / m) of scene radiance `l` at wavelength `lam`. -/
def RealSensor.spectral (s : RealSensor) (lam l : ℝ) : ℝ :=
  spectralRate s.D s.f s.wX s.wY lam l (s.transAt lam) (tableAt s.qe lam) (s.selfAt lam)

/-- Photoelectrons per second for the scene radiance `L` sampled at wavelengths `wl`. -/
def RealSensor.rate (s : RealSensor) (n : ℕ) (wl L : ℕ → ℝ) : ℝ :=
  trap n wl (fun i => s.spectral (wl i) (L i)) + s.darkCurrent

end PyBSM.Spec
