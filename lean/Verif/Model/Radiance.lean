import Verif.Model.Utils
import Verif.Model.Sensor

/-!
# Model of `src/pybsm/radiance/functional.py`

Spectra are 1-D arrays (`List XR`).  The "input array is empty" warnings are not modelled.
-/

noncomputable section

open Classical

namespace PyBSM

/-- `hc`, Planck's constant, `radiance/functional.py`:51. -/
def hC : ℝ := 6.62607004e-34
/-- `cc`, speed of light, `radiance/functional.py`:52. -/
def cC : ℝ := 299792458.0
/-- `kc`, Boltzmann's constant, `radiance/functional.py`:53. -/
def kC : ℝ := 1.38064852e-23
/-- `qc`, charge of an electron, `radiance/functional.py`:54, `otf/functional.py`:103. -/
def qC : ℝ := 1.60217662e-19

/-- `at_focal_plane_irradiance`, `radiance/functional.py`:57-95 (line 93).  `f / D` divides two
scalars. -/
def atFocalPlaneIrradiance (D f : Scal) (L : List XR) : Except PyErr (List XR) := do
  let q ← f.div D
  .ok (L.map fun l => l * .fin Real.pi / (1 + 4 * q.val ^ 2))

/-- `blackbody_radiance` at one wavelength, `radiance/functional.py`:98-122 (lines 118-120);
`(...) ** (-1.0)` is the reciprocal. -/
def blackbody (lam T : XR) : XR :=
  (2 * .fin hC * (.fin cC) ^ 2 / lam ^ 5)
    * (1 / (XR.exp (.fin hC * .fin cC / (lam * .fin kC * T)) - 1))

/-- `blackbody_radiance` on an array of wavelengths. (`radiance/functional.py`:98-122) -/
def blackbodyRadiance (lams : List XR) (T : XR) : List XR := lams.map (blackbody · T)

/-- `check_well_fill`, `radiance/functional.py`:125-144. -/
def checkWellFill (total maxFill : Scal) : Except PyErr Scal :=
  if XR.lt maxFill.val total.val then maxFill.div total else .ok (.py 1)

/-- `cold_shield_self_emission`, `radiance/functional.py`:147-186 (lines 182-184). -/
def coldShieldSelfEmission (lams : List XR) (T : XR) (D f : Scal) : Except PyErr (List XR) := do
  let q ← f.div D
  .ok ((blackbodyRadiance lams T).map fun b =>
    (.fin Real.pi - .fin Real.pi / (4 * q.val ^ 2 + 1)) * b)

/-- `cold_stop_self_emission`, `radiance/functional.py`:189-228. -/
def coldStopSelfEmission (lams : List XR) (T emissivity : XR) (D f : Scal) :
    Except PyErr (List XR) :=
  atFocalPlaneIrradiance D f ((blackbodyRadiance lams T).map fun b => emissivity * b)

/-- `focal_plane_integrated_irradiance`, `radiance/functional.py`:231-282, for arrays `L` and
`lambda0`. -/
def focalPlaneIntegratedIrradiance (L : List XR) (Ls tOpt eOpt : XR) (lambda0 : List XR)
    (dLambda opticsTemperature : XR) (D f : Scal) : Except PyErr (List XR) := do
  let L' ← bc2 (· + ·) (L.map (tOpt * ·))
    ((blackbodyRadiance lambda0 opticsTemperature).map fun b => eOpt * b * dLambda)
  atFocalPlaneIrradiance D f (L'.map (· + Ls))

/-- `optics_self_emission`, `radiance/functional.py`:285-331. -/
def opticsSelfEmission (lams : List XR) (T emissivity coldFilterTransmission : XR) (D f : Scal) :
    Except PyErr (List XR) :=
  atFocalPlaneIrradiance D f
    ((blackbodyRadiance lams T).map fun b => coldFilterTransmission * emissivity * b)

/-- `photon_detection_rate`, `radiance/functional.py`:334-373 (line 372). -/
def photonDetectionRate (E : List XR) (wX wY : XR) (wavelengths qe : List XR) :
    Except PyErr (List XR) := do
  let a ← bc2 (· * ·) (wavelengths.map (· / (.fin hC * .fin cC))) qe
  bc2 (· * ·) (a.map (fun x => x * wX * wY)) E

/-- `resample_by_wavelength`, `radiance/functional.py`:836-859. -/
def resampleByWavelength (wavelengths values newWavelengths : List XR) :
    Except PyErr (List XR) :=
  npInterp newWavelengths wavelengths values 0 0

/-- `signal_rate`, `radiance/functional.py`:656-740: `(tgt_rate, tgt_FPA_irradiance, tgt_dN)`. -/
def signalRate (wavelengths targetRadiance opticalTransmission : List XR) (D f : Scal)
    (wX wY : XR) (qe otherIrradiance : List XR) (darkCurrent : XR) :
    Except PyErr (XR × List XR × List XR) := do
  let e ← atFocalPlaneIrradiance D f targetRadiance
  let te ← bc2 (· * ·) opticalTransmission e
  let irr ← bc2 (· + ·) te otherIrradiance
  let dN ← photonDetectionRate irr wX wY wavelengths qe
  let t ← trapz dN wavelengths
  .ok (t + darkCurrent, irr, dN)

/-- `total_radiance`, `radiance/functional.py`:743-777, `db_reflectance = 0.15`.  Python scalar
`reflectance / 0.15` cannot divide by zero. -/
def totalRadiance (atm : Atm) (reflectance temperature : XR) : List XR :=
  atm.map fun r =>
    r 2 + (1 - reflectance) * blackbody (r 0) temperature * r 1 + r 4
      + r 5 * (reflectance / 0.15)

/-- `giqe_radiance`, `radiance/functional.py`:780-833: `(target, background)`. -/
def giqeRadiance (atm : Atm) (isEmissive : Bool) : List XR × List XR :=
  if isEmissive then (totalRadiance atm 0 282, totalRadiance atm 0 280)
  else (totalRadiance atm 0.15 282, totalRadiance atm 0.07 280)

/-- The attributes of an `SNRMetrics` object that `photon_detector_SNR` and `niirs` fill in,
`radiance/snr_metrics.py`:20-49. -/
structure SNRMetrics where
  optTrans : List XR
  qe : List XR
  otherIrradiance : List XR
  tgtNRate : XR
  tgtFPAIrradiance : List XR
  weights : List XR
  tgtN : XR
  bkgNRate : XR
  bkgFPAIrradiance : List XR
  bkgN : XR
  intTime : XR
  wellFraction : XR
  contrastSignal : XR
  signalNoise : XR
  darkCurrentNoise : XR
  quantizationNoise : XR
  selfEmissionNoise : XR
  totalNoise : XR
  snr : XR

/-- The optics transmission as resampled at lines 410-418 and 591-599 of `radiance/functional.py`:
`cold_filter_transmission * (1.0 - eta**2) * resample_by_wavelength(...)`. -/
def systemTransmission (s : Sensor) (wavelengths : List XR) : Except PyErr (List XR) := do
  let t ← resampleByWavelength s.optTransWavelengths s.opticsTransmission wavelengths
  .ok (t.map fun x => s.coldFilterTransmission * (1 - s.eta ^ 2) * x)

/-- The self-emission irradiance summed at lines 425-447 and 606-623 of `radiance/functional.py`. -/
def selfEmission (s : Sensor) (wavelengths : List XR) : Except PyErr (List XR) := do
  let a ← coldShieldSelfEmission wavelengths s.coldShieldTemperature (.py s.D) (.py s.f)
  let b ← opticsSelfEmission wavelengths s.opticsTemperature s.opticsEmissivity
    s.coldFilterTransmission (.py s.D) (.py s.f)
  let c ← coldStopSelfEmission wavelengths s.coldFilterTemperature s.coldFilterEmissivity
    (.py s.D) (.py s.f)
  let ab ← bc2 (· + ·) a b
  bc2 (· + ·) ab c

/-- `photon_detector_SNR`, `radiance/functional.py`:376-532. -/
def photonDetectorSNR (s : Sensor) (wl tgt bkg : List XR) : Except PyErr SNRMetrics := do
  let optTrans ← systemTransmission s wl
  let qe ← resampleByWavelength s.qeWavelengths s.qe wl
  let other ← selfEmission s wl
  let (tgtRate, tgtIrr, weights) ←
    signalRate wl tgt optTrans (.py s.D) (.py s.f) s.wX s.wY qe other s.darkCurrent
  let tgtN := tgtRate * s.intTime * s.nTdi
  let (bkgRate, bkgIrr, _) ←
    signalRate wl bkg optTrans (.py s.D) (.py s.f) s.wX s.wY qe other s.darkCurrent
  let bkgN := bkgRate * s.intTime * s.nTdi
  let sc ← checkWellFill (.np (XR.max tgtN bkgN)) (.py (s.maxWellFill * s.maxN))
  let tgtN := sc.val * tgtN
  let bkgN := sc.val * bkgN
  let intTime := sc.val * s.intTime
  let wellFraction := XR.max tgtN bkgN / s.maxN
  let contrast := tgtN - bkgN
  let signalNoise := XR.sqrt (XR.max tgtN bkgN)
  let darkNoise := XR.sqrt (s.nTdi * s.darkCurrent * intTime)
  let quant := quantizationNoise s.maxN s.bitDepth
  let selfRate ← photonDetectionRate other s.wX s.wY wl qe
  let selfN ← trapz selfRate wl
  let selfNoise := XR.sqrt (selfN * intTime * s.nTdi)
  let totalNoise := XR.sqrt (signalNoise ^ 2 + quant ^ 2 + s.readNoise ^ 2
    + asum (s.otherNoise.map (· ^ 2)))
  .ok {
    optTrans := optTrans, qe := qe, otherIrradiance := other
    tgtNRate := tgtRate, tgtFPAIrradiance := tgtIrr, weights := weights, tgtN := tgtN
    bkgNRate := bkgRate, bkgFPAIrradiance := bkgIrr, bkgN := bkgN
    intTime := intTime, wellFraction := wellFraction, contrastSignal := contrast
    signalNoise := signalNoise, darkCurrentNoise := darkNoise, quantizationNoise := quant
    selfEmissionNoise := selfNoise, totalNoise := totalNoise, snr := contrast / totalNoise }

/-- `atm[atm[:, 0] >= lo, :]` then `atm[atm[:, 0] <= hi, :]` with the first and last entry of the
sensor's band (`IndexError` for an empty band), `radiance/functional.py`:580-581,
`metrics/functional.py`:307-308, 468-469. -/
def bandCrop (s : Sensor) (atm : Atm) : Except PyErr Atm :=
  match s.optTransWavelengths.head?, s.optTransWavelengths.getLast? with
  | some lo, some hi =>
    .ok ((atm.filter (fun r => XR.le lo (r 0))).filter (fun r => XR.le (r 0) hi))
  | _, _ => .error .indexError

/-- Python's built-in `max` on a sequence: keeps the first element that no later one exceeds;
`ValueError` on an empty sequence. (used at `radiance/functional.py`:651) -/
def pyMax : List XR → Except PyErr XR
  | [] => .error .valueError
  | x :: xs => .ok (xs.foldl (fun m y => if XR.lt m y then y else m) x)

/-- `reflectance_to_photoelectrons`, `radiance/functional.py`:535-653: `(ref, pe, wavelengths,
weights / max(weights))`.  `targetTemp` is accepted and, as in the code (587), not used. -/
def reflectanceToPhotoelectrons (atm : Atm) (s : Sensor) (intTime : XR)
    (_targetTemp : XR := 300) :
    Except PyErr (List XR × List XR × List XR × List XR) := do
  let ref := linspace 0 1 100
  let atm ← bandCrop s atm
  let wl := atm.map (· 0)
  let rows ← ref.mapM fun r => do
    let optTrans ← systemTransmission s wl
    let qe ← resampleByWavelength s.qeWavelengths s.qe wl
    let other ← selfEmission s wl
    let (rate, _, dN) ← signalRate wl (totalRadiance atm r 300) optTrans (.py s.D) (.py s.f)
      s.wX s.wY qe other s.darkCurrent
    Except.ok (ε := PyErr) (rate * intTime * s.nTdi, dN)
  let pe := rows.map (·.1)
  let peMax ← amax pe
  let sat := peMax / s.maxN
  let pe := if XR.lt 1 sat then pe.map (· / sat) else pe
  let pe := pe.map fun p => if XR.lt s.maxN p then s.maxN else p
  let weights := (rows.map (·.2)).getLastD []
  let wMax ← pyMax weights
  .ok (ref, pe, wl, weights.map (· / wMax))

end PyBSM
