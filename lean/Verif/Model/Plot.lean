import Verif.Model.Simulation

/-!
# Model of the data drawn by the plotting functions

`plot_common_MTFs` and `plot_noise_terms` of `src/pybsm/metrics/functional.py` and `RefImage.show` of
`src/pybsm/simulation/ref_image.py`. Modelled is every number computed and handed to matplotlib; matplotlib itself
(rendering, labels, styles, and whether it accepts its keyword arguments) is not.
-/

noncomputable section

open Classical

namespace PyBSM

/-- What `plot_common_MTFs` hands to matplotlib, `metrics/functional.py`:698-748: the abscissa of all curves, the
eight curves, the limits of the axes (both start at 0) and the position of the Nyquist marker. -/
structure MtfPlot where
  sf : List XR
  aperture : List XR
  turbulence : List XR
  detector : List XR
  jitter : List XR
  drift : List XR
  wavefront : List XR
  processing : List XR
  system : List XR
  xMax : XR
  yMax : XR
  nyquist : XR

/-- `0.001 * (1.0 / sensor.f) * np.sqrt(metrics.uu**2 + metrics.vv**2)`, `metrics/functional.py`:694-695. `uu` and
`vv` are the meshgrid of the two frequency axes, lines 387-390 and 548-551: `uu` varies along columns, `vv` along rows. -/
def imagePlaneFrequency (cutoff inv : XR) : List (List XR) :=
  ((linspace 1 (-1) 101).map (· * cutoff)).map fun v =>
    (freqAxis 101 cutoff).map fun u => 0.001 * inv * XR.sqrt (u ^ 2 + v ^ 2)

/-- `np.abs(slice_otf(otf, angle))`, `metrics/functional.py`:698-705. -/
def mtfSlice (otf : List (List XR)) (angle : ℝ) : Except PyErr (List XR) := do
  let o ← sliceOtf otf angle
  .ok (o.map XR.abs)

/-- `plot_common_MTFs`, `metrics/functional.py`:676-749, of a `Metrics` object made from sensor `s`. -/
def plotCommonMTFs (m : Metrics) (s : Sensor) (angle : ℝ) : Except PyErr MtfPlot := do
  let inv ← Scal.div (.py 1) (.py s.f)
  let sf ← sliceOtf (imagePlaneFrequency m.cutoffFrequency inv.val) angle
  let ap ← mtfSlice (m.otf.map (·.ap)) angle
  let turb ← mtfSlice (m.otf.map (·.turb)) angle
  let det ← mtfSlice (m.otf.map (·.det)) angle
  let jit ← mtfSlice (m.otf.map (·.jit)) angle
  let dri ← mtfSlice (m.otf.map (·.drft)) angle
  let wav ← mtfSlice (m.otf.map (·.wav)) angle
  let sys ← mtfSlice (m.otf.map (·.system)) angle
  let fil ← mtfSlice (m.otf.map (·.filter)) angle
  let xMax ← amax sf
  let yMax ← amax fil
  let nyq ← Scal.div (.py 0.5) (.py (m.ifovX * s.f))
  .ok { sf := sf, aperture := ap, turbulence := turb, detector := det, jitter := jit, drift := dri, wavefront := wav
        processing := fil, system := sys, xMax := xMax, yMax := yMax, nyquist := nyq.val * 0.001 }

/-- What `plot_noise_terms` hands to matplotlib: the seven bars in the order of their labels (total, scene, path,
emission / stray, dark current, quantization, readout) and the three integers of the title.
`metrics/functional.py`:769-811 -/
structure NoisePlot where
  bars : List XR
  electrons : ℤ
  contrast : ℤ
  wellPercent : ℤ

/-- `plot_noise_terms`, `metrics/functional.py`:752-811, of a `Metrics` object made from sensor `s`; `max_val` only
sets the limit of the axis. -/
def plotNoiseTerms (m : Metrics) (s : Sensor) : Except PyErr NoisePlot := do
  let bars := [m.snr.totalNoise, m.sceneNoise, m.pathNoise, m.snr.selfEmissionNoise, m.snr.darkCurrentNoise,
    m.snr.quantizationNoise, s.readNoise]
  let a ← pyInt m.snr.tgtN
  let b ← pyInt (m.snr.tgtN - m.snr.bkgN)
  let c ← pyInt (m.snr.wellFraction * 100)
  .ok { bars := bars, electrons := a, contrast := b, wellPercent := c }

/-- The extent `(left, right, bottom, top)` handed to `imshow` by `RefImage.show`, `simulation/ref_image.py`:119-132. -/
def RefImage.extent (r : RefImage) : XR × XR × XR × XR :=
  (-(.fin r.img.w) / 2 * r.gsd, .fin r.img.w / 2 * r.gsd, -(.fin r.img.h) / 2 * r.gsd, .fin r.img.h / 2 * r.gsd)

end PyBSM
