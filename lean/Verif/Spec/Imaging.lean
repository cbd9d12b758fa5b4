import Verif.Spec.Band
import Verif.Spec.Turbulence
import Verif.Spec.Edge
import Verif.Spec.Giqe
import Verif.Spec.Grid
import Verif.Spec.Niirs

/-!
# Specification vocabulary: what `niirs` and `niirs5` report, over the reals

Throughout, `B` is the list of the in-band rows of the atmosphere (columns: wavelength, transmission, path thermal,
surface emission, scattered sunlight, reflected sunlight).
-/

noncomputable section

open Classical

namespace PyBSM.Spec

/-- The band starts at 2.9 µm or beyond. -/
def RealSensor.Thermal (s : RealSensor) : Prop := ∃ p, s.transmission.head? = some p ∧ 2.9e-6 ≤ p.1

/-- Radiance of the standard target: 282 K, black in thermal bands, otherwise of reflectance 0.15. -/
def RealSensor.targetAt (s : RealSensor) (a : Fin 6 → ℝ) : ℝ :=
  if s.Thermal then greyRadiance a 0 282 else greyRadiance a 0.15 282

/-- Radiance of the standard background: 280 K, black in thermal bands, otherwise of reflectance 0.07. -/
def RealSensor.backgroundAt (s : RealSensor) (a : Fin 6 → ℝ) : ℝ :=
  if s.Thermal then greyRadiance a 0 280 else greyRadiance a 0.07 280

/-- Photoelectrons collected from the radiance `L` during the nominal exposure. -/
def RealSensor.electrons (s : RealSensor) (B : List (Fin 6 → ℝ)) (L : (Fin 6 → ℝ) → ℝ) : ℝ :=
  s.rate B.length (fun i => B.getD i 0 0) (fun i => L (B.getD i 0)) * s.intTime * s.nTdi

/-- Photoelectrons of the brighter of target and background during the nominal exposure. -/
def RealSensor.brightest (s : RealSensor) (B : List (Fin 6 → ℝ)) : ℝ :=
  max (s.electrons B s.targetAt) (s.electrons B s.backgroundAt)

/-- The fraction to which the exposure is cut so that the well is not filled beyond `max_well_fill`. -/
def RealSensor.cut (s : RealSensor) (B : List (Fin 6 → ℝ)) : ℝ :=
  if s.brightest B ≤ s.maxWellFill * s.maxN then 1 else s.maxWellFill * s.maxN / s.brightest B

/-- The exposure actually used. -/
def RealSensor.exposure (s : RealSensor) (B : List (Fin 6 → ℝ)) : ℝ := s.cut B * s.intTime

/-- Total noise, electrons rms: shot noise of the brighter signal, quantization, read-out, other. -/
def RealSensor.noise (s : RealSensor) (B : List (Fin 6 → ℝ)) : ℝ :=
  Real.sqrt (s.cut B * s.brightest B + (s.maxN / (Real.sqrt 12 * ((2 : ℝ) ^ s.bitDepth - 1))) ^ 2 + s.readNoise ^ 2
    + (s.otherNoise.map (· ^ 2)).sum)

/-- Contrast signal-to-noise ratio of a single frame. -/
def RealSensor.contrastSNR (s : RealSensor) (B : List (Fin 6 → ℝ)) : ℝ :=
  s.cut B * (s.electrons B s.targetAt - s.electrons B s.backgroundAt) / s.noise B

/-- Photoelectrons that the scene radiance `L` alone (without the camera's own emission and the dark current) gives
during the exposure actually used. -/
def RealSensor.photons (s : RealSensor) (B : List (Fin 6 → ℝ)) (L : (Fin 6 → ℝ) → ℝ) : ℝ :=
  trap B.length (fun i => B.getD i 0 0) (fun i => spectralRate s.D s.f s.wX s.wY (B.getD i 0 0) (L (B.getD i 0))
    (s.transAt (B.getD i 0 0)) (tableAt s.qe (B.getD i 0 0)) 0) * s.exposure B * s.nTdi

/-- Radiance of the path between target and sensor: thermal emission and scattered sunlight. -/
def pathAt (a : Fin 6 → ℝ) : ℝ := a 2 + a 4

/-- Wavelengths with their weights: the spectral signal of the target where it is positive. -/
def RealSensor.band (s : RealSensor) (B : List (Fin 6 → ℝ)) : List (ℝ × ℝ) :=
  (B.map fun a => (a 0, s.spectral (a 0) (s.targetAt a))).filter fun p => 0 < p.2

/-- `c` is the diffraction cutoff of the band: aperture over shortest wavelength. -/
def RealSensor.Cutoff (s : RealSensor) (B : List (Fin 6 → ℝ)) (c : ℝ) : Prop :=
  ∃ lam, (∃ p ∈ s.band B, p.1 = lam) ∧ (∀ p ∈ s.band B, lam ≤ p.1) ∧ c = s.D / lam

/-- `F` is the frequency response of the sensor's sharpening kernel: 1 for kernels of at most one row, otherwise
what `filter_OTF` computes for the horizontal field of view of a detector. -/
def RealSensor.Sharpening (s : RealSensor) (diag : ℕ → ℕ → Bool) (F : ℝ → ℝ → ℝ) : Prop :=
  (s.filterKernel.length ≤ 1 → ∀ u v, F u v = 1)
  ∧ (1 < s.filterKernel.length → ∀ (m : ℕ) (U V : ℕ → ℝ),
      filterOTF diag (vec m U) (vec m V) s.filterKernel (.np (.fin (s.pX / s.f)))
        = .ok (vec m fun j => F (U j) (V j)))

/-- The modulation transfer function of the whole system. -/
def RealSensor.mtf (s : RealSensor) (g : RealScene) (B : List (Fin 6 → ℝ)) (F : ℝ → ℝ → ℝ) (u v : ℝ) : ℝ :=
  |opticsAt s g (s.band B) (s.exposure B) u v * F u v|

/-- Column `j` of `n` equally spaced frequencies from `-c` to `c`. -/
def colFreq (n : ℕ) (c : ℝ) (j : ℕ) : ℝ := (2 * j / ((n : ℝ) - 1) - 1) * c

/-- Row `i` of `n` equally spaced frequencies from `c` to `-c`. -/
def rowFreq (n : ℕ) (c : ℝ) (i : ℕ) : ℝ := (1 - 2 * i / ((n : ℝ) - 1)) * c

/-- Relative edge response of the MTF samples `M 0, …, M 49` spaced by `df`. -/
def rerOf (M : ℕ → ℝ) (df ifov : ℝ) : ℝ := edge 50 M df ifov (1 / 2) - edge 50 M df ifov (-(1 / 2))

/-- `e` is the height overshoot of the edge with MTF samples `M 0, …, M 49`: the response 1.25 pixels from the edge
if the responses at 1, 1.25, …, 3 pixels increase, otherwise the largest of them. -/
def IsOvershoot (M : ℕ → ℝ) (df ifov e : ℝ) : Prop :=
  let E : ℕ → ℝ := fun i => edge 50 M df ifov (1 + i / 4)
  ((∀ i < 8, E i < E (i + 1)) → e = E 1)
  ∧ ((¬ ∀ i < 8, E i < E (i + 1)) → (∃ i < 9, e = E i) ∧ ∀ i < 9, E i ≤ e)

/-- Everything a call needs: a usable sensor, a scene, an atmosphere with finite entries and positive distinct
in-band wavelengths, at one of which the target gives a signal. -/
structure Imaging (env : Env) (s : RealSensor) (g : RealScene) (sc : Scenario) (interp : Bool)
    (B : List (Fin 6 → ℝ)) : Prop where
  usable : s.Usable
  optical : s.Optical
  viewing : g.Viewing
  scene : g.Of sc
  atmosphere : ∃ rows, (if interp then loadInterp env.files sc.altitude sc.groundRange sc.ihaze
    else loadNoInterp env.files sc.altitude sc.groundRange sc.ihaze) = .ok (realAtm rows) ∧ B = s.rowsInBand rows
  wavelengths : ∀ a ∈ B, 0 < a 0
  distinct : (B.map (· 0)).Nodup
  signal : ∃ a ∈ B, 0 < s.spectral (a 0) (s.targetAt a)
  counts : 0 ≤ s.brightest B
  well : 0 < s.maxN
  fill : 0 ≤ s.maxWellFill
  bits : 0 < s.bitDepth
  pitchX : 0 < s.pX
  pitchY : 0 < s.pY
  focal : 0 < s.f
  frames : 0 ≤ s.frameStacks

/-- The radiometric part of a report. -/
structure Radiometry (s : RealSensor) (g : RealScene) (B : List (Fin 6 → ℝ)) (m : Metrics) : Prop where
  slantRange : m.slantRange = .fin g.slant
  atmosphere : m.atm = realAtm B
  wavelengths : m.radianceWavelengths = B.map fun a => .fin (a 0)
  target : m.tgtRadiance = B.map fun a => .fin (s.targetAt a)
  background : m.bkgRadiance = B.map fun a => .fin (s.backgroundAt a)
  detector : photonDetectorSNR s.toSensor m.radianceWavelengths m.tgtRadiance m.bkgRadiance = .ok m.snr
  exposure : m.snr.intTime = .fin (s.exposure B)
  noise : m.snr.totalNoise = .fin (s.noise B)
  contrast : m.snr.snr = .fin (s.contrastSNR B)
  mtfWavelengths : m.mtfWavelengths = (s.band B).map fun p => .fin p.1
  mtfWeights : m.mtfWeights = (s.band B).map fun p => .fin p.2

/-- The optical part of a report: `c` is the cutoff frequency and `F` the response of the sharpening kernel. -/
structure Sampling (s : RealSensor) (g : RealScene) (B : List (Fin 6 → ℝ)) (F : ℝ → ℝ → ℝ) (c : ℝ) (m : Metrics) :
    Prop where
  isCutoff : s.Cutoff B c
  cutoff : m.cutoffFrequency = .fin c
  step : m.df = .fin (c / 50)
  ifovX : m.ifovX = .fin (s.pX / s.f)
  ifovY : m.ifovY = .fin (s.pY / s.f)
  gsdX : m.gsdX = .fin (s.pX / s.f * g.slant)
  aperture : (m.otf.map (·.ap)) = grid 101 fun i j => apertureAt s (s.band B) (colFreq 101 c j) (rowFreq 101 c i)
  turbulence : (m.otf.map (·.turb)) = grid 101 fun i j =>
    turbulenceAt s g (s.band B) (s.exposure B) (colFreq 101 c j) (rowFreq 101 c i)
  detector : (m.otf.map (·.det)) = grid 101 fun i j => detectorAt s (colFreq 101 c j) (rowFreq 101 c i)
  jitter : (m.otf.map (·.jit)) = grid 101 fun i j => jitterAt s (colFreq 101 c j) (rowFreq 101 c i)
  drift : (m.otf.map (·.drft)) = grid 101 fun i j => driftAt s (s.exposure B) (colFreq 101 c j) (rowFreq 101 c i)
  wavefront : (m.otf.map (·.wav)) = grid 101 fun i j => wavefrontAt s (s.band B) (colFreq 101 c j) (rowFreq 101 c i)
  filter : (m.otf.map (·.filter)) = grid 101 fun i j => F (colFreq 101 c j) (rowFreq 101 c i)
  system : (m.otf.map (·.system)) = grid 101 fun i j =>
    opticsAt s g (s.band B) (s.exposure B) (colFreq 101 c j) (rowFreq 101 c i) * F (colFreq 101 c j) (rowFreq 101 c i)

/-- Samples of the MTF along the `u` axis. -/
def alongU (M : ℝ → ℝ → ℝ) (df : ℝ) (k : ℕ) : ℝ := M (k * df) 0

/-- Samples of the MTF along the `v` axis. -/
def alongV (M : ℝ → ℝ → ℝ) (df : ℝ) (k : ℕ) : ℝ := M 0 (k * df)

end PyBSM.Spec
