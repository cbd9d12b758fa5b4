import Verif.Spec.Imaging
import Verif.Spec.Calibration
import Verif.Model.Simulation

/-!
# Specification vocabulary: what `simulate_image` computes, over the reals

As in `Spec/Imaging.lean`, `B` is the list of the in-band rows of the atmosphere.
-/

noncomputable section

open Classical

namespace PyBSM.Spec

/-- Photoelectrons collected during the whole integration time from a grey scene of reflectance `ρ` at 300 K. -/
def RealSensor.collected (s : RealSensor) (B : List (Fin 6 → ℝ)) (ρ : ℝ) : ℝ :=
  s.electrons B fun a => greyRadiance a ρ 300

/-- What a pixel of reflectance `ρ` holds: the collected photoelectrons, all scaled down by the same factor if the
brighter of a black and a white scene would overfill the well. -/
def RealSensor.pixel (s : RealSensor) (B : List (Fin 6 → ℝ)) (ρ : ℝ) : ℝ :=
  s.collected B ρ / max 1 (max (s.collected B 0) (s.collected B 1) / s.maxN)

/-- Wavelengths with their weights: the spectral signal of a white scene where it is positive. -/
def RealSensor.whiteBand (s : RealSensor) (B : List (Fin 6 → ℝ)) : List (ℝ × ℝ) :=
  (B.map fun a => (a 0, s.spectral (a 0) (greyRadiance a 1 300))).filter fun p => 0 < p.2

/-- `c` is aperture over shortest wavelength of the band. -/
def IsCutoff (D : ℝ) (pairs : List (ℝ × ℝ)) (c : ℝ) : Prop :=
  ∃ lam, (∃ p ∈ pairs, p.1 = lam) ∧ (∀ p ∈ pairs, lam ≤ p.1) ∧ c = D / lam

/-- The reference image has this calibration of pixel values to reflectances. -/
structure RefOf (r : RefImage) (cal : List (ℝ × ℝ)) : Prop where
  valid : Calibration cal
  pix : r.pixValues = cal.map fun p => .fin p.1
  refl : r.reflValues = cal.map fun p => .fin p.2

/-- Everything a simulation needs: a usable sensor, an atmosphere (cached in the scenario or loaded) with finite
entries and positive distinct in-band wavelengths at one of which a white scene gives a signal, a calibrated image. -/
structure Simulation (env : Env) (s : RealSensor) (sc : Scenario) (r : RefImage) (cal : List (ℝ × ℝ))
    (B : List (Fin 6 → ℝ)) : Prop where
  usable : s.Usable
  optical : s.Optical
  kernel : 1 < s.filterKernel.length → s.pX ≠ 0
  well : 0 < s.maxN
  bits : 0 < s.bitDepth
  atmosphere : ∃ rows, (sc.readAtm env.files).1 = .ok (realAtm rows) ∧ B = s.rowsInBand rows
  wavelengths : ∀ a ∈ B, 0 < a 0
  distinct : (B.map (· 0)).Nodup
  signal : ∃ a ∈ B, 0 < s.spectral (a 0) (greyRadiance a 1 300)
  image : RefOf r cal

/-- The scenario has the sky of `g` and a ground range such that the flat-Earth distance of its target, the hypotenuse
of altitude and ground range, is the distance of the target of `g`. -/
structure FlatView (g : RealScene) (sc : Scenario) : Prop where
  viewing : g.Viewing
  sky : g.Sky sc
  distance : ∃ rng, sc.groundRange = .fin rng ∧ g.slant = Real.sqrt (g.altitude ^ 2 + rng ^ 2)

/-- Standard deviation of the Gaussian noise: quantization and read-out. -/
def RealSensor.gaussian (s : RealSensor) : ℝ :=
  Real.sqrt ((s.maxN / (Real.sqrt 12 * ((2 : ℝ) ^ s.bitDepth - 1))) ^ 2 + s.readNoise ^ 2)

end PyBSM.Spec
