import Mathlib.MeasureTheory.Measure.Lebesgue.Complex
import Mathlib.MeasureTheory.Measure.Real

/-!
# Specification vocabulary: the diffraction MTF of an annular pupil

The physical definition: the optical transfer function of an aberration-free aperture is the
autocorrelation of its pupil, normalised to 1 at zero frequency.  The pupil plane is the complex plane
with Lebesgue measure.
-/

noncomputable section

open MeasureTheory

namespace PyBSM.Spec

/-- The open part of a circular aperture of diameter `D` whose central obscuration has diameter
`eta * D`. -/
def pupil (D eta : ℝ) : Set ℂ := {z | eta * (D / 2) < ‖z‖ ∧ ‖z‖ ≤ D / 2}

/-- The area of the overlap of a pupil with its copy shifted by `s`. -/
def autocorrelation (P : Set ℂ) (s : ℂ) : ℝ := volume.real (P ∩ {z | z - s ∈ P})

/-- The diffraction MTF at angular frequencies `(u, v)` and wavelength `lam`. -/
def diffractionMTF (lam D eta u v : ℝ) : ℝ :=
  autocorrelation (pupil D eta) (lam * (u + v * Complex.I)) / autocorrelation (pupil D eta) 0

end PyBSM.Spec
