import Verif.Spec.Pupil
import Mathlib.MeasureTheory.Integral.Bochner.Basic
import Mathlib.Analysis.Complex.Exponential

/-!
# Specification vocabulary: the OTF of a defocused aperture

The physical definition: light crosses the open aperture with unit amplitude; defocus delays it by an optical
path that grows with the square of the distance from the axis and reaches `W` at the rim.  The optical transfer
function is the autocorrelation of this complex field, normalised by its power.
-/

noncomputable section

open MeasureTheory

namespace PyBSM.Spec

/-- The complex field in an unobscured circular aperture of diameter `D` at wavelength `lam`, with an optical path
difference `W` at the rim. -/
def defocusedField (lam D W : ℝ) (z : ℂ) : ℂ :=
  open Classical in
  if z ∈ pupil D 0 then Complex.exp ((2 * Real.pi / lam * (W * (‖z‖ / (D / 2)) ^ 2) : ℝ) * Complex.I) else 0

/-- The OTF of an aperture field `P` at wavelength `lam` and angular frequencies `(u, v)`. -/
def fieldOTF (lam : ℝ) (P : ℂ → ℂ) (u v : ℝ) : ℂ :=
  (∫ z, P z * (starRingEnd ℂ) (P (z - lam * (u + v * Complex.I)))) / ((∫ z, ‖P z‖ ^ 2 : ℝ) : ℂ)

/-- The optical path difference at the rim caused by moving the image plane by `w`, in a system of focal length `f`
and diameter `D`. -/
def rimPath (f D w : ℝ) : ℝ := w / (2 * (1 + 4 * (f / D) ^ 2))

end PyBSM.Spec
