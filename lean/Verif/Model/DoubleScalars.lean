import Verif.Num.Rounding
import Verif.Model.Radiance
import Mathlib.Analysis.Complex.Norm

/-!
# Wiener filter, defocus radii and dark current in double precision

Simplifications: nothing overflows or underflows; `x**2` and `x**2.0` are the rounded square. Dividing a complex number by a real one,
numpy divides both parts.
-/

noncomputable section

open Classical

namespace PyBSM

/-- `wiener_filter` at one frequency, `simulation/functional.py`:94-96, where the denominator is not zero; `absD` is `np.abs` of a complex
number. -/
def wienerD (fl : ℝ → ℝ) (absD : ℂ → ℝ) (z : ℂ) (nsr : ℝ) : Option ℂ :=
  let den := fl (fl (absD z ^ 2) + nsr)
  if den = 0 then none else some ⟨fl (z.re / den), fl (-z.im / den)⟩

/-- `object_domain_defocus_radii`, `otf/functional.py`:1111, for distances other than zero. -/
def objectRadiiD (fl : ℝ → ℝ) (D R R0 : ℝ) : ℝ := fl (fl (fl 0.62 * D) * fl (fl (1 / R) - fl (1 / R0)))

/-- `dark_current_from_density`, `otf/functional.py`:1135. -/
def darkCurrentD (fl : ℝ → ℝ) (jd wX wY : ℝ) : ℝ := fl (fl (fl (jd * wX) * wY) / fl qC)

/-- `image_domain_defocus_radii`, `otf/functional.py`:1157, for a focal length other than zero. -/
def imageRadiiD (fl : ℝ → ℝ) (D dz f : ℝ) : ℝ := fl (fl (fl (fl 0.62 * D) * dz) / fl (f ^ 2))

end PyBSM
