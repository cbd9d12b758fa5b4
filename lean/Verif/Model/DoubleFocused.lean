import Verif.Model.DoubleOtf

/-!
# The defocusable aperture without defocus in double precision
-/

noncomputable section

open Classical

namespace PyBSM

/-- `circular_aperture_OTF_with_defocus` without defocus at one pair of frequencies, `otf/functional.py`:224-253, with a rounding `fl` after
every operation. Simplification: `w20` and `alpha`, which are not used without defocus, are left out. -/
def focusedD (fl acosD sinD : ℝ → ℝ) (wavelength D u v : ℝ) : XR :=
  let rho := radialD fl u v
  let r0 := fl (D / wavelength)
  let s := fl (fl (2 * rho) / r0)
  (match arccosD acosD (fl (0.5 * s)) with
  | .fin b => .fin (fl (fl (1 / fl Real.pi) * fl (fl (2 * b) - sinD (fl (2 * b)))))
  | _ => .nan : XR).nanToNum

end PyBSM
