import Verif.Model.Double
import Verif.Model.Otf

/-!
# The diffraction MTF in double precision

`circular_aperture_OTF` at one pair of frequencies, with a rounding `fl` after every operation. `sqD` is Python's
`x ** 2.0`; `acosD`, `sinD`, `tanD` and `atanD` are the functions of the mathematical library. Simplification: nothing
overflows or underflows.
-/

noncomputable section

open Classical

namespace PyBSM

/-- `np.arccos`: no number outside `[-1, 1]`. (used at `otf/functional.py`:149, 155, 164) -/
def arccosD (acosD : ℝ → ℝ) (x : ℝ) : XR := if |x| ≤ 1 then .fin (acosD x) else .nan

/-- `a` and `b` before `nan_to_num`, for a factor `c` and a quotient `q`, `otf/functional.py`:148-150, 154-157. -/
def chordD (fl acosD : ℝ → ℝ) (c q : ℝ) : XR :=
  match arccosD acosD q with
  | .fin p =>
    let y := fl (1 - fl (q ^ 2))
    if y < 0 then .nan else .fin (fl (c * fl (p - fl (q * fl (Real.sqrt y)))))
  | _ => .nan

/-- The number whose arc cosine is `phi`, for `e2 = eta**2.0`, `otf/functional.py`:164. -/
def crossArgD (fl : ℝ → ℝ) (eta e2 r0 rho : ℝ) : ℝ :=
  fl (fl (fl (fl (1 + e2) - fl (fl (fl (2 * rho) / r0) ^ 2)) / 2) / eta)

/-- `c_2` before `nan_to_num`, `otf/functional.py`:164-172. -/
def crossD (fl acosD sinD tanD atanD : ℝ → ℝ) (eta e2 w : ℝ) : XR :=
  match arccosD acosD w with
  | .fin p =>
    let c := fl (fl (fl (fl (fl (2 * eta) * sinD p) / fl Real.pi) + fl (fl (fl (1 + e2) * p) / fl Real.pi)) - fl (2 * e2))
    .fin (fl (c - fl (fl (fl (2 * fl (1 - e2)) / fl Real.pi)
      * atanD (fl (fl (fl (1 + eta) * tanD (fl (p / 2))) / fl (1 - eta))))))
  | _ => .nan

/-- The radial frequency, `otf/functional.py`:144. -/
def radialD (fl : ℝ → ℝ) (u v : ℝ) : ℝ := fl (Real.sqrt (fl (fl (u ^ 2) + fl (v ^ 2))))

/-- The condition `rho < (1.0 - eta) * r0 / 2.0`, `otf/functional.py`:161. -/
def innerD (fl : ℝ → ℝ) (eta r0 rho : ℝ) : Prop := rho < fl (fl (fl (1 - eta) * r0) / 2)

/-- The condition `rho <= ((1.0 + eta) * r0 / 2.0)`, `otf/functional.py`:174. -/
def outerD (fl : ℝ → ℝ) (eta r0 rho : ℝ) : Prop := rho ≤ fl (fl (fl (1 + eta) * r0) / 2)

/-- `circular_aperture_OTF` in double precision at one pair of frequencies, `otf/functional.py`:110-182. Simplification:
without an obscuration the code computes `b` and `c_2` with divisions by zero and does not use them. -/
def apertureD (fl sqD acosD sinD tanD atanD : ℝ → ℝ) (lambda0 D eta u v : ℝ) : XR :=
  let rho := radialD fl u v
  let r0 := fl (D / lambda0)
  let e2 := sqD eta
  let a := (chordD fl acosD (fl (2 / fl Real.pi)) (fl (rho / r0))).nanToNum
  let b := (chordD fl acosD (fl (fl (2 * e2) / fl Real.pi)) (fl (fl (rho / eta) / r0))).nanToNum
  let c1 := .fin (fl (-2 * e2)) * boolNum (innerD fl eta r0 rho)
  let c2 := (crossD fl acosD sinD tanD atanD eta e2 (crossArgD fl eta e2 r0 rho)).nanToNum
    * boolNum (outerD fl eta r0 rho)
  if 0 < eta then XR.rnd fl (XR.rnd fl (XR.rnd fl (XR.rnd fl (a + b) + c1) + c2) / .fin (fl (1 - e2))) else a

end PyBSM
