import Verif.Model.Double
import Verif.Model.Geospatial

/-!
# Viewing geometry in double precision

`curved_earth_slant_range`, `nadir_angle` and what `niirs`, `niirs5` and the turbulence OTFs make of them, with a rounding
`fl` after every operation. `r_earth` is a whole number, hence a double. `cosD` and `acosD` are the cosine and the arc
cosine of the mathematical library. Not modelled: overflow and underflow.
-/

noncomputable section

open Classical

namespace PyBSM

/-- `curved_earth_slant_range` in double precision, `geospatial.py`:150-153. -/
def slantRangeD (fl cosD : ℝ → ℝ) (hTarget hSensor groundRange : ℝ) : XR :=
  let a := fl (rEarth + hSensor)
  let c := fl (rEarth + hTarget)
  let theta := fl (groundRange / rEarth)
  let q := fl (fl (fl (c ^ 2) + fl (a ^ 2)) - fl (fl (fl (2 * a) * c) * cosD theta))
  if q < 0 then .nan else .fin (fl (Real.sqrt q))

/-- The quotient whose arc cosine `nadir_angle` takes, in double precision, for a slant range `b`, `geospatial.py`:126-129. -/
def cosNadirD (fl : ℝ → ℝ) (hTarget hSensor b : ℝ) : ℝ :=
  let a := fl (rEarth + hSensor)
  let c := fl (rEarth + hTarget)
  fl (fl (-1 * fl (fl (fl (c ^ 2) - fl (a ^ 2)) - fl (b ^ 2))) / fl (fl (2 * a) * b))

/-- `nadir_angle` in double precision, `geospatial.py`:104-131. The slant range is a numpy scalar, so that a division by
zero gives an infinite number or none; the arc cosine of such and of a number beyond ±1 is no number. -/
def nadirAngleD (fl acosD : ℝ → ℝ) (hTarget hSensor : ℝ) : XR → XR
  | .fin b =>
    if fl (fl (2 * fl (rEarth + hSensor)) * b) = 0 then .nan
    else if |cosNadirD fl hTarget hSensor b| ≤ 1 then .fin (acosD (cosNadirD fl hTarget hSensor b)) else .nan
  | _ => .nan

/-- `nm.elev_angle` in double precision, `metrics/functional.py`:424, 574. -/
def elevationD (fl : ℝ → ℝ) (nadir : XR) : XR := XR.rnd fl (.fin (fl (fl Real.pi / 2)) - nadir)

/-- `slant_range` of `simulate_image` in double precision, `simulation/functional.py`:200. -/
def flatSlantRangeD (fl : ℝ → ℝ) (altitude groundRange : ℝ) : ℝ :=
  fl (Real.sqrt (fl (fl (altitude ^ 2) + fl (groundRange ^ 2))))

/-- Entry `i` of `h_path` of `altitude_along_slant_path` in double precision, `geospatial.py`:69-76. -/
def pathHeightD (fl cosD : ℝ → ℝ) (hSensor slantRange : ℝ) (nadir : XR) (i : ℕ) : XR :=
  match nadir with
  | .fin v =>
    let a := fl (rEarth + hSensor)
    let b := linspaceD fl 0 slantRange 10000 (9999 - i)
    let q := fl (fl (fl (a ^ 2) + fl (b ^ 2)) - fl (fl (fl (2 * a) * b) * cosD v))
    if q < 0 then .nan else .fin (fl (fl (Real.sqrt q) - rEarth))
  | _ => .nan

end PyBSM
