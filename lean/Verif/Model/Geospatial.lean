import Verif.Num.Arr

/-!
# Model of `src/pybsm/geospatial.py`
-/

noncomputable section

open Classical

namespace PyBSM

/-- `r_earth`, `geospatial.py`:38 and `otf/functional.py`:104. -/
def rEarth : ℝ := 6378.164e3

/-- `nadir_angle`, `geospatial.py`:104-131.  `-1.0*(c**2-a**2-b**2)/(2.0*a*b)` is a division of two
scalars: `ZeroDivisionError` for Python floats, `inf`/`nan` for numpy scalars. -/
def nadirAngle (hTarget hSensor slantRange : Scal) : Except PyErr XR := do
  let a := Scal.py (.fin rEarth) + hSensor
  let b := slantRange
  let c := Scal.py (.fin rEarth) + hTarget
  let q ← Scal.div (Scal.py (-1) * (c ^ 2 - a ^ 2 - b ^ 2)) (Scal.py 2 * a * b)
  .ok q.val.arccos

/-- `curved_earth_slant_range`, `geospatial.py`:134-155. -/
def curvedEarthSlantRange (hTarget hSensor groundRange : XR) : XR :=
  let a := .fin rEarth + hSensor
  let c := .fin rEarth + hTarget
  let theta := groundRange / .fin rEarth
  XR.sqrt (c ^ 2 + a ^ 2 - 2 * a * c * theta.cos)

/-- `altitude_along_slant_path`, `geospatial.py`:41-83: `(z_path, h_path)`. -/
def altitudeAlongSlantPath (hTarget hSensor slantRange : Scal) :
    Except PyErr (List XR × List XR) := do
  let nadir ← nadirAngle hTarget hSensor slantRange
  let a := .fin rEarth + hSensor.val
  let b := linspace 0 slantRange.val 10000
  let c := b.map fun b => XR.sqrt (a ^ 2 + b ^ 2 - 2 * a * b * nadir.cos)
  .ok (b, (c.map (· - .fin rEarth)).reverse)

/-- `ground_sample_distance`, `geospatial.py`:86-101. -/
def groundSampleDistance (ifov slantRange : XR) : XR := slantRange * ifov

end PyBSM
