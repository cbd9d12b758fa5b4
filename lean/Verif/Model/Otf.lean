import Verif.Model.Geospatial
import Verif.Model.Radiance
import Verif.Model.Scenario
import Mathlib.Analysis.SpecialFunctions.Complex.Circle
import Mathlib.MeasureTheory.Integral.IntervalIntegral.Basic

/-!
# Model of the OTF functions of `src/pybsm/otf/functional.py`

All OTF functions of the code are element-wise in the frequency arrays `u`, `v`.  The model has one
function per code function that computes one element; the array forms used by
`weighted_by_wavelength` are obtained with `bc2` on one row of the frequency grid (numpy broadcasts
the trailing axis, so rows are independent).
-/

noncomputable section

open Classical

namespace PyBSM

/-- numpy boolean times number: `True` is 1, `False` is 0. (used at `otf/functional.py`:148-180) -/
def boolNum (p : Prop) : XR := if p then 1 else 0

/-- Radial frequency `np.sqrt(u**2.0 + v**2.0)`, `otf/functional.py`:144, 224, 459, 768. -/
def radial (u v : XR) : XR := XR.sqrt (u ^ 2 + v ^ 2)

/-- The element-wise part of `circular_aperture_OTF`, `otf/functional.py`:144-182, with the cutoff
`r0 = D / lambda0` already computed. -/
def apertureElt (r0 eta u v : XR) : XR :=
  let rho := radial u v
  let pi : XR := .fin Real.pi
  let a := (2 / pi) * ((rho / r0).arccos - (rho / r0) * XR.sqrt (1 - (rho / r0) ^ 2))
  let a := a.nanToNum
  let b := (2 * eta ^ 2 / pi)
    * ((rho / eta / r0).arccos - (rho / eta / r0) * XR.sqrt (1 - (rho / eta / r0) ^ 2))
  let b := b.nanToNum
  let c1 := (-2) * eta ^ 2 * boolNum (XR.lt rho ((1 - eta) * r0 / 2))
  let phi := ((1 + eta ^ 2 - (2 * rho / r0) ^ 2) / 2 / eta).arccos
  let c2 := 2 * eta * phi.sin / pi + (1 + eta ^ 2) * phi / pi - 2 * eta ^ 2
  let c2 := c2 - (2 * (1 - eta ^ 2) / pi) * ((1 + eta) * (phi / 2).tan / (1 - eta)).arctan
  let c2 := c2.nanToNum
  let c2 := c2 * boolNum (XR.le rho ((1 + eta) * r0 / 2))
  if XR.lt 0 eta then (a + b + c1 + c2) / (1 - eta ^ 2) else a

/-- `circular_aperture_OTF` on one row of the frequency grid, `otf/functional.py`:110-182.
Simplification: scalar divisions by `eta` inside the code are array divisions (`rho` is an array),
and `1 - eta**2 = 0` divides an array, so only `D / lambda0` can raise. -/
def circularApertureOTF (us vs : List XR) (lambda0 D : Scal) (eta : XR) :
    Except PyErr (List XR) := do
  let r0 ← D.div lambda0
  bc2 (apertureElt r0.val eta) us vs

/-- Bessel function of the first kind of integer order (`scipy.special.jn`), by Bessel's integral.
(used at `otf/functional.py`:237-246) -/
def besselJ (n : ℕ) (x : ℝ) : ℝ :=
  (1 / Real.pi) * ∫ t in (0 : ℝ)..Real.pi, Real.cos (n * t - x * Real.sin t)

/-- `jn(n, x)` on doubles: `0` at infinity, `nan` propagates. (used at `otf/functional.py`:237-246) -/
def jn (n : ℕ) : XR → XR
  | .fin x => .fin (besselJ n x)
  | .nan => .nan
  | _ => 0

/-- The element-wise part of `circular_aperture_OTF_with_defocus`, `otf/functional.py`:224-255, with
`r0 = D / wavelength`, `fd = f / D` and `k = 4*pi/wavelength` already computed. -/
def defocusApertureElt (r0 fd k defocus u v : XR) : XR :=
  let pi : XR := .fin Real.pi
  let rho := radial u v
  let s := 2 * rho / r0
  let w20 := 0.5 / (1 + 4 * fd ^ 2) * defocus
  let alpha := k * w20 * s
  let beta := (0.5 * s).arccos
  if ¬ XR.eq defocus 0 then
    let h := 2 / (pi * alpha) * (alpha * 0.5 * s).cos *
        (beta * jn 1 alpha
          + 1 / 2 * (2 * beta * (jn 1 alpha - jn 3 alpha)).sin
          - 1 / 4 * (4 * beta * (jn 3 alpha - jn 5 alpha)).sin
          + 1 / 6 * (6 * beta * (jn 5 alpha - jn 7 alpha)).sin)
      - 2 / (pi * alpha) * (alpha * 0.5 * s).sin *
        ((beta * (jn 0 alpha - jn 2 alpha)).sin
          - 1 / 3 * (3 * beta * (jn 2 alpha - jn 4 alpha)).sin
          + 1 / 5 * (5 * beta * (jn 4 alpha - jn 6 alpha)).sin
          - 1 / 7 * (7 * beta * (jn 6 alpha - jn 8 alpha)).sin)
    (if XR.eq rho 0 then 1 else h).nanToNum
  else (1 / pi * (2 * beta - (2 * beta).sin)).nanToNum

/-- `circular_aperture_OTF_with_defocus` on one row, `otf/functional.py`:185-255.  The scalar
divisions, in the order of the code, are `D / wavelength`, `f / D` and `4*pi / wavelength`. -/
def circularApertureOTFWithDefocus (us vs : List XR) (wavelength D f : Scal) (defocus : XR) :
    Except PyErr (List XR) := do
  let r0 ← D.div wavelength
  let fd ← f.div D
  let k ← Scal.div (.py (4 * .fin Real.pi)) wavelength
  bc2 (defocusApertureElt r0.val fd.val k.val defocus) us vs

/-- The inner `cte_OTF_xy`, `otf/functional.py`:301-306. -/
def cteXY (n pu phasesN cteEff f : XR) : XR :=
  XR.exp ((-1) * phasesN * n * (1 - cteEff) * (1 - (2 * .fin Real.pi * pu / f).cos))

/-- `cte_OTF`, `otf/functional.py`:258-312. -/
def cteOTF (u v pX pY nX nY phasesN cteEff f : XR) : XR :=
  cteXY nX (pX * u) phasesN cteEff f * cteXY nY (pY * v) phasesN cteEff f

/-- `defocus_OTF`, `otf/functional.py`:315-342. -/
def defocusOTF (u v wX wY : XR) : XR :=
  XR.exp ((-(XR.fin Real.pi) ^ 2 / 4) * (wX ^ 2 * u ^ 2 + wY ^ 2 * v ^ 2))

/-- `detector_OTF`, `otf/functional.py`:345-371. -/
def detectorOTF (u v wX wY f : XR) : XR := (wX * u / f).sinc * (wY * v / f).sinc

/-- The aggregation sum of `detector_OTF_with_aggregation` in one direction, the loop at
`otf/functional.py`:413-419. -/
def aggSum (n : ℕ) (p u f : XR) : XR :=
  (List.range n).foldl (fun acc (i : ℕ) =>
    acc + (2 * .fin Real.pi * (.fin i * p * u / f - (.fin n - 1) * p * u / 2 / f)).cos) 0

/-- `detector_OTF_with_aggregation`, `otf/functional.py`:374-425.  (For `n = 0` the code divides
the Python number `0.0*0.0` by `0` and raises.) -/
def detectorOTFWithAggregation (u v wX wY pX pY f : XR) (n : ℕ) : Except PyErr XR :=
  if n = 0 then .error .zeroDivisionError
  else .ok ((aggSum n pX u f * aggSum n pY v f / (.fin n) ^ 2)
    * (wX * u / f).sinc * (wY * v / f).sinc)

/-- The inner `diffusion_OTF_params`, `otf/functional.py`:454-457. -/
def diffusionParams (al alpha ald : XR) : XR := 1 - XR.exp (-alpha * ald) / (1 + alpha * al)

/-- `diffusion_OTF`, `otf/functional.py`:428-467, for an array `alpha` (one element); `1.0/al0**2`
divides two Python floats. -/
def diffusionOTF (u v alpha ald : XR) (al0 : Scal) (f : XR) : Except PyErr XR := do
  let q ← Scal.div (.py 1) (al0 ^ 2)
  let rho := radial u v
  let alRho := XR.sqrt (1 / (q.val + (2 * .fin Real.pi * rho / f) ^ 2))
  .ok (diffusionParams alRho alpha ald / diffusionParams al0.val alpha ald)

/-- `drift_OTF`, `otf/functional.py`:470-493. -/
def driftOTF (u v aX aY : XR) : XR := (aX * u).sinc * (aY * v).sinc

/-- `gaussian_OTF`, `otf/functional.py`:552-585. -/
def gaussianOTF (u v : XR) (blurX blurY : Scal) : Except PyErr XR := do
  let fcX ← Scal.div (.py 1) blurX
  let fcY ← Scal.div (.py 1) blurY
  .ok (XR.exp (-.fin Real.pi * ((u / fcX.val) ^ 2 + (v / fcY.val) ^ 2)))

/-- `jitter_OTF`, `otf/functional.py`:588-616. -/
def jitterOTF (u v sX sY : XR) : XR :=
  XR.exp (((-2) * (XR.fin Real.pi) ^ 2) * (sX ^ 2 * u ^ 2 + sY ^ 2 * v ^ 2))

/-- `tdi_OTF`, `otf/functional.py`:700-734, for finite inputs with non-zero `f * beta` and a
positive number of phases; the result is complex.  `np.arange(0, n_tdi*phases_n)` has
`ceil(n_tdi*phases_n)` terms. -/
def tdiOTF (uOrV w nTdi phasesN beta f : ℝ) : ℂ :=
  let xx := w * uOrV / (f * beta)
  let s := (List.range ⌈nTdi * phasesN⌉₊).foldl (fun (acc : ℂ) (ii : ℕ) =>
    acc + Complex.exp (-2 * Complex.I * Real.pi * xx * (beta - 1) * ii)) 0
  (Real.sinc (Real.pi * xx) : ℂ) * s / ((nTdi * phasesN : ℝ) : ℂ)

/-- `turbulence_OTF`, `otf/functional.py`:737-774. -/
def turbulenceOTF (u v lambda0 D r0 alpha : XR) : XR :=
  let rho := radial u v
  XR.exp ((-(3.44 : XR)) * (lambda0 * rho / r0).rpow (5 / 3)
    * (1 - alpha * (lambda0 * rho / D).rpow (1 / 3)))

/-- `wavefront_OTF`, `otf/functional.py`:777-821. -/
def wavefrontOTF (u v lambda0 pv lX lY : XR) : XR :=
  let autoC := XR.exp (-(lambda0 ^ 2) * ((u / lX) ^ 2 + (v / lY) ^ 2))
  XR.exp (-pv * (1 - autoC))

/-- `wavefront_OTF_2`, `otf/functional.py`:824-856. -/
def wavefrontOTF2 (u v cutoff wRms : XR) : XR :=
  let v' := XR.sqrt (u ^ 2 + v ^ 2) / cutoff
  1 - ((wRms / 0.18) ^ 2) * (1 - 4 * (v' - 0.5) ^ 2)

/-- `wind_speed_turbulence_OTF` for one frequency, `otf/functional.py`:859-900; `-vel*t_d/r0`
divides two scalars. -/
def windSpeedTurbulenceElt (weight u v lambda0 D r0 : XR) : XR :=
  weight * turbulenceOTF u v lambda0 D r0 0.5
    + (1 - weight) * turbulenceOTF u v lambda0 D r0 0

/-- `wind_speed_turbulence_OTF` on one row, `otf/functional.py`:859-900. -/
def windSpeedTurbulenceOTF (us vs : List XR) (lambda0 D : XR) (r0 tD vel : Scal) :
    Except PyErr (List XR) := do
  let q ← Scal.div (Scal.py (-1) * vel * tD) r0
  bc2 (fun u v => windSpeedTurbulenceElt q.val.exp u v lambda0 D r0.val) us vs

/-- `weighted_by_wavelength`, `otf/functional.py`:972-1005, where `my_function` returns a 1-D array
(one row of the grid; a scalar is an array of length one).  `weights[wavelengths == wii]` is a
boolean-mask selection: `IndexError` if the two arrays differ in length. -/
def weightedByWavelength (wavelengths weights : List XR) (g : XR → Except PyErr (List XR)) :
    Except PyErr (List XR) :=
  let w := weights.map (· / asum weights)
  match w, wavelengths with
  | w0 :: _, l0 :: ls => do
    let f0 ← g l0
    ls.foldlM (fun acc l => do
      if wavelengths.length ≠ w.length then .error .indexError
      else
        let sel := ((wavelengths.zip w).filter (fun p => XR.eq p.1 l)).map (·.2)
        let fl ← g l
        let t ← bc2 (· * ·) sel fl
        bc2 (· + ·) acc t) (f0.map (w0 * ·))
  | _, _ => .error .indexError

/-- `coherence_diameter`, `otf/functional.py`:1008-1050; `z_path.max()` on an empty array is a
`ValueError`, `2*np.pi/lambda0` divides two scalars. -/
def coherenceDiameter (lambda0 : Scal) (zPath cn2 : List XR) : Except PyErr XR := do
  let zMax ← amax zPath
  let y ← bc2 (· * ·) cn2 (zPath.map fun z => (z / zMax).rpow (5 / 3))
  let sp ← trapz y zPath
  let k ← Scal.div (.py (2 * .fin Real.pi)) lambda0
  .ok ((sp * 0.423 * k.val ^ 2).rpow (-3 / 5))

/-- `hufnagel_valley_turbulence_profile` at one height, `otf/functional.py`:1053-1086. -/
def hvProfile (v cn2At1m h : XR) : XR :=
  5.94e-53 * (v / 27) ^ 2 * h ^ 10 * XR.exp (-h / 1000)
    + 2.7e-16 * XR.exp (-h / 1500)
    + cn2At1m * XR.exp (-h / 100)

/-- `r0_function` inside `polychromatic_turbulence_OTF`, `otf/functional.py`:684-685; `wav` is a
numpy scalar. -/
def r0Function (r0At1um wav : XR) : XR :=
  r0At1um * wav.rpow (6 / 5) * (1e-6 : XR).rpow (-6 / 5)

/-- `polychromatic_turbulence_OTF` on one row of the grid, `otf/functional.py`:619-697:
`(turbulence_OTF, r0_band)`.  `wavelengths` is a numpy array, so its elements are numpy scalars. -/
def polychromaticTurbulenceOTF (us vs wavelengths weights : List XR) (altitude slantRange : Scal)
    (D haWindSpeed cn2At1m intTime aircraftSpeed : XR) :
    Except PyErr (List XR × List XR) := do
  let (zPath, hPath) ← altitudeAlongSlantPath (.py 0) altitude slantRange
  let cn2 := hPath.map (hvProfile haWindSpeed cn2At1m)
  let r0 ← coherenceDiameter (.py 1e-6) zPath cn2
  let r0Band ← weightedByWavelength wavelengths weights fun w => .ok [r0Function r0 w]
  let turb ← weightedByWavelength wavelengths weights fun w =>
    windSpeedTurbulenceOTF us vs w D (.np (r0Function r0 w)) (.py intTime) (.py aircraftSpeed)
  .ok (turb, r0Band)

/-- `object_domain_defocus_radii`, `otf/functional.py`:1089-1112. -/
def objectDomainDefocusRadii (D R R0 : Scal) : Except PyErr XR := do
  let a ← Scal.div (.py 1) R
  let b ← Scal.div (.py 1) R0
  .ok (0.62 * D.val * (a.val - b.val))

/-- `dark_current_from_density`, `otf/functional.py`:1115-1136. -/
def darkCurrentFromDensity (jd wX wY : XR) : XR := jd * wX * wY / .fin qC

/-- `image_domain_defocus_radii`, `otf/functional.py`:1139-1158. -/
def imageDomainDefocusRadii (D dz f : Scal) : Except PyErr XR := do
  let q ← Scal.div (Scal.py 0.62 * D * dz) (f ^ 2)
  .ok q.val

/-- The zero-padded (or cropped) kernel that `np.fft.fft2(kernel, [100, 100])` transforms,
`otf/functional.py`:522: entry `(r, c)`. -/
def paddedKernel (k : Kernel) (r c : ℕ) : ℝ := (k.getD r []).getD c 0

/-- `np.fft.fft2(kernel, [100, 100])[a, b]`, `otf/functional.py`:522. -/
def kernelDFT (k : Kernel) (a b : ℕ) : ℂ :=
  ∑ r ∈ Finset.range 100, ∑ c ∈ Finset.range 100,
    (paddedKernel k r c : ℂ) * Complex.exp (-2 * Real.pi * Complex.I * (a * r + b * c) / 100)

/-- `np.abs(np.fft.fftshift(np.fft.fft2(kernel, [100, 100])))[i, j]`, `otf/functional.py`:522;
`fftshift` of an even length moves index `(i + 50) % 100` to `i`. -/
def xferFcn (k : Kernel) (i j : ℕ) : ℝ := ‖kernelDFT k ((i + 50) % 100) ((j + 50) % 100)‖

/-- `wrap_val`, `otf/functional.py`:537-538; numpy's `%` is `x - y*floor(x/y)`. -/
def wrapVal (value nyquist : ℝ) : ℝ :=
  (value + nyquist) - 2 * nyquist * ⌊(value + nyquist) / (2 * nyquist)⌋ - nyquist

/-- Linear interpolation inside one cell of a regular grid that has been cut into two triangles, as
`scipy.interpolate.griddata(method="linear")` does after a Delaunay triangulation.  Which of the two
diagonals is used is not determined by the geometry (the four corners are co-circular), so it is a
parameter. (used at `otf/functional.py`:541-547) -/
def triInterp (diag : Bool) (z00 z01 z10 z11 s t : ℝ) : ℝ :=
  if diag then
    (if t ≤ s then z00 + s * (z01 - z00) + t * (z11 - z01)
     else z00 + t * (z10 - z00) + s * (z11 - z10))
  else
    (if s + t ≤ 1 then z00 + s * (z01 - z00) + t * (z10 - z00)
     else z11 + (1 - s) * (z10 - z11) + (1 - t) * (z01 - z11))

/-- `filter_OTF` for one frequency, `otf/functional.py`:524-549, for a finite non-zero Nyquist
frequency.  Column `j` of the transform sits at `u = -nyq + 2*nyq*j/99`, row `i` at
`v = nyq - 2*nyq*i/99` (`np.linspace` with 100 samples); `diag i j` is the diagonal choice of the
triangulation in cell `(i, j)`. -/
def filterElt (diag : ℕ → ℕ → Bool) (k : Kernel) (nyq u v : ℝ) : ℝ :=
  let x := (wrapVal u nyq + nyq) / (2 * nyq) * 99
  let y := (nyq - wrapVal v nyq) / (2 * nyq) * 99
  let j := ⌊x⌋₊ ⊓ 98
  let i := ⌊y⌋₊ ⊓ 98
  triInterp (diag i j) (xferFcn k i j) (xferFcn k i (j + 1)) (xferFcn k (i + 1) j)
    (xferFcn k (i + 1) (j + 1)) (x - j) (y - i)

/-- `filter_OTF` on one row, `otf/functional.py`:496-549; `0.5 / ifov` divides two scalars.
Non-finite or zero Nyquist frequencies and non-finite `u`, `v` are not modelled (result `nan`). -/
def filterOTF (diag : ℕ → ℕ → Bool) (us vs : List XR) (k : Kernel) (ifov : Scal) :
    Except PyErr (List XR) := do
  let nyq ← Scal.div (.py 0.5) ifov
  bc2 (fun u v => match nyq.val, u, v with
    | .fin n, .fin x, .fin y => if n = 0 then .nan else .fin (filterElt diag k n x y)
    | _, _, _ => .nan) us vs

/-- The attributes of an `OTF` object (one row of the grid), `otf/otf.py`:20-34. -/
structure OTFRow where
  ap : List XR
  turb : List XR
  r0Band : List XR
  det : List XR
  jit : List XR
  drft : List XR
  wav : List XR
  filter : List XR
  system : List XR

/-- The turbulence part of `common_OTFs`: `(turb_OTF, r0_band)`, `otf/functional.py`:1354-1374.  The slant range
is a Python number or a numpy scalar (as `curved_earth_slant_range` returns). -/
def commonTurbulence (s : Sensor) (sc : Scenario) (us vs wl weights : List XR)
    (slantRange : Scal) (intTime : XR) : Except PyErr (List XR × List XR) :=
  if XR.lt 0 sc.cn2At1m then
    polychromaticTurbulenceOTF us vs wl weights (.py sc.altitude) slantRange s.D
      sc.haWindSpeed sc.cn2At1m (intTime * s.nTdi) sc.aircraftSpeed
  else .ok (us.map fun _ => 1, us.map fun _ => 1e6 * 1)

/-- The sharpening part of `common_OTFs`: `filter_OTF`, `otf/functional.py`:1401-1406. -/
def commonFilter (diag : ℕ → ℕ → Bool) (s : Sensor) (us vs : List XR) : Except PyErr (List XR) :=
  if 1 < s.filterKernel.length then do
    let ifov ← Scal.div (.py s.pX) (.py s.f)
    filterOTF diag us vs s.filterKernel ifov
  else .ok (us.map fun _ => 1)

/-- `common_OTFs` on one row of the frequency grid, `otf/functional.py`:1299-1419. -/
def commonOTFs (diag : ℕ → ℕ → Bool) (s : Sensor) (sc : Scenario) (us vs wl weights : List XR)
    (slantRange : Scal) (intTime : XR) : Except PyErr OTFRow := do
  let ap ← weightedByWavelength wl weights fun w =>
    circularApertureOTF us vs (.np w) (.py s.D) s.eta
  let tr ← commonTurbulence s sc us vs wl weights slantRange intTime
  let det ← bc2 (fun u v => detectorOTF u v s.wX s.wY s.f) us vs
  let jit ← bc2 (fun u v => jitterOTF u v s.sX s.sY) us vs
  let drft ← bc2 (fun u v =>
    driftOTF u v (s.daX * intTime * s.nTdi) (s.daY * intTime * s.nTdi)) us vs
  let wav ← weightedByWavelength wl weights fun w =>
    bc2 (fun u v => wavefrontOTF u v w (s.pv * (s.pvWavelength / w) ^ 2) s.lX s.lY) us vs
  let filt ← commonFilter diag s us vs
  let p ← bc2 (· * ·) ap tr.1
  let p ← bc2 (· * ·) p det
  let p ← bc2 (· * ·) p jit
  let p ← bc2 (· * ·) p drft
  let p ← bc2 (· * ·) p wav
  let p ← bc2 (· * ·) p filt
  .ok { ap := ap, turb := tr.1, r0Band := tr.2, det := det, jit := jit, drft := drft,
        wav := wav, filter := filt, system := p }

end PyBSM
