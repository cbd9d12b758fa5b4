import Verif.Model.Metrics
import Mathlib.Data.List.Sort

/-!
# Model of `src/pybsm/simulation/functional.py` and `src/pybsm/simulation/ref_image.py`
-/

noncomputable section

open Classical

namespace PyBSM

/-- `instantaneous_FOV`, `simulation/functional.py`:49-64. -/
def instantaneousFOV (w f : Scal) : Except PyErr Scal := w.div f

/-- `wiener_filter` at one frequency, `simulation/functional.py`:67-98, where the denominator is
non-zero. -/
def wienerFilter (otf : ℂ) (nsr : ℝ) : Option ℂ :=
  let den : ℝ := ‖otf‖ ^ 2 + nsr
  if den = 0 then none else some ((starRingEnd ℂ) otf / (den : ℂ))

/-- The clipping of one interpolated value, `simulation/functional.py`:137-138. -/
def clip01 (x : XR) : XR :=
  let x := if XR.lt 1 x then 1 else x
  if XR.lt x 0 then 0 else x

/-- `img_to_reflectance` for the pixels of an image (as a flat list),
`simulation/functional.py`:101-140. -/
def imgToReflectance (img pixValues reflValues : List XR) : Except PyErr (List XR) :=
  if pixValues.length ≠ reflValues.length ∨ pixValues = [] then .error .valueError
  else .ok (img.map fun x => clip01 (interp1dSeg x (sortKey (pixValues.zip reflValues))))

/-- `np.percentile(a, q)` (linear interpolation between order statistics) of a non-empty array of
finite doubles, `0 ≤ q ≤ 100`. (used at `simulation/functional.py`:275-276) -/
def percentile (a : List ℝ) (q : ℝ) : ℝ :=
  let s := a.insertionSort (· ≤ ·)
  let t := q / 100 * ((a.length : ℝ) - 1)
  let i := ⌊t⌋₊
  let lo := s.getD i 0
  let hi := s.getD (min (i + 1) (a.length - 1)) 0
  lo + (t - i) * (hi - lo)

/-- `np.clip(x, 0, 255)`. (used at `simulation/functional.py`:277) -/
def clip255 (x : XR) : XR := XR.min (XR.max x 0) 255

/-- `np.round(x).astype(np.uint8)` for a value already clipped to `[0, 255]`; the cast of `nan` is
undefined (`none`). (used at `simulation/functional.py`:278) -/
def toUint8 : XR → Option ℕ
  | .fin x => some (roundHalfEven x).toNat
  | _ => none

/-- `stretch_contrast_convert_8bit` on the pixels of a non-empty image of finite values,
`simulation/functional.py`:269-278; the default percentiles are 0.1 and 99.9. -/
def stretchContrast (img : List ℝ) (p0 : ℝ := 0.1) (p1 : ℝ := 99.9) : List (Option ℕ) :=
  let a := img.map (· - percentile img p0)
  let den := XR.fin (percentile a p1 / 255)
  a.map fun x => toUint8 (clip255 (.fin x / den))

/-- A `RefImage` object, `ref_image.py`:52-77; `img` has `h` rows, `w` columns and finite values. -/
structure RefImage where
  img : Img
  gsd : XR
  pixValues : List XR
  reflValues : List XR
  name : String

/-- The pixels in row-major order (`img.ravel()`). (used at `simulation/functional.py`:275-276) -/
def Img.ravel (x : Img) : List ℝ :=
  (List.range x.h).flatMap fun i => (List.range x.w).map fun j => x.px i j

/-- `RefImage.__init__`, `ref_image.py`:52-77.  (`np.percentile` of an empty image raises
`IndexError`; if `pix_values` is `None`, a `refl_values` argument is ignored.) -/
def RefImage.new (img : Img) (gsd : XR) (pixValues reflValues : Option (List XR) := none)
    (name : String := "ref_image") : Except PyErr RefImage :=
  match pixValues with
  | none =>
    if img.h = 0 ∨ img.w = 0 then .error .indexError
    else .ok { img := img, gsd := gsd, name := name
               pixValues := [.fin (percentile img.ravel 0.2), .fin (percentile img.ravel 99.8)]
               reflValues := [0.05, 0.95] }
  | some p =>
    match reflValues with
    | none => .error .valueError
    | some r => .ok { img := img, gsd := gsd, name := name, pixValues := p, reflValues := r }

/-- `RefImage.estimate_capture_parameters`, `ref_image.py`:79-117; `altitude * p / self.gsd` and
`p / 2 / f` divide Python floats.  `np.median` of the two wavelengths is their mean. -/
def RefImage.estimateCaptureParameters (r : RefImage) (altitude : XR := 2000000) :
    Except PyErr (Sensor × Scenario) := do
  let wl : List XR := [380 * 1.0e-9, 700 * 1.0e-9]
  let scen := Scenario.new r.name 1 altitude 0 (aircraftSpeed := 0) (haWindSpeed := 0)
    (cn2At1m := 0)
  let p : XR := 20e-6
  let f ← Scal.div (.py (altitude * p)) (.py r.gsd)
  let q ← Scal.div (.py (p / 2)) f
  let ifov := 2 * q.val.arctan
  let D := 4 * ((380 * 1.0e-9 + 700 * 1.0e-9) / 2) / ifov
  let sensor ← Sensor.new r.name D f.val p wl
  .ok (sensor, scen)

/-- The random draws of `np.random.poisson` and `np.random.normal`: `poisson i j lam` is the draw for
pixel `(i, j)`, `normal i j` a standard normal draw.  The generator is outside the model; theorems
quantify over all draws.  Simplification: means beyond about 9.2e18, for which numpy raises
`ValueError`, are drawn like any other. (used at `simulation/functional.py`:255-257) -/
structure Rng where
  poisson : ℕ → ℕ → ℝ → ℕ
  normal : ℕ → ℕ → ℝ

/-- `scipy.interpolate.interp1d(ref, pe)` at one value (sorted table): `ValueError` outside the
table, otherwise `np.interp`. (used at `simulation/functional.py`:246-247) -/
def interp1dStrict (ref pe : List XR) (x : XR) : Except PyErr XR :=
  let tbl := ref.zip pe
  match ref.head?, ref.getLast? with
  | some lo, some hi =>
    if XR.lt x lo ∨ XR.lt hi x then .error .valueError
    else .ok (interpTable x (pe.headD .nan) (pe.getLastD .nan) tbl)
  | _, _ => .error .valueError

/-- The finite real inside a double, or `none`. (no code: the model keeps images real-valued) -/
def XR.real? : XR → Option ℝ
  | .fin x => some x
  | _ => none

/-- Convert a list of doubles to reals; non-finite entries are outside the model.
(no code: the model keeps images real-valued) -/
def allReal (xs : List XR) : Except PyErr (List ℝ) :=
  match xs.mapM XR.real? with
  | some r => .ok r
  | none => .error .outsideModel

/-- `slant_range` of `simulate_image`, `simulation/functional.py`:200. -/
def flatSlantRange (sc : Scenario) : XR := XR.sqrt (sc.altitude ^ 2 + sc.groundRange ^ 2)

/-- The "true image" of `simulate_image`, `simulation/functional.py`:240-247: reflectance image and
its mapping to photoelectrons, for the pixels as a flat list. -/
def trueImage (r : RefImage) (ref pe : List XR) : Except PyErr (List XR) := do
  let refl ← imgToReflectance (r.img.ravel.map .fin) r.pixValues r.reflValues
  refl.mapM (interp1dStrict ref pe)

/-- Rows of an image from its pixels in row-major order.
(numpy arrays keep their shape, `simulation/functional.py`:247) -/
def imgOfPixels (h w : ℕ) (xs : List ℝ) : Img where
  h := h
  w := w
  px := fun i j => xs.getD (i * w + j) 0

/-- The result of `simulate_image`. (`simulation/functional.py`:266) -/
structure SimResult where
  trueImg : Img
  blurImg : Img
  noisyImg : Img
  scenario : Scenario

/-- `simulate_image`, `simulation/functional.py`:143-266.  Order of the code: atmosphere through the
caching property, photoelectron table, system OTF on a 1501 x 1501 grid, `df` check, reflectance,
true image, blur and resampling, Poisson noise (`ValueError` for a negative mean), Gaussian noise. -/
def simulateImage (env : Env) (usable : Bool) (rng : Rng) (r : RefImage) (s : Sensor)
    (sc : Scenario) : Except PyErr SimResult := do
  let rd := sc.readAtm env.files
  let atm ← rd.1
  let sc := rd.2.1
  let (ref, pe, wl, weights) ← reflectanceToPhotoelectrons atm s s.intTime
  let slant := flatSlantRange sc
  let keep := (wl.zip weights).filter (fun p => XR.lt 0 p.2)
  let mtfWl := keep.map (·.1)
  let mn ← amin mtfWl
  let cutoff := s.D / mn
  let otf ← gridOTFs env 1501 s sc cutoff mtfWl (keep.map (·.2)) slant s.intTime
  let uRng := freqAxis 1501 cutoff
  let vRng := (linspace 1 (-1) 1501).map (· * cutoff)
  let df := ((uRng.getD 1 .nan - uRng.getD 0 .nan).abs
    + (vRng.getD 0 .nan - vRng.getD 1 .nan).abs) / 2
  if XR.le df 0 then .error .valueError
  else
    let ifov ← Scal.div (.py ((s.pX + s.pY) / 2)) (.py s.f)
    let q := quantizationNoise s.maxN s.bitDepth
    let gNoise := XR.sqrt (q ^ 2 + s.readNoise ^ 2)
    let t ← trueImage r ref pe
    let tr ← allReal t
    let trueImg := imgOfPixels r.img.h r.img.w tr
    let rows ← otf.mapM fun row => allReal row.system
    let (blur, _) ← applyOtfToImage usable trueImg (.py r.gsd) (.np slant) 1501 1501
      (fun i j => (((rows.getD i []).getD j 0 : ℝ) : ℂ)) (.np df) ifov
    if ∃ i < blur.h, ∃ j < blur.w, blur.px i j < 0 then .error .valueError
    else
      match gNoise with
      | .fin g => .ok {
          trueImg := trueImg, blurImg := blur, scenario := sc
          noisyImg := { blur with px := fun i j =>
            (rng.poisson i j (blur.px i j) : ℝ) + g * rng.normal i j } }
      | _ => .error .outsideModel

end PyBSM
