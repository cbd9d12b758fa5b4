import Verif.Model.Otf

/-!
# Model of the image-domain functions of `src/pybsm/otf/functional.py`

`otf_to_psf`, `slice_otf`, `apply_otf_to_image`, `resample_2D` and the OpenCV primitives they call.
-/

noncomputable section

open Classical

namespace PyBSM

/-- A 2-D array of finite doubles with `h` rows and `w` columns; `px` outside these bounds is never
read. (`otf/functional.py`:906-969, 1187-1296, 1422-1455) -/
structure Img where
  h : ℕ
  w : ℕ
  px : ℕ → ℕ → ℝ

/-- `img.sum()`. (used at `otf/functional.py`:945, 963, 967) -/
def Img.sum (x : Img) : ℝ := ∑ i ∈ Finset.range x.h, ∑ j ∈ Finset.range x.w, x.px i j

/-- `np.fft.fftshift` along an axis of length `n`: index `i` of the result is this index of the
input (`np.roll` by `n // 2`). (used at `otf/functional.py`:934) -/
def fftshiftIdx (n i : ℕ) : ℕ := (i + (n - n / 2)) % n

/-- `np.fft.ifft2(X)[m, n]` for an `M x N` array. (used at `otf/functional.py`:934) -/
def ifft2 (M N : ℕ) (X : ℕ → ℕ → ℂ) (m n : ℕ) : ℂ :=
  (1 / ((M : ℂ) * N)) * ∑ k ∈ Finset.range M, ∑ l ∈ Finset.range N,
    X k l * Complex.exp (2 * Real.pi * Complex.I * ((k * m : ℂ) / M + (l * n : ℂ) / N))

/-- The point spread function before resampling, `otf/functional.py`:934, in `otf_to_psf`:
`np.real(np.fft.fftshift(np.fft.ifft2(np.fft.fftshift(otf))))`. -/
def rawPsf (M N : ℕ) (otf : ℕ → ℕ → ℂ) : Img where
  h := M
  w := N
  px := fun i j =>
    (ifft2 M N (fun k l => otf (fftshiftIdx M k) (fftshiftIdx N l))
      (fftshiftIdx M i) (fftshiftIdx N j)).re

/-- The source position that bilinear `cv2.resize` reads for output index `d`: base index and
fraction, with OpenCV's clamping at the borders. (used at `otf/functional.py`:942, 1453) -/
def resizeCoord (src dst d : ℕ) : ℕ × ℝ :=
  let fx : ℝ := ((d : ℝ) + 0.5) * ((src : ℝ) / dst) - 0.5
  let s := ⌊fx⌋
  if s < 0 then (0, 0)
  else if (src : ℤ) - 1 ≤ s then (src - 1, 0)
  else (s.toNat, fx - s)

/-- `cv2.resize(img, (newW, newH))` with the default bilinear interpolation on doubles; empty input
or output sizes are a `cv2.error`.  Simplification: OpenCV's interpolation coefficients are exact.
(used at `otf/functional.py`:942, 1453) -/
def cvResize (x : Img) (newW newH : ℕ) : Except PyErr Img :=
  if x.h = 0 ∨ x.w = 0 ∨ newW = 0 ∨ newH = 0 then .error .cv2Error
  else .ok {
    h := newH
    w := newW
    px := fun i j =>
      let (r, fr) := resizeCoord x.h newH i
      let (c, fc) := resizeCoord x.w newW j
      let r' := min (r + 1) (x.h - 1)
      let c' := min (c + 1) (x.w - 1)
      (1 - fr) * ((1 - fc) * x.px r c + fc * x.px r c')
        + fr * ((1 - fc) * x.px r' c + fc * x.px r' c') }

/-- A Python slice bound on an axis of length `d`: negative values count from the end, everything is
clamped to `[0, d]`. (used at `otf/functional.py`:948-958) -/
def pySliceBound (d : ℕ) (s : ℤ) : ℕ := if s < 0 then (s + d).toNat else min s.toNat d

/-- `get_middle(x, k_size)`, `otf/functional.py`:948-958:
`slice(int(floor(d/2 - k/2)), int(ceil(d/2 + k/2)))` on both axes. -/
def getMiddle (x : Img) (k : ℕ) : Img :=
  let lo (d : ℕ) : ℕ := pySliceBound d (((d : ℤ) - k) / 2)
  let hi (d : ℕ) : ℕ := pySliceBound d (((d : ℤ) + k + 1) / 2)
  { h := hi x.h - lo x.h
    w := hi x.w - lo x.w
    px := fun i j => x.px (lo x.h + i) (lo x.w + j) }

/-- Division of all pixels by the sum (`psf / psf.sum()`); a zero sum would give non-finite
pixels. (used at `otf/functional.py`:945, 967) -/
def normalize (x : Img) : Except PyErr Img :=
  if x.sum = 0 then .error .outsideModel
  else .ok { x with px := fun i j => x.px i j / x.sum }

/-- The search for the support region, `otf/functional.py`:961-964: the first size in
`np.arange(10, n, 5)` whose crop sums to more than 0.95, otherwise the last size; no size at all
leaves `psf_out` unbound. -/
def supportSize (psf : Img) : List ℕ → Except PyErr ℕ
  | [] => .error .unboundLocalError
  | [k] => .ok k
  | k :: ks => if 0.95 < (getMiddle psf k).sum then .ok k else supportSize psf ks

/-- `np.arange(10, n, 5)` for a natural number `n`. (used at `otf/functional.py`:961) -/
def arange10 (n : ℕ) : List ℕ := (List.range ((n - 10 + 4) / 5)).map fun i => 10 + 5 * i

/-- Python's `int(x)` of a double: truncation, `OverflowError` for infinities, `ValueError` for
`nan`. (used at `otf/functional.py`:940-941, 1451-1452) -/
def pyInt : XR → Except PyErr ℤ
  | .fin x => .ok (if 0 ≤ x then ⌊x⌋ else ⌈x⌉)
  | .nan => .error .valueError
  | _ => .error .overflowError

/-- `otf_to_psf`, `otf/functional.py`:906-969, for an `M x N` OTF; `usable` is the module flag
`is_usable` (OpenCV present). -/
def otfToPsf (usable : Bool) (M N : ℕ) (otf : ℕ → ℕ → ℂ) (df dxOut : Scal) :
    Except PyErr Img := do
  if !usable then .error .importError
  else
    let psf := rawPsf M N otf
    let dxIn ← Scal.div (.py 1) (Scal.py (.fin M) * df)
    let sx ← Scal.div (Scal.py (.fin N) * dxIn) dxOut
    let nx ← pyInt sx.val
    let sy ← Scal.div (Scal.py (.fin M) * dxIn) dxOut
    let ny ← pyInt sy.val
    let psf ← cvResize psf (max 1 nx.toNat) (max 1 ny.toNat)
    let psf ← normalize psf
    let k ← supportSize psf (arange10 (min M N))
    normalize (getMiddle psf k)

/-- numpy's `np.round` to an integer: half to even.
(used at `otf/functional.py`:1451-1452, `simulation/functional.py`:278) -/
def roundHalfEven (x : ℝ) : ℤ :=
  if x - ⌊x⌋ < 1 / 2 then ⌊x⌋
  else if 1 / 2 < x - ⌊x⌋ then ⌊x⌋ + 1
  else if ⌊x⌋ % 2 = 0 then ⌊x⌋ else ⌊x⌋ + 1

/-- `int(np.round(n * dx_in / dx_out))`, `otf/functional.py`:1451-1452. -/
def resampledSize (n : ℕ) (dxIn dxOut : Scal) : Except PyErr ℤ := do
  let q ← Scal.div (Scal.py (.fin n) * dxIn) dxOut
  match q.val with
  | .fin x => .ok (roundHalfEven x)
  | .nan => .error .valueError
  | _ => .error .overflowError

/-- `resample_2D`, `otf/functional.py`:1422-1455. -/
def resample2D (usable : Bool) (img : Img) (dxIn dxOut : Scal) : Except PyErr Img := do
  if !usable then .error .importError
  else
    let nx ← resampledSize img.w dxIn dxOut
    let ny ← resampledSize img.h dxIn dxOut
    cvResize img nx.toNat ny.toNat

/-- OpenCV's default border (`BORDER_REFLECT_101`): the index inside `[0, n)` that stands for `p`.
(used at `otf/functional.py`:1288) -/
def reflect101 (n : ℕ) (p : ℤ) : ℕ :=
  if n ≤ 1 then 0
  else
    let m := (p % (2 * ((n : ℤ) - 1))).toNat
    if m < n then m else 2 * (n - 1) - m

/-- `cv2.filter2D(img, -1, kernel)`: correlation with the anchor at the kernel centre; empty
images or kernels are a `cv2.error`. (used at `otf/functional.py`:1288) -/
def filter2D (x k : Img) : Except PyErr Img :=
  if x.h = 0 ∨ x.w = 0 ∨ k.h = 0 ∨ k.w = 0 then .error .cv2Error
  else .ok {
    h := x.h
    w := x.w
    px := fun y c => ∑ i ∈ Finset.range k.h, ∑ j ∈ Finset.range k.w,
      k.px i j * x.px (reflect101 x.h ((y : ℤ) + i - (k.h / 2 : ℕ)))
        (reflect101 x.w ((c : ℤ) + j - (k.w / 2 : ℕ))) }

/-- `apply_otf_to_image`, `otf/functional.py`:1187-1296: `(sim_img, sim_psf)`. -/
def applyOtfToImage (usable : Bool) (refImg : Img) (refGsd refRange : Scal) (M N : ℕ)
    (otf : ℕ → ℕ → ℂ) (df ifov : Scal) : Except PyErr (Img × Img) := do
  if !usable then .error .importError
  else
    let half ← Scal.div refGsd (.py 2)
    let q ← Scal.div half refRange
    let psf ← otfToPsf usable M N otf df (.np (2 * q.val.arctan))
    let blur ← filter2D refImg psf
    let dxIn ← Scal.div refGsd refRange
    let sim ← resample2D usable blur dxIn ifov
    let simPsf ← resample2D usable psf dxIn ifov
    .ok (sim, simPsf)

/-- Element `(i, j)` of a 2-D array given as the list of its rows. (used at `otf/functional.py`:1178) -/
def gridAt (g : List (List XR)) (i j : ℕ) : XR := (g.getD i []).getD j .nan

/-- `scipy.interpolate.interp2d(u, v, otf)` (bilinear) at one point, for
`u = linspace(-1, 1, n)` along columns and `v = linspace(1, -1, n)` along rows. (used at `otf/functional.py`:1178) -/
def interp2dAt (g : List (List XR)) (n : ℕ) (x y : ℝ) : XR :=
  let tx := (x + 1) / 2 * ((n : ℝ) - 1)
  let ty := (1 - y) / 2 * ((n : ℝ) - 1)
  let j := ⌊tx⌋₊ ⊓ (n - 2)
  let i := ⌊ty⌋₊ ⊓ (n - 2)
  let s : XR := .fin (tx - j)
  let t : XR := .fin (ty - i)
  (1 - t) * ((1 - s) * gridAt g i j + s * gridAt g i (j + 1))
    + t * ((1 - s) * gridAt g (i + 1) j + s * gridAt g (i + 1) (j + 1))

/-- `slice_otf`, `otf/functional.py`:1161-1184.  `interp2d` requires the sizes to match, i.e. a
square array (`ValueError`), `u[1]` at least two samples (`IndexError`).  `interp2d.__call__` sorts
its arguments, so the samples along a direction with a negative cosine (sine) are visited in
ascending order of `x` (`y`). -/
def sliceOtf (g : List (List XR)) (ang : ℝ) : Except PyErr (List XR) :=
  let n := g.length
  if n < 2 then .error .indexError
  else if ∃ r ∈ g, r.length ≠ n then .error .valueError
  else
    let m := n / 2
    let r (k : ℕ) : ℝ := k * (2 / ((n : ℝ) - 1))
    let x (k : ℕ) : ℝ := (if 0 ≤ Real.cos ang then r k else r (m - 1 - k)) * Real.cos ang
    let y (k : ℕ) : ℝ := (if 0 ≤ Real.sin ang then r k else r (m - 1 - k)) * Real.sin ang
    .ok ((List.range m).map fun k => interp2dAt g n (x k) (y k))

end PyBSM
