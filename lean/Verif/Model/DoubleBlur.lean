import Verif.Model.OtfImage
import Verif.Model.DoubleEdge

/-!
# Blurring and resampling in double precision

`cv2.filter2D` and `cv2.resize` on arrays of doubles, as `apply_otf_to_image` and `resample_2D` use them. OpenCV computes the
source positions of `cv2.resize` in double precision and stores them, and the two weights, in single precision (`fs`); products
and sums of pixels are doubles (`fl`). Simplifications: nothing overflows or underflows, and `filter2D` adds up products
(OpenCV does so for kernels of fewer than 50 entries; larger ones go through Fourier transforms, which are not modelled).
-/

noncomputable section

open Classical

namespace PyBSM

/-- The source position of output index `d` that bilinear `cv2.resize` computes for `src` source and `dst` output pixels.
(used at `otf/functional.py`:942, 1453) -/
def resizePositionD (fl fs : ℝ → ℝ) (src dst d : ℕ) : ℝ :=
  fs (fl (fl (fl ((d : ℝ) + 0.5) * fl (1 / fl ((dst : ℝ) / src))) - 0.5))

/-- The base index and the weights of it and of the next one. (used at `otf/functional.py`:942, 1453) -/
def resizeCoordD (fl fs : ℝ → ℝ) (src dst d : ℕ) : ℕ × ℝ × ℝ :=
  let p := resizePositionD fl fs src dst d
  let s := ⌊p⌋
  if s < 0 then (0, fs (1 - 0), 0)
  else if (src : ℤ) - 1 ≤ s then (src - 1, fs (1 - 0), 0)
  else (s.toNat, fs (1 - fs (p - s)), fs (p - s))

/-- A weighted sum of two pixels. (used at `otf/functional.py`:942, 1453) -/
def mixD (fl : ℝ → ℝ) (a b x y : ℝ) : ℝ := fl (fl (x * a) + fl (y * b))

/-- `cv2.resize(img, (newW, newH))` on doubles: along the rows, then along the columns. (used at `otf/functional.py`:942,
1453) -/
def cvResizeD (fl fs : ℝ → ℝ) (x : Img) (newW newH : ℕ) : Except PyErr Img :=
  if x.h = 0 ∨ x.w = 0 ∨ newW = 0 ∨ newH = 0 then .error .cv2Error
  else .ok {
    h := newH
    w := newW
    px := fun i j =>
      let (r, a, b) := resizeCoordD fl fs x.h newH i
      let (c, a', b') := resizeCoordD fl fs x.w newW j
      let r' := min (r + 1) (x.h - 1)
      let c' := min (c + 1) (x.w - 1)
      mixD fl a b (mixD fl a' b' (x.px r c) (x.px r c')) (mixD fl a' b' (x.px r' c) (x.px r' c')) }

/-- `cv2.filter2D(img, -1, kernel)` on doubles for small kernels; `order` is the order in which the products are added, entry
`(i, j)` of the kernel being number `i * k.w + j`. (used at `otf/functional.py`:1288) -/
def filter2DD (fl : ℝ → ℝ) (order : SumTree) (x k : Img) : Except PyErr Img :=
  if x.h = 0 ∨ x.w = 0 ∨ k.h = 0 ∨ k.w = 0 then .error .cv2Error
  else .ok {
    h := x.h
    w := x.w
    px := fun y c => order.sumD fl fun n =>
      fl (k.px (n / k.w) (n % k.w) * x.px (reflect101 x.h ((y : ℤ) + (n / k.w : ℕ) - (k.h / 2 : ℕ)))
        (reflect101 x.w ((c : ℤ) + (n % k.w : ℕ) - (k.w / 2 : ℕ)))) }

/-- The image of `apply_otf_to_image` for a given point spread function and a given number of pixels: blurred, then resampled,
`otf/functional.py`:1288-1291. -/
def blurResampleD (fl fs : ℝ → ℝ) (order : SumTree) (x k : Img) (newW newH : ℕ) : Except PyErr Img := do
  let blur ← filter2DD fl order x k
  cvResizeD fl fs blur newW newH

end PyBSM
