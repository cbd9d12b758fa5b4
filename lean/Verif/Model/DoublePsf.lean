import Verif.Model.OtfImage
import Verif.Model.DoubleEdge

/-!
# Normalising and cropping a point spread function in double precision

The last steps of `otf_to_psf`, from the resampled transform to the kernel, with a rounding `fl` after every operation.
Simplifications: nothing overflows or underflows; the transform itself and its resampling (C144) come before.
-/

noncomputable section

open Classical

namespace PyBSM

/-- The last steps of `otf_to_psf` in exact arithmetic, `otf/functional.py`:945-967: the resampled transform `q` is normalised,
cropped to one of the sizes `sizes` and normalised again. -/
def finishPsf (q : Img) (sizes : List ℕ) : Except PyErr Img := do
  let psf ← normalize q
  let k ← supportSize psf sizes
  normalize (getMiddle psf k)

/-- `x.sum()` of an array of doubles; `ord h w` is the order in which numpy adds the entries of an array of `h` rows of `w`
entries, entry `(i, j)` being number `i * w + j`. (used at `otf/functional.py`:945, 963, 967) -/
def imgSumD (fl : ℝ → ℝ) (ord : ℕ → ℕ → SumTree) (x : Img) : ℝ := (ord x.h x.w).sumD fl fun n => x.px (n / x.w) (n % x.w)

/-- `x / x.sum()`; a zero sum would give non-finite pixels. (used at `otf/functional.py`:945, 967) -/
def normalizeD (fl : ℝ → ℝ) (ord : ℕ → ℕ → SumTree) (x : Img) : Except PyErr Img :=
  if imgSumD fl ord x = 0 then .error .outsideModel
  else .ok { x with px := fun i j => fl (x.px i j / imgSumD fl ord x) }

/-- The search for the support region, `otf/functional.py`:961-964. -/
def supportSizeD (fl : ℝ → ℝ) (ord : ℕ → ℕ → SumTree) (psf : Img) : List ℕ → Except PyErr ℕ
  | [] => .error .unboundLocalError
  | [k] => .ok k
  | k :: ks => if fl 0.95 < imgSumD fl ord (getMiddle psf k) then .ok k else supportSizeD fl ord psf ks

/-- The last steps of `otf_to_psf`, `otf/functional.py`:945-967. -/
def finishPsfD (fl : ℝ → ℝ) (ord : ℕ → ℕ → SumTree) (q : Img) (sizes : List ℕ) : Except PyErr Img := do
  let psf ← normalizeD fl ord q
  let k ← supportSizeD fl ord psf sizes
  normalizeD fl ord (getMiddle psf k)

end PyBSM
