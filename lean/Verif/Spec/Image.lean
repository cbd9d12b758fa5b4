import Verif.Model.OtfImage

/-!
# Specification vocabulary: images and point spread functions
-/

noncomputable section

namespace PyBSM.Spec

/-- All pixels of the image lie between `lo` and `hi`. -/
def Within (x : Img) (lo hi : ℝ) : Prop := ∀ i < x.h, ∀ j < x.w, lo ≤ x.px i j ∧ x.px i j ≤ hi

/-- The two images have the same size and the same pixels. -/
structure SameImg (x y : Img) : Prop where
  h : x.h = y.h
  w : x.w = y.w
  px : ∀ i < x.h, ∀ j < x.w, x.px i j = y.px i j

/-- The image of the given size with a single pixel of value 1, the others 0. -/
def impulse (h w a b : ℕ) : Img := ⟨h, w, fun i j => if i = a ∧ j = b then 1 else 0⟩

/-- The inverse discrete Fourier transform with both origins at the centre sample `(M/2, N/2)`: the point spread
function of an OTF whose zero frequency is the centre sample. -/
def centredPsf (M N : ℕ) (otf : ℕ → ℕ → ℂ) (i j : ℕ) : ℂ :=
  (1 / ((M : ℂ) * N)) * ∑ k ∈ Finset.range M, ∑ l ∈ Finset.range N,
    otf k l * Complex.exp (2 * Real.pi * Complex.I
      * (((k : ℂ) - (M / 2 : ℕ)) * ((i : ℂ) - (M / 2 : ℕ)) / M + ((l : ℂ) - (N / 2 : ℕ)) * ((j : ℂ) - (N / 2 : ℕ)) / N))

/-- `n` is a nearest integer to `x`, and even if there are two. -/
def IsRoundHalfEven (x : ℝ) (n : ℤ) : Prop :=
  |x - n| ≤ 1 / 2 ∧ (|x - n| = 1 / 2 → Even n)

end PyBSM.Spec
