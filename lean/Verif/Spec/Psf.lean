import Verif.Spec.Image

/-!
# Specification vocabulary: the part of a point spread function that is kept
-/

noncomputable section

namespace PyBSM.Spec

/-- The part in the middle of an image: `k` rows, one more if the image has an odd number of rows beyond these, and
likewise for the columns. -/
def middle (x : Img) (k : ℕ) : Img :=
  ⟨k + (x.h - k) % 2, k + (x.w - k) % 2, fun i j => x.px ((x.h - k) / 2 + i) ((x.w - k) / 2 + j)⟩

/-- The share of the part in the total of the image. -/
def share (x part : Img) : ℝ := part.sum / x.sum

/-- `p` is the part, rescaled to sum 1. -/
structure Rescaled (p part : Img) : Prop where
  h : p.h = part.h
  w : p.w = part.w
  px : ∀ i < p.h, ∀ j < p.w, p.px i j * part.sum = part.px i j
  sum : p.sum = 1

/-- The numbers 10, 15, 20, … below `n`. -/
def Candidate (n k : ℕ) : Prop := k < n ∧ ∃ i, k = 10 + 5 * i

/-- The image continued beyond its border as in a mirror standing on the outermost pixels: position `-1` shows pixel 1,
position `n` shows pixel `n - 2` (one reflection, for positions less than `n` away from the border). -/
def mirrored (n : ℕ) (p : ℤ) : ℕ :=
  if p < 0 then (-p).toNat else if p ≤ (n : ℤ) - 1 then p.toNat else (2 * ((n : ℤ) - 1) - p).toNat

/-- `z` is the image `α x + β y`, pixel by pixel (all three of the same size). -/
structure Mixture (α β : ℝ) (x y z : Img) : Prop where
  hx : z.h = x.h
  wx : z.w = x.w
  hy : z.h = y.h
  wy : z.w = y.w
  px : ∀ i < z.h, ∀ j < z.w, z.px i j = α * x.px i j + β * y.px i j

/-- A point spread function by pixel offsets: `h a b` is the share of a point's light found `a` rows below and `b` columns
to the right of it; not more than 5 pixels up or left, 4 pixels down or right; in total 1. -/
structure PointSpread (h : ℤ → ℤ → ℝ) : Prop where
  support : ∀ a b, ¬ (-5 ≤ a ∧ a ≤ 4 ∧ -5 ≤ b ∧ b ≤ 4) → h a b = 0
  total : ∑ a ∈ Finset.Icc (-5 : ℤ) 4, ∑ b ∈ Finset.Icc (-5 : ℤ) 4, h a b = 1

/-- Its transfer function: sample `(k, l)` of an `M x N` array whose centre sample is the zero frequency is the Fourier
transform at `(k - M/2) / M` cycles per row and `(l - N/2) / N` cycles per column. -/
def transfer (M N : ℕ) (h : ℤ → ℤ → ℝ) (k l : ℕ) : ℂ :=
  ∑ a ∈ Finset.Icc (-5 : ℤ) 4, ∑ b ∈ Finset.Icc (-5 : ℤ) 4, (h a b : ℂ) * Complex.exp (-(2 * Real.pi * Complex.I)
    * (((k : ℂ) - (M / 2 : ℕ)) * a / M + ((l : ℂ) - (N / 2 : ℕ)) * b / N))

end PyBSM.Spec
