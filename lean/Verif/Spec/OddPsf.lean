import Verif.Spec.Psf

/-!
# Specification vocabulary: point spread functions from OTFs with an odd number of samples, mirror images
-/

noncomputable section

open Classical

namespace PyBSM.Spec

/-- The image seen in a mirror: left and right exchanged. -/
def leftRight (x : Img) : Img := ⟨x.h, x.w, fun i j => x.px i (x.w - 1 - j)⟩

/-- A point spread function multiplied by a cosine wave along the diagonal, one period over `M` pixels down or to the
right (and `M / 2` pixels along the diagonal). -/
def waved (M : ℕ) (h : ℤ → ℤ → ℝ) (a b : ℤ) : ℝ := h a b * Real.cos (2 * Real.pi * ((a + b : ℤ) : ℝ) / M)

/-- Sum of the shares of a point spread function, at most 5 pixels up or left and 4 pixels down or right. -/
def totalOf (h : ℤ → ℤ → ℝ) : ℝ := ∑ a ∈ Finset.Icc (-5 : ℤ) 4, ∑ b ∈ Finset.Icc (-5 : ℤ) 4, h a b

/-- Light spread evenly over 3 x 3 pixels. -/
def evenSpread (a b : ℤ) : ℝ := if -1 ≤ a ∧ a ≤ 1 ∧ -1 ≤ b ∧ b ≤ 1 then 1 / 9 else 0

/-- The OTF is real and unchanged if the sign of one of the two frequencies is changed. -/
def MirrorSymmetric (M N : ℕ) (otf : ℕ → ℕ → ℂ) : Prop :=
  ∀ k < M, ∀ l < N, (otf k l).im = 0 ∧ otf (M - 1 - k) l = otf k l ∧ otf k (N - 1 - l) = otf k l

/-- A dark image of 21 x 21 pixels with a bright pixel in the middle. -/
def brightPoint : Img := ⟨21, 21, fun i j => if i = 10 ∧ j = 10 then 1 else 0⟩

end PyBSM.Spec
