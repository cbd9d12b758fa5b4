import Verif.Spec.Double
import Verif.Spec.Image

/-!
# Specification of blurred and resampled images up to rounding (C144)
-/

noncomputable section

namespace PyBSM.Spec

/-- `fs` rounds to single precision: accurate to 6 parts in `10^8`, keeping order, and keeping whole numbers up to `2^24`. -/
structure SinglePrecision (fs : ℝ → ℝ) : Prop where
  accurate : SingleAccuracy fs
  mono : Monotone fs
  whole : ∀ n : ℕ, n ≤ 2 ^ 24 → fs n = n

/-- No pixel is larger than `M` in size. -/
def Bounded (x : Img) (M : ℝ) : Prop := ∀ i < x.h, ∀ j < x.w, |x.px i j| ≤ M

/-- The two images have the same size and their pixels differ by at most `e`. -/
structure CloseImg (x y : Img) (e : ℝ) : Prop where
  h : x.h = y.h
  w : x.w = y.w
  px : ∀ i < y.h, ∀ j < y.w, |x.px i j - y.px i j| ≤ e

/-- The sum of the sizes of the entries. -/
def grossSum (k : Img) : ℝ := ∑ i ∈ Finset.range k.h, ∑ j ∈ Finset.range k.w, |k.px i j|

end PyBSM.Spec
