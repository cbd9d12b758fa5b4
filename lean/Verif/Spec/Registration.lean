import Verif.Spec.Psf

/-!
# Specification vocabulary: where things appear in a simulated image
-/

noncomputable section

open Classical

namespace PyBSM.Spec

/-- The brightness rises by `b` per row and by `c` per column. -/
def Ramp (x : Img) (a b c : ℝ) : Prop := ∀ i < x.h, ∀ j < x.w, x.px i j = a + b * i + c * j

/-- The image turned upside down (by 180 degrees). -/
def upsideDown (x : Img) : Img := ⟨x.h, x.w, fun i j => x.px (x.h - 1 - i) (x.w - 1 - j)⟩

/-- The OTF is real and the same at opposite frequencies (the centre sample is the zero frequency). -/
def PointSymmetric (M N : ℕ) (otf : ℕ → ℕ → ℂ) : Prop :=
  ∀ k < M, ∀ l < N, (otf k l).im = 0 ∧ otf (M - 1 - k) (N - 1 - l) = otf k l

/-- The position among `src` samples (0 is the centre of the first) that is at the centre of sample `d` of `dst` samples
covering the same length. -/
def positionOf (src dst d : ℕ) : ℝ := ((d : ℝ) + 1 / 2) * (src / dst) - 1 / 2

/-- Half a sample if `n` is even. -/
def halfIfEven (n : ℕ) : ℝ := if n % 2 = 0 then 1 / 2 else 0

/-- Angle in radians of a length `g` seen from the distance `r`. -/
def pixelAngle (g r : ℝ) : ℝ := 2 * Real.arctan (g / 2 / r)

/-- The point spread function of an `M × N` OTF, resampled to `n × n'` pixels, is cropped around its centre: it has at
least as many pixels as the OTF, or its middle part of one of the sizes 10, 15, … holds more than 95 % of the total, or it
has at most 3 pixels a side, which are all kept. (In between, the middle of a larger size is not the middle.) -/
def CroppedEvenly (M N : ℕ) (otf : ℕ → ℕ → ℂ) (n n' : ℕ) : Prop :=
  min M N ≤ min n n'
  ∨ (∃ q m, cvResize (rawPsf M N otf) n' n = .ok q ∧ Candidate (min M N) m ∧ m ≤ min n n' ∧ 0.95 < share q (middle q m))
  ∨ max n n' ≤ 3

end PyBSM.Spec
