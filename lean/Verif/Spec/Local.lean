import Verif.Spec.Registration

/-!
# Specification vocabulary: what a simulated pixel can see
-/

noncomputable section

open Classical

namespace PyBSM.Spec

/-- The images have the same size and the same pixels less than `a` rows and `b` columns from the position `(t, u)`. -/
structure SameAround (x y : Img) (t u a b : ℝ) : Prop where
  h : x.h = y.h
  w : x.w = y.w
  px : ∀ i < x.h, ∀ j < x.w, |(i : ℝ) - t| < a → |(j : ℝ) - u| < b → x.px i j = y.px i j

end PyBSM.Spec
