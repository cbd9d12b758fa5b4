import Mathlib.Analysis.SpecialFunctions.Log.Base
import Mathlib.Analysis.SpecialFunctions.Pow.Real
import Mathlib.Analysis.SpecialFunctions.Trigonometric.Basic

/-!
# Specification vocabulary: the General Image Quality Equation

The published regressions, over the reals; ground sample distances in metres (one inch is 0.0254 m).
-/

noncomputable section

namespace PyBSM.Spec

/-- base 10 logarithm -/
def lg (x : ℝ) : ℝ := Real.logb 10 x

/-- GIQE 3 -/
def niirs3 (rer gsd eho ng snr : ℝ) : ℝ :=
  11.81 + 3.32 * lg (rer / (gsd / 0.0254)) - 1.48 * eho - ng / snr

/-- ground-plane GSD of GIQE 4 (`p = 1/2`) and weighted GSD of GIQE 5 (`p = 1/4`) -/
def projectedGsd (p gsd elev : ℝ) : ℝ := gsd / Real.sin elev ^ p

/-- GIQE 4 with given coefficients -/
def niirs4 (c1 c2 rer gsd eho ng snr elev : ℝ) : ℝ :=
  10.251 - c1 * lg (projectedGsd (1 / 2) gsd elev / 0.0254) + c2 * lg rer - 0.656 * eho - 0.334 * ng / snr

/-- combined relative edge response of GIQE 5 -/
def rer5 (r1 r2 : ℝ) : ℝ := (max r1 r2 * min r1 r2 ^ 2) ^ (1 / 3 : ℝ)

/-- GIQE 5 -/
def niirs5 (r1 r2 gsd snr elev : ℝ) : ℝ :=
  9.57 - 3.32 * lg (projectedGsd (1 / 4) gsd elev / 0.0254)
    + 3.32 * (1 - Real.exp (-1.9 / snr)) * lg (rer5 r1 r2) - 2 * lg (rer5 r1 r2) ^ 4 - 1.8 / snr

end PyBSM.Spec
