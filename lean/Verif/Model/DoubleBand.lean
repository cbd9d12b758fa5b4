import Verif.Model.DoubleTurbulence

/-!
# Coherence diameter of a band in double precision
-/

noncomputable section

open Classical

namespace PyBSM

/-- `r0_band` of `polychromatic_turbulence_OTF`, `otf/functional.py`:677-687, for pairs of distinct wavelengths and their weights; `sumOrder`
and `order` are the orders in which `weights.sum()` and `np.trapz` add. -/
def bandD (fl cosD acosD : ℝ → ℝ) (L : MathLib) (sumOrder order : SumTree) (pairs : List (ℝ × ℝ)) (altitude groundRange wind cn2 : ℝ) : ℝ :=
  weightedD fl sumOrder pairs fun wav => (friedD fl cosD acosD L order altitude groundRange wind cn2 wav).number

end PyBSM
