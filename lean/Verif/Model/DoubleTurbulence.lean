import Verif.Model.DoubleGeometry
import Verif.Model.DoubleMtf

/-!
# The coherence diameter of the atmosphere in double precision

The turbulence profile along the line of sight, Fried's coherence diameter and its values across the band, with a rounding
`fl` after every operation. Simplifications: the inputs are numbers; nothing overflows or underflows (far above the ground
`exp(-h / 100)` does, to a term that is negligible there).
-/

noncomputable section

open Classical

namespace PyBSM

/-- `hufnagel_valley_turbulence_profile` at one height, `otf/functional.py`:1080-1084. -/
def hvD (fl : ℝ → ℝ) (L : MathLib) (v cn2 h : ℝ) : ℝ :=
  fl (fl (fl (fl (fl (fl 5.94e-53 * L.sq (fl (v / 27))) * L.pow h 10) * L.exp (fl (-h / 1000)))
    + fl (fl 2.7e-16 * L.exp (fl (-h / 1500)))) + fl (cn2 * L.exp (fl (-h / 100))))

/-- `z_path.max()`, `otf/functional.py`:1046, for `n + 1` positions. -/
def maxD (z : ℕ → ℝ) : ℕ → ℝ
  | 0 => z 0
  | n + 1 => max (maxD z n) (z (n + 1))

/-- Entry `i` of the integrand of `coherence_diameter` for `n` positions, `otf/functional.py`:1046. -/
def pathTermD (fl : ℝ → ℝ) (L : MathLib) (n : ℕ) (z c : ℕ → ℝ) (i : ℕ) : ℝ :=
  fl (c i * L.pow (fl (z i / maxD z (n - 1))) (fl (5 / 3)))

/-- `coherence_diameter` for `n` positions `z` and values `c` of the profile, `otf/functional.py`:1046-1048; `order` is the
order in which `np.trapz` adds. -/
def coherenceD (fl : ℝ → ℝ) (L : MathLib) (order : SumTree) (n : ℕ) (lam : ℝ) (z c : ℕ → ℝ) : ℝ :=
  let sp := order.sumD fl fun i =>
    fl (fl (fl (z (i + 1) - z i) * fl (pathTermD fl L n z c (i + 1) + pathTermD fl L n z c i)) / 2)
  L.pow (fl (fl (sp * fl 0.423) * L.sq (fl (fl (2 * fl Real.pi) / lam)))) (fl (-3 / 5))

/-- `r0_function`, `otf/functional.py`:684-685. -/
def r0D (fl : ℝ → ℝ) (L : MathLib) (r0 wav : ℝ) : ℝ :=
  fl (fl (r0 * L.pow wav (fl (6 / 5))) * L.pow (fl 1e-6) (fl (-6 / 5)))

/-- The coherence diameter that `polychromatic_turbulence_OTF` uses at the wavelength `wav`, `otf/functional.py`:677-685,
for the slant range and the nadir angle the program computes. It is no number if these are none. -/
def friedD (fl cosD acosD : ℝ → ℝ) (L : MathLib) (order : SumTree) (altitude groundRange wind cn2 wav : ℝ) : XR :=
  match slantRangeD fl cosD 0 altitude groundRange with
  | .fin b =>
    let nadir := nadirAngleD fl acosD 0 altitude (.fin b)
    if ∃ i < 10000, pathHeightD fl cosD altitude b nadir i = .nan then .nan
    else .fin (r0D fl L (coherenceD fl L order 10000 (fl 1e-6) (linspaceD fl 0 b 10000)
      fun i => hvD fl L wind cn2 (pathHeightD fl cosD altitude b nadir i).number) wav)
  | _ => .nan

end PyBSM
