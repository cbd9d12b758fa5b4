import Verif.Model.Double

/-!
# The image quality equations in double precision

`giqe3`, `giqe4` and `giqe5` with a rounding `fl` after every operation. `lgD`, `sinD`, `expD` and `powD` are `np.log10`,
`np.sin`, `np.exp` and `**` of the mathematical library. Simplifications: all inputs are numbers, the SNR is not zero,
and nothing overflows or underflows.
-/

noncomputable section

open Classical

namespace PyBSM

/-- `giqe3` in double precision, `metrics/functional.py`:72. -/
def giqe3D (fl lgD : ℝ → ℝ) (rer gsd eho ng snr : ℝ) : ℝ :=
  let g := fl (gsd / fl 0.0254)
  let q := fl (rer / g)
  fl (fl (fl (fl 11.81 + fl (fl 3.32 * lgD q)) - fl (fl 1.48 * eho)) - fl (ng / snr))

/-- The projected ground sample distance of `giqe4` (`p = 0.5`) and `giqe5` (`p = 0.25`) in double precision,
`metrics/functional.py`:115, 165. -/
def projectedGsdD (fl sinD : ℝ → ℝ) (powD : ℝ → ℝ → ℝ) (p gsd elev : ℝ) : ℝ := fl (gsd / powD (sinD elev) p)

/-- The score of `giqe4` in double precision, `metrics/functional.py`:108-119. -/
def giqe4D (fl lgD sinD : ℝ → ℝ) (powD : ℝ → ℝ → ℝ) (rer gsd eho ng snr elev : ℝ) : ℝ :=
  let c1 := if fl 0.9 ≤ rer then fl 3.32 else fl 3.16
  let c2 := if fl 0.9 ≤ rer then fl 1.559 else fl 2.817
  let g := projectedGsdD fl sinD powD 0.5 gsd elev
  fl (fl (fl (fl (fl 10.251 - fl (c1 * lgD (fl (g / fl 0.0254)))) + fl (c2 * lgD rer)) - fl (fl 0.656 * eho))
    - fl (fl (fl 0.334 * ng) / snr))

/-- The combined relative edge response of `giqe5` in double precision, `metrics/functional.py`:167. -/
def rer5D (fl : ℝ → ℝ) (powD : ℝ → ℝ → ℝ) (r1 r2 : ℝ) : ℝ := powD (fl (max r1 r2 * powD (min r1 r2) 2)) (fl (1 / 3))

/-- The score of `giqe5` in double precision, `metrics/functional.py`:165-175. -/
def giqe5D (fl lgD sinD expD : ℝ → ℝ) (powD : ℝ → ℝ → ℝ) (r1 r2 gsd snr elev : ℝ) : ℝ :=
  let g := projectedGsdD fl sinD powD 0.25 gsd elev
  let l := lgD (rer5D fl powD r1 r2)
  fl (fl (fl (fl (fl 9.57 - fl (fl 3.32 * lgD (fl (g / fl 0.0254))))
    + fl (fl (fl 3.32 * fl (1 - expD (fl (-fl 1.9 / snr)))) * l)) - fl (2 * powD l 4)) - fl (fl 1.8 / snr))

end PyBSM
