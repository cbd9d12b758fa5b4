import Verif.Model.DoubleMtf

/-!
# The other component OTFs in double precision

The components that `common_OTFs` does not use, with a rounding `fl` after every operation. Simplifications: the arguments
and frequencies are numbers, not infinities or NaN; nothing overflows or underflows.
-/

noncomputable section

open Classical

namespace PyBSM

/-- `gaussian_OTF`, `otf/functional.py`:580-583. -/
def gaussianD (fl : ℝ → ℝ) (L : MathLib) (bx bY u v : ℝ) : ℝ :=
  let fcX := fl (1 / bx)
  let fcY := fl (1 / bY)
  L.exp (fl (-fl Real.pi * fl (fl (fl (u / fcX) ^ 2) + fl (fl (v / fcY) ^ 2))))

/-- `defocus_OTF`, `otf/functional.py`:338-340. -/
def defocusD (fl : ℝ → ℝ) (L : MathLib) (wx wy u v : ℝ) : ℝ :=
  L.exp (fl (fl (-L.sq (fl Real.pi) / 4) * fl (fl (L.sq wx * fl (u ^ 2)) + fl (L.sq wy * fl (v ^ 2)))))

/-- `wavefront_OTF_2`, `otf/functional.py`:852-854. -/
def wavefront2D (fl : ℝ → ℝ) (L : MathLib) (cutoff wRms u v : ℝ) : ℝ :=
  let v' := fl (radialD fl u v / cutoff)
  fl (1 - fl (L.sq (fl (wRms / fl 0.18)) * fl (1 - fl (4 * fl (fl (v' - 0.5) ^ 2)))))

/-- The inner `cte_OTF_xy`, `otf/functional.py`:301-306; `cosD` is `np.cos`. -/
def cteXYD (fl : ℝ → ℝ) (L : MathLib) (cosD : ℝ → ℝ) (n pu phasesN cteEff f : ℝ) : ℝ :=
  L.exp (fl (fl (fl (fl (-1 * phasesN) * n) * fl (1 - cteEff)) * fl (1 - cosD (fl (fl (fl (2 * fl Real.pi) * pu) / f)))))

/-- `cte_OTF`, `otf/functional.py`:308-310. -/
def cteD (fl : ℝ → ℝ) (L : MathLib) (cosD : ℝ → ℝ) (pX pY nX nY phasesN cteEff f u v : ℝ) : ℝ :=
  fl (cteXYD fl L cosD nX (fl (pX * u)) phasesN cteEff f * cteXYD fl L cosD nY (fl (pY * v)) phasesN cteEff f)

/-- The aggregation sum in one direction, the loop at `otf/functional.py`:413-419. -/
def aggSumD (fl cosD : ℝ → ℝ) (n : ℕ) (p u f : ℝ) : ℝ :=
  (List.range n).foldl (fun acc (i : ℕ) =>
    fl (acc + cosD (fl (fl (2 * fl Real.pi) * fl (fl (fl (fl (i * p) * u) / f)
      - fl (fl (fl (fl (fl (n - 1) * p) * u) / 2) / f)))))) 0

/-- `detector_OTF_with_aggregation` for `n ≠ 0`, `otf/functional.py`:413-423. -/
def aggregationD (fl : ℝ → ℝ) (L : MathLib) (cosD : ℝ → ℝ) (wX wY pX pY f : ℝ) (n : ℕ) (u v : ℝ) : ℝ :=
  fl (fl (fl (fl (aggSumD fl cosD n pX u f * aggSumD fl cosD n pY v f) / (n : ℝ) ^ 2)
    * sincD fl L (fl (fl (wX * u) / f))) * sincD fl L (fl (fl (wY * v) / f)))

/-- The inner `diffusion_OTF_params`, `otf/functional.py`:454-457. -/
def diffusionParamsD (fl : ℝ → ℝ) (L : MathLib) (al alpha ald : ℝ) : ℝ :=
  fl (1 - fl (L.exp (fl (-alpha * ald)) / fl (1 + fl (alpha * al))))

/-- `diffusion_OTF`, `otf/functional.py`:459-465; `x**(-1)` of an array is `1/x`. -/
def diffusionD (fl : ℝ → ℝ) (L : MathLib) (alpha ald al0 f u v : ℝ) : ℝ :=
  let rho := radialD fl u v
  let alRho := fl (Real.sqrt (fl (1 / fl (fl (1 / L.sq al0) + fl (fl (fl (fl (2 * fl Real.pi) * rho) / f) ^ 2)))))
  fl (diffusionParamsD fl L alRho alpha ald / diffusionParamsD fl L al0 alpha ald)

end PyBSM
