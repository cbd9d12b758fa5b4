import Verif.Model.DoubleOtf
import Verif.Model.DoubleEdge
import Verif.Spec.Sensor

/-!
# The system MTF in double precision

The components of `common_OTFs` and their product, with a rounding `fl` after every operation. Simplifications: the
attributes and frequencies are numbers, not infinities or NaN; nothing overflows or underflows; the coherence diameters
are given; there is no sharpening kernel, whose component is then an array of ones.
-/

noncomputable section

open Classical

namespace PyBSM

/-- The mathematical functions the program calls: `x**2.0` (or `x**2`) of a number, `np.arccos`, `np.sin`, `np.tan`,
`np.arctan`, `np.exp` and `x**y` (used in `otf/functional.py`:144-182, 612-614, 768-773, 818-819, 896). -/
structure MathLib where
  sq : ℝ → ℝ
  acos : ℝ → ℝ
  sin : ℝ → ℝ
  tan : ℝ → ℝ
  atan : ℝ → ℝ
  exp : ℝ → ℝ
  pow : ℝ → ℝ → ℝ

/-- `np.sinc(x)` in double precision: `y = pi * where(x == 0, 1.0e-20, x)`, `sin(y) / y` (called at
`otf/functional.py`:369, 491). -/
def sincD (fl : ℝ → ℝ) (L : MathLib) (x : ℝ) : ℝ :=
  let y := fl (fl Real.pi * if x = 0 then fl 1e-20 else x)
  fl (L.sin y / y)

/-- `detector_OTF`, `otf/functional.py`:369. -/
def detectorD (fl : ℝ → ℝ) (L : MathLib) (wx wy f u v : ℝ) : ℝ :=
  fl (sincD fl L (fl (fl (wx * u) / f)) * sincD fl L (fl (fl (wy * v) / f)))

/-- `drift_OTF`, `otf/functional.py`:491. -/
def driftD (fl : ℝ → ℝ) (L : MathLib) (ax ay u v : ℝ) : ℝ :=
  fl (sincD fl L (fl (ax * u)) * sincD fl L (fl (ay * v)))

/-- `jitter_OTF`, `otf/functional.py`:612-614. -/
def jitterD (fl : ℝ → ℝ) (L : MathLib) (sx sy u v : ℝ) : ℝ :=
  L.exp (fl (fl (-2 * L.sq (fl Real.pi)) * fl (fl (L.sq sx * fl (u ^ 2)) + fl (L.sq sy * fl (v ^ 2)))))

/-- `wavefront_OTF`, `otf/functional.py`:818-819. -/
def wavefrontD (fl : ℝ → ℝ) (L : MathLib) (lam pv lx ly u v : ℝ) : ℝ :=
  let autoC := L.exp (fl (-L.sq lam * fl (fl (fl (u / lx) ^ 2) + fl (fl (v / ly) ^ 2))))
  L.exp (fl (-pv * fl (1 - autoC)))

/-- `turbulence_OTF`, `otf/functional.py`:768-773. -/
def turbulenceD (fl : ℝ → ℝ) (L : MathLib) (lam D r alpha u v : ℝ) : ℝ :=
  let rho := radialD fl u v
  L.exp (fl (fl (-fl 3.44 * L.pow (fl (fl (lam * rho) / r)) (fl (5 / 3)))
    * fl (1 - fl (alpha * L.pow (fl (fl (lam * rho) / D)) (fl (1 / 3))))))

/-- `wind_speed_turbulence_OTF`, `otf/functional.py`:896-899. -/
def windD (fl : ℝ → ℝ) (L : MathLib) (lam D r td vel u v : ℝ) : ℝ :=
  let weight := L.exp (fl (fl (-vel * td) / r))
  fl (fl (weight * turbulenceD fl L lam D r 0.5 u v) + fl (fl (1 - weight) * turbulenceD fl L lam D r 0 u v))

/-- `weighted_by_wavelength`, `otf/functional.py`:999-1005, for pairs of distinct wavelengths and their weights; `order` is
the order in which `weights.sum()` adds. No pairs are an `IndexError` in the code. -/
def weightedD (fl : ℝ → ℝ) (order : SumTree) (pairs : List (ℝ × ℝ)) (F : ℝ → ℝ) : ℝ :=
  let total := order.sumD fl fun i => (pairs.getD i (0, 0)).2
  match pairs.map fun p => fl (fl (p.2 / total) * F p.1) with
  | [] => 0
  | a :: l => l.foldl (fun s x => fl (s + x)) a

/-- A number, or 0 for what is none. (Only used for the aperture, which always is a number by C117;
`otf/functional.py`:110-182.) -/
def XR.number : XR → ℝ
  | .fin x => x
  | _ => 0

/-- The `system_OTF` of `common_OTFs` at one pair of frequencies, `otf/functional.py`:1346-1417, for exposure time `t`,
aircraft speed `vel`, ground turbulence `cn2` and coherence diameter `r` at each wavelength. -/
def systemD (fl : ℝ → ℝ) (L : MathLib) (order : SumTree) (s : Spec.RealSensor) (pairs : List (ℝ × ℝ)) (cn2 vel t : ℝ) (r : ℝ → ℝ)
    (u v : ℝ) : ℝ :=
  let ap := weightedD fl order pairs fun l => (apertureD fl L.sq L.acos L.sin L.tan L.atan l s.D s.eta u v).number
  let turb := if 0 < cn2 then weightedD fl order pairs fun l => windD fl L l s.D (r l) (fl (t * s.nTdi)) vel u v else 1
  let det := detectorD fl L s.wX s.wY s.f u v
  let jit := jitterD fl L s.sX s.sY u v
  let drft := driftD fl L (fl (fl (s.daX * t) * s.nTdi)) (fl (fl (s.daY * t) * s.nTdi)) u v
  let wav := weightedD fl order pairs fun l => wavefrontD fl L l (fl (s.pv * L.sq (fl (s.pvWavelength / l)))) s.lX s.lY u v
  fl (fl (fl (fl (fl (fl (ap * turb) * det) * jit) * drft) * wav) * 1)

end PyBSM
