import Verif.Model.DoubleTurbulence
import Verif.Model.DoubleEdge
import Verif.Model.DoubleGiqe
import Verif.Model.DoubleGeometry
import Verif.Model.Decisions
import Verif.Spec.System

/-!
# A rating with GIQE 5 in double precision

The part of `niirs5` that follows the signal-to-noise ratio, with a rounding `fl` after every operation: the grid of
frequencies, the system MTF on it, its slices along the two axes, the relative edge responses, the geometry and the image
quality equation. Library functions are parameters: `L` the mathematical library, `lgD` `np.log10`, `cosD` and `acosD`
`np.cos` and `np.arccos`, `interp` the function that `scipy.interpolate.interp2d` returns for the values on a 101 x 101 grid.
Simplifications: the wavelengths, weights, exposure time and signal-to-noise ratio are numbers; so are the edge responses
(positive, else the logarithm is none); nothing overflows or underflows.
-/

noncomputable section

open Classical

namespace PyBSM

/-- The wavelengths and weights that count: `nm.mtf_wavelengths` and `nm.mtf_weights` of `n` wavelengths `wl` with the weights `w`,
`metrics/functional.py`:544-545. -/
def keptPairs (n : ℕ) (wl w : ℕ → ℝ) : List (ℝ × ℝ) :=
  ((List.range n).map fun i => (wl i, w i)).filter fun p => 0 < p.2

/-- `np.min` of the wavelengths, `metrics/functional.py`:548 (an exception for none; not modelled). -/
def minD : List ℝ → ℝ
  | [] => 0
  | a :: l => l.foldl min a

/-- Entry `j` of `u_rng` for the cutoff frequency `c`, `metrics/functional.py`:549. -/
def gridUD (fl : ℝ → ℝ) (c : ℝ) (j : ℕ) : ℝ := fl (linspaceD fl (-1) 1 101 j * c)

/-- Entry `i` of `v_rng`, `metrics/functional.py`:550. -/
def gridVD (fl : ℝ → ℝ) (c : ℝ) (i : ℕ) : ℝ := fl (linspaceD fl 1 (-1) 101 i * c)

/-- `df`, `metrics/functional.py`:552. -/
def stepD (fl : ℝ → ℝ) (c : ℝ) : ℝ := fl (gridUD fl c 1 - gridUD fl c 0)

/-- Entry `k` of `r` of `slice_otf` for an `n x n` OTF, `otf/functional.py`:1174-1176. -/
def sliceRadiusD (fl : ℝ → ℝ) (n k : ℕ) : ℝ :=
  (arangeD fl 0 1 (fl (linspaceD fl (-1) 1 n 1 - linspaceD fl (-1) 1 n 0))).getD k 0

/-- Entry `k` of `r * np.cos(ang)` (`a = np.cos(ang)`) or of `r * np.sin(ang)` of `slice_otf`, in the ascending order in
which `interp2d` visits it, `otf/functional.py`:1179. -/
def slicePointD (fl : ℝ → ℝ) (n : ℕ) (a : ℝ) (k : ℕ) : ℝ :=
  fl (sliceRadiusD fl n (if 0 ≤ a then k else sliceCountD fl n - 1 - k) * a)

/-- Entry `k` of `slice_otf`, `otf/functional.py`:1178-1179, for a 101 x 101 OTF. -/
def sliceD (fl cosD sinD : ℝ → ℝ) (interp : (ℕ → ℕ → ℝ) → ℝ → ℝ → ℝ) (G : ℕ → ℕ → ℝ) (ang : ℝ) (k : ℕ) : ℝ :=
  interp G (slicePointD fl 101 (cosD ang) k) (slicePointD fl 101 (sinD ang) k)

/-- `giqe5_RER` of a 101 x 101 MTF, `metrics/functional.py`:201-207. -/
def giqe5RerD (fl cosD sinD : ℝ → ℝ) (order : SumTree) (interp : (ℕ → ℕ → ℝ) → ℝ → ℝ → ℝ) (G : ℕ → ℕ → ℝ) (df ifovX ifovY : ℝ) : ℝ × ℝ :=
  (relativeEdgeResponseD fl sinD order (sliceD fl cosD sinD interp G 0) df ifovX,
    relativeEdgeResponseD fl sinD order (sliceD fl cosD sinD interp G (fl (fl Real.pi / 2))) df ifovY)

/-- `np.abs(otf.system_OTF)` of `niirs5`, `metrics/functional.py`:548-571, for the wavelengths and weights `pairs` and the exposure
time `t`; `order` and `order'` are the orders in which the weights and the turbulence along the path are added. -/
def mtfGridD (fl cosD acosD : ℝ → ℝ) (L : MathLib) (order order' : SumTree) (s : Spec.RealSensor) (g : Spec.RealScene)
    (pairs : List (ℝ × ℝ)) (t c : ℝ) (i j : ℕ) : ℝ :=
  |systemD fl L order s pairs g.cn2 g.aircraftSpeed t
    (fun l => (friedD fl cosD acosD L order' g.altitude g.groundRange g.windSpeed g.cn2 l).number) (gridUD fl c j) (gridVD fl c i)|

/-- `niirs` of `niirs5`, `metrics/functional.py`:548-582, for the wavelengths and weights `pairs`, the exposure time `t` and the
signal-to-noise ratio `snr` of a frame; `order''` is the order in which the terms of an edge response are added. -/
def niirs5D (fl lgD cosD acosD : ℝ → ℝ) (L : MathLib) (interp : (ℕ → ℕ → ℝ) → ℝ → ℝ → ℝ) (order order' order'' : SumTree)
    (s : Spec.RealSensor) (g : Spec.RealScene) (pairs : List (ℝ × ℝ)) (t snr : ℝ) : XR :=
  let c := fl (s.D / minD (pairs.map (·.1)))
  let ifovX := fl (s.pX / s.f)
  let ifovY := fl (s.pY / s.f)
  let rer := giqe5RerD fl cosD L.sin order'' interp (mtfGridD fl cosD acosD L order order' s g pairs t c) (stepD fl c) ifovX ifovY
  match slantRangeD fl cosD 0 g.altitude g.groundRange with
  | .fin b =>
    match elevationD fl (nadirAngleD fl acosD 0 g.altitude (.fin b)) with
    | .fin e => .fin (giqe5D fl lgD L.sin L.exp L.pow rer.1 rer.2 (fl (ifovX * b)) (fl (fl (Real.sqrt s.frameStacks) * snr)) e)
    | _ => .nan
  | _ => .nan

end PyBSM
