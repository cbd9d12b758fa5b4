import Verif.Model.Rounded

/-!
# The noise break-out of a rating in floating-point arithmetic

The operations of `metrics/functional.py`:333-379 (`niirs`; the same in `niirs5`, :494-540), in their order.
-/

noncomputable section

open Classical

namespace PyBSM

open Expr

/-- `nm.snr.tgt_FPA_irradiance - nm.snr.other_irradiance`, `metrics/functional.py`:339 (and :354 for the background): the
irradiance of scene and camera together, less that of the camera. -/
def netExpr (D f : ℝ) (L t o : Expr) : Expr := sub (fpaExpr D f L t o) o

/-- The number whose root is `tgt_noise` or `bkg_noise`, `metrics/functional.py`:337-348 and 352-363. -/
def scenePhotonExpr (order : SumTree) (D f wx wy k : ℝ) (wl : ℕ → ℝ) (L t q o : ℕ → Expr) (exposure : Expr) : Expr :=
  mul (mul (order.expr (trapTermExpr wl fun i => detectionExpr wx wy (wl i) (q i) (netExpr D f (L i) (t i) (o i)))) exposure)
    (val k)

/-- `nm.atm[:, 2] + nm.atm[:, 4]`, `metrics/functional.py`:368, for the row `a`. -/
def pathRadianceExpr (a : Fin 6 → ℝ) : Expr := add (val (a 2)) (val (a 4))

/-- The number whose root is `path_noise`, `metrics/functional.py`:366-378 (`np.zeros(1)` is the camera's irradiance, `0.0` the
dark current). -/
def pathPhotonExpr (order : SumTree) (D f wx wy k : ℝ) (wl : ℕ → ℝ) (P t q : ℕ → Expr) (exposure : Expr) : Expr :=
  mul (mul (signalRateExpr order D f wx wy 0 wl P t q fun _ => val 0) exposure) (val k)

/-- The number whose root is `scene_noise`, `metrics/functional.py`:364 and 379, for the numbers whose roots are `tgt_noise`,
`bkg_noise` and `path_noise`. -/
def sceneSquareExpr (T B P : Expr) : Expr := sub (sq (max (sqrt T) (sqrt B))) (sq (sqrt P))

end PyBSM
