import Verif.Num.Rounding
import Verif.Model.Radiance

/-!
# The signal chain in floating-point arithmetic

The operations that `signal_rate` and `photon_detector_SNR` (`radiance/functional.py`) perform, in their order, as
expressions (`Expr`). An expression has one exact value (`Expr.exact`) and many possible computed ones (`Expr.Computed`):
each operation may be off by the relative error `u`. Where the program uses a computed number twice the two uses may
even differ here, so that a bound for all computed values holds for the program.

`numpy` adds the terms of a sum in an order of its own (in blocks, pairwise); here: any order and any bracketing
(`SumTree`).

Overflow and underflow: see `Model/Ieee.lean`.
-/

noncomputable section

open Classical

namespace PyBSM

/-- A computation. -/
inductive Expr
  /-- a number given exactly -/
  | val (x : ℝ)
  /-- a number rounded once: a constant that is no double, or the result of one operation on given numbers -/
  | lit (x : ℝ)
  /-- a number that an earlier computation has left with up to `j` rounding errors -/
  | approx (x : ℝ) (j : ℕ)
  | add (a b : Expr)
  | mul (a b : Expr)
  | div (a b : Expr)
  | sqrt (a : Expr)
  /-- `np.max([a, b])` -/
  | max (a b : Expr)
  /-- `check_well_fill(a, cap)`, `radiance/functional.py`:141-144 -/
  | fill (a cap : Expr)
  | sub (a b : Expr)
  | exp (a : Expr)
  /-- `np.interp` at `x` strictly between the neighbouring table points `(x0, y0)` and `(x1, y1)` -/
  | lerp (x0 y0 x1 y1 x : ℝ)

namespace Expr

/-- The value in exact arithmetic. -/
def exact : Expr → ℝ
  | val x => x
  | lit x => x
  | approx x _ => x
  | add a b => a.exact + b.exact
  | mul a b => a.exact * b.exact
  | div a b => a.exact / b.exact
  | sqrt a => Real.sqrt a.exact
  | max a b => Max.max a.exact b.exact
  | fill a cap => if cap.exact < a.exact then cap.exact / a.exact else 1
  | sub a b => a.exact - b.exact
  | exp a => Real.exp a.exact
  | lerp x0 y0 x1 y1 x => (y1 - y0) / (x1 - x0) * (x - x0) + y0

/-- The values that a computation with relative error up to `u` in each operation may give. -/
inductive Computed (u : ℝ) : Expr → ℝ → Prop
  | val (x : ℝ) : Computed u (val x) x
  | lit {x r : ℝ} : Rnd u x r → Computed u (lit x) r
  | approx {x r : ℝ} {j : ℕ} : x * (1 - u) ^ j ≤ r → r * (1 - u) ^ j ≤ x → Computed u (approx x j) r
  | add {a b : Expr} {x y r : ℝ} : Computed u a x → Computed u b y → Rnd u (x + y) r → Computed u (add a b) r
  | mul {a b : Expr} {x y r : ℝ} : Computed u a x → Computed u b y → Rnd u (x * y) r → Computed u (mul a b) r
  | div {a b : Expr} {x y r : ℝ} : Computed u a x → Computed u b y → Rnd u (x / y) r → Computed u (div a b) r
  | sqrt {a : Expr} {x r : ℝ} : Computed u a x → Rnd u (Real.sqrt x) r → Computed u (sqrt a) r
  | max {a b : Expr} {x y : ℝ} : Computed u a x → Computed u b y → Computed u (max a b) (Max.max x y)
  | cut {a cap : Expr} {x y r : ℝ} : Computed u a x → Computed u cap y → y < x → Rnd u (y / x) r →
      Computed u (fill a cap) r
  | keep {a cap : Expr} {x y : ℝ} : Computed u a x → Computed u cap y → ¬ y < x → Computed u (fill a cap) 1
  | sub {a b : Expr} {x y r : ℝ} : Computed u a x → Computed u b y → Rnd u (x - y) r → Computed u (sub a b) r
  | exp {a : Expr} {x r : ℝ} : Computed u a x → Rnd u (Real.exp x) r → Computed u (exp a) r
  | lerp {x0 y0 x1 y1 x dy dx slope d p r : ℝ} : Rnd u (y1 - y0) dy → Rnd u (x1 - x0) dx → Rnd u (dy / dx) slope →
      Rnd u (x - x0) d → Rnd u (slope * d) p → Rnd u (p + y0) r → Computed u (lerp x0 y0 x1 y1 x) r

/-- `np.sqrt(x)**2` and the like: the square of a computed number. -/
def sq (a : Expr) : Expr := mul a a

end Expr

/-- An order in which the terms `0, 1, …` of a sum are added; a partial sum may start at zero. -/
inductive SumTree
  | zero
  | leaf (i : ℕ)
  | node (a b : SumTree)

namespace SumTree

/-- The terms added. -/
def leaves : SumTree → List ℕ
  | zero => []
  | leaf i => [i]
  | node a b => a.leaves ++ b.leaves

/-- The largest number of additions that a term goes through. -/
def depth : SumTree → ℕ
  | zero => 0
  | leaf _ => 0
  | node a b => Max.max a.depth b.depth + 1

/-- The additions. -/
def expr (f : ℕ → Expr) : SumTree → Expr
  | zero => .val 0
  | leaf i => f i
  | node a b => .add (a.expr f) (b.expr f)

/-- Adding from left to right, starting at zero. -/
def sequential : ℕ → SumTree
  | 0 => zero
  | n + 1 => node (sequential n) (leaf n)

end SumTree

open Expr

/-- `at_focal_plane_irradiance`, `radiance/functional.py`:93, `L * np.pi / (1.0 + 4.0 * (f / D) ** 2.0)`. -/
def irradianceExpr (D f : ℝ) (L : Expr) : Expr :=
  div (mul L (lit Real.pi)) (add (val 1) (mul (val 4) (sq (div (val f) (val D)))))

/-- `tgt_FPA_irradiance`, `radiance/functional.py`:727-730. -/
def fpaExpr (D f : ℝ) (L t o : Expr) : Expr := add (mul t (irradianceExpr D f L)) o

/-- `photon_detection_rate`, `radiance/functional.py`:372, `(wavelengths / (hc * cc)) * qe * w_x * w_y * E`. -/
def detectionExpr (wx wy lam : ℝ) (q E : Expr) : Expr :=
  mul (mul (mul (mul (div (val lam) (mul (lit hC) (lit cC))) q) (val wx)) (val wy)) E

/-- A term of `np.trapz`, `d * (y[1:] + y[:-1]) / 2.0` with `d = diff(x)` (used at `radiance/functional.py`:738). -/
def trapTermExpr (x : ℕ → ℝ) (y : ℕ → Expr) (i : ℕ) : Expr :=
  div (mul (lit (x (i + 1) - x i)) (add (y (i + 1)) (y i))) (val 2)

/-- `tgt_rate` of `signal_rate`, `radiance/functional.py`:727-738, adding in the order `order`. -/
def signalRateExpr (order : SumTree) (D f wx wy dark : ℝ) (wl : ℕ → ℝ) (L t q o : ℕ → Expr) : Expr :=
  add (order.expr (trapTermExpr wl fun i => detectionExpr wx wy (wl i) (q i) (fpaExpr D f (L i) (t i) (o i)))) (val dark)

/-- `snr.tgt_n` before the well is checked, `radiance/functional.py`:464, 478. -/
def countExpr (t k : ℝ) (rate : Expr) : Expr := mul (mul rate (val t)) (val k)

/-- `scale_factor`, `radiance/functional.py`:482-484. -/
def scaleExpr (W M : ℝ) (a b : Expr) : Expr := fill (max a b) (mul (val W) (val M))

/-- `noise.quantization_noise`, `noise.py`:83. `2.0**bit_depth - 1.0` is exact for a whole number of up to 53 bits. -/
def quantExpr (M bits : ℝ) : Expr := div (val M) (mul (lit (Real.sqrt 12)) (val ((2 : ℝ) ^ bits - 1)))

/-- `snr.total_noise`, `radiance/functional.py`:499, 522-527, for the counts `a` and `b`. -/
def noiseExpr (order : SumTree) (M bits read : ℝ) (other : ℕ → ℝ) (a b : Expr) : Expr :=
  sqrt (add (add (add (sq (sqrt (max a b))) (sq (quantExpr M bits))) (lit (read ^ 2)))
    (order.expr fun i => lit (other i ^ 2)))

/-- The last lines of `photon_detector_SNR`, `radiance/functional.py`:494 and 530: contrast and signal-to-noise ratio from
the computed counts `a`, `b` and the computed noise. -/
def SnrComputed (u : ℝ) (a b noise : Expr) (r : ℝ) : Prop :=
  ∃ x y n c : ℝ, a.Computed u x ∧ b.Computed u y ∧ noise.Computed u n ∧ Rnd u (x - y) c ∧ Rnd u (c / n) r

/-! ## The spectra -/

/-- The exponent in `blackbody_radiance`, `radiance/functional.py`:119, `hc * cc / (lambda0 * kc * T)`. -/
def planckArgExpr (lam T : ℝ) : Expr := div (mul (lit hC) (lit cC)) (mul (mul (val lam) (lit kC)) (val T))

/-- `blackbody_radiance`, `radiance/functional.py`:118-120. The powers `lambda0**5.0` and `(...)**(-1.0)` are one operation
each, `cc**2.0` is taken for a product. -/
def blackbodyExpr (lam T : ℝ) : Expr :=
  mul (div (mul (mul (val 2) (lit hC)) (sq (lit cC))) (lit (lam ^ 5))) (div (val 1) (sub (exp (planckArgExpr lam T)) (val 1)))

/-- `cold_shield_self_emission`, `radiance/functional.py`:182-184. -/
def shieldExpr (lam T D f : ℝ) : Expr :=
  mul (sub (lit Real.pi) (div (lit Real.pi) (add (mul (val 4) (sq (div (val f) (val D)))) (val 1)))) (blackbodyExpr lam T)

/-- `optics_self_emission`, `radiance/functional.py`:325-330. -/
def opticsExpr (lam T emissivity coldFilter D f : ℝ) : Expr :=
  irradianceExpr D f (mul (mul (val coldFilter) (val emissivity)) (blackbodyExpr lam T))

/-- `cold_stop_self_emission`, `radiance/functional.py`:224-227. -/
def stopExpr (lam T emissivity D f : ℝ) : Expr := irradianceExpr D f (mul (val emissivity) (blackbodyExpr lam T))

/-- `np.interp` with `left=0`, `right=0` (used by `resample_by_wavelength`, `radiance/functional.py`:857): the value at a
table point is returned as it is. -/
def interpExpr (x : ℝ) : List (ℝ × ℝ) → Expr
  | [] => val 0
  | [(a, ya)] => if x = a then val ya else val 0
  | (a, ya) :: (b, yb) :: t =>
    if x < a then val 0 else if x = a then val ya else if x < b then lerp a ya b yb x else interpExpr x ((b, yb) :: t)

/-- `snr.opt_trans`, `radiance/functional.py`:410-418. -/
def transExpr (coldFilter eta : ℝ) (tbl : List (ℝ × ℝ)) (lam : ℝ) : Expr :=
  mul (mul (val coldFilter) (sub (val 1) (lit (eta ^ 2)))) (interpExpr lam tbl)

/-- `total_radiance`, `radiance/functional.py`:769-775, for the database row `a`. -/
def radianceExpr (a : Fin 6 → ℝ) (reflectance T : ℝ) : Expr :=
  add (add (add (val (a 2)) (mul (mul (lit (1 - reflectance)) (blackbodyExpr (a 0) T)) (val (a 1)))) (val (a 4)))
    (mul (val (a 5)) (div (val reflectance) (lit 0.15)))

/-- `total_radiance`, `radiance/functional.py`:769-775, as `giqe_radiance` calls it (:820-832): the reflectance is a constant
that need not be a double, and `1.0 - reflectance` carries its rounding error besides its own. -/
def giqeRadianceExpr (a : Fin 6 → ℝ) (reflectance T : ℝ) : Expr :=
  add (add (add (val (a 2)) (mul (mul (approx (1 - reflectance) 2) (blackbodyExpr (a 0) T)) (val (a 1)))) (val (a 4)))
    (mul (val (a 5)) (div (lit reflectance) (lit 0.15)))

end PyBSM
