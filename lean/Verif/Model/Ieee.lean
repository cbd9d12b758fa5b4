import Verif.Num.Ieee
import Verif.Model.Rounded

/-!
# The signal chain in IEEE 754 double precision

The computations of `Model/Rounded.lean` with the limits of double precision: a result may overflow to infinity, lose
digits by underflow or become zero, and the following operations go on from there. `fl` is the rounding (`RoundsIeee`).
Simplifications: the sign of zero is not kept; `exp` and the powers are rounded correctly.
-/

noncomputable section

open Classical

namespace PyBSM

/-- Rounding the result of an operation on doubles, which may be infinite or no number already. Models the result of one
operation, e.g. `radiance/functional.py`:93. -/
def XR.through (fl : ℝ → XR) : XR → XR
  | .fin x => fl x
  | .pinf => .pinf
  | .ninf => .ninf
  | .nan => .nan

namespace Expr

/-- The value computed in double precision (computations of `radiance/functional.py`:93-857, see `Model/Rounded.lean`). -/
def ieee (fl : ℝ → XR) : Expr → XR
  | val x => .fin x
  | lit x => fl x
  | approx x _ => .fin x
  | add a b => (a.ieee fl + b.ieee fl).through fl
  | mul a b => (a.ieee fl * b.ieee fl).through fl
  | div a b => (a.ieee fl / b.ieee fl).through fl
  | sqrt a => (a.ieee fl).sqrt.through fl
  | max a b => XR.max (a.ieee fl) (b.ieee fl)
  | fill a cap => if XR.lt (cap.ieee fl) (a.ieee fl) then (cap.ieee fl / a.ieee fl).through fl else 1
  | sub a b => (a.ieee fl - b.ieee fl).through fl
  | exp a => (a.ieee fl).exp.through fl
  | lerp x0 y0 x1 y1 x =>
    (((fl (y1 - y0) / fl (x1 - x0)).through fl * fl (x - x0)).through fl + .fin y0).through fl

end Expr

/-- `snr.snr` in double precision, `radiance/functional.py`:494 and 530. -/
def snrIeee (fl : ℝ → XR) (a b noise : Expr) : XR :=
  ((a.ieee fl - b.ieee fl).through fl / noise.ieee fl).through fl

end PyBSM
