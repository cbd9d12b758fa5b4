import Mathlib.Analysis.SpecialFunctions.Trigonometric.Basic
import Mathlib.Analysis.SpecialFunctions.Sqrt

/-!
# Specification: plane geometry of a spherical earth

The plane through the earth's centre (the origin), the sensor and the target.
-/

noncomputable section

namespace PyBSM.Spec

/-- Earth radius in metres. -/
def R : ℝ := 6378164

/-- A point of the plane. -/
abbrev Pt := ℝ × ℝ

/-- The point at height `h` above the sphere, at ground distance `g` along the sphere from the
point below the sensor. -/
def pointAt (h g : ℝ) : Pt := ((R + h) * Real.sin (g / R), (R + h) * Real.cos (g / R))

/-- Euclidean distance. -/
def pdist (p q : Pt) : ℝ := Real.sqrt ((p.1 - q.1) ^ 2 + (p.2 - q.2) ^ 2)

/-- Scalar product. -/
def dot (u v : Pt) : ℝ := u.1 * v.1 + u.2 * v.2

/-- `φ` is the angle at `q` of the (non-degenerate) corner `p q r`. -/
def IsAngle (p q r : Pt) (φ : ℝ) : Prop :=
  0 ≤ φ ∧ φ ≤ Real.pi ∧ Real.cos φ * (pdist q p * pdist q r) = dot (p - q) (r - q)

/-- Height above the sphere of a point. -/
def heightOf (p : Pt) : ℝ := pdist 0 p - R

/-- The point a fraction `t` of the way from `p` to `q`. -/
def between (p q : Pt) (t : ℝ) : Pt := p + t • (q - p)

end PyBSM.Spec
