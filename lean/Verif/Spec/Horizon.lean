import Verif.Spec.Geometry
import Verif.Spec.Database

/-!
# Specification vocabulary: what the sensor can see
-/

noncomputable section

open Classical

namespace PyBSM.Spec

/-- The straight line from the target, on the ground at the distance `g`, to the sensor at the height `h` leaves the
ground at the target and does not come back to it. -/
def AboveHorizon (h g : ℝ) : Prop :=
  ∀ t : ℝ, 0 < t → t ≤ 1 → 0 < heightOf (between (pointAt 0 g) (pointAt h 0) t)

/-- The database has an atmosphere for the request, with or without interpolation. -/
def Accepted (files : Files) (alt rng : XR) (haze : ℤ) : Prop :=
  (∃ A, loadInterp files alt rng haze = .ok A) ∨ ∃ A, loadNoInterp files alt rng haze = .ok A

/-- The altitudes of the database (m), as documented in `utils.py`, with the 32.5 m of the decoder table in place of the
documented 32.55 m. -/
def storedAltitudes : List ℝ :=
  [2, 32.5, 75, 150, 225, 500, 1000, 2000, 3000, 4000, 5000, 6000, 7000, 8000, 9000, 10000,
   11000, 12000, 14000, 16000, 18000, 20000, 24500]

end PyBSM.Spec
