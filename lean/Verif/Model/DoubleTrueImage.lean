import Verif.Model.Simulation
import Verif.Model.Double

/-!
# The true image in double precision

`img_to_reflectance` and the mapping to photoelectrons with a rounding `fl` after every operation. Simplifications: pixel
values, reflectances and photoelectrons are numbers, not infinities or NaN; nothing overflows or underflows; the pixel values
of the calibration are distinct.
-/

noncomputable section

open Classical

namespace PyBSM

/-- One segment of scipy's `interp1d` and of `np.interp`: `slope*(x - x_lo) + y_lo`.
(used at `simulation/functional.py`:136 and 247) -/
def segmentD (fl : ℝ → ℝ) (a ya b yb x : ℝ) : ℝ := fl (fl (fl (fl (yb - ya) / fl (b - a)) * fl (x - a)) + ya)

/-- The segment scipy's `_call_linear` selects in a sorted table with at least two entries: the first whose right end is
`>= x`, or the last. (used at `simulation/functional.py`:136) -/
def interp1dSegD (fl : ℝ → ℝ) (x : ℝ) : List (ℝ × ℝ) → ℝ
  | (a, ya) :: (b, yb) :: [] => segmentD fl a ya b yb x
  | (a, ya) :: (b, yb) :: (c, yc) :: t =>
    if x ≤ b then segmentD fl a ya b yb x else interp1dSegD fl x ((b, yb) :: (c, yc) :: t)
  | _ => 0

/-- The two assignments at `simulation/functional.py`:137-138 for one pixel. -/
def clip01D (y : ℝ) : ℝ :=
  let y := if 1 < y then 1 else y
  if y < 0 then 0 else y

/-- `img_to_reflectance` for the pixels of an image, `simulation/functional.py`:101-140; `cal` are the pairs of
`pix_values` and `refl_values`, at least two. -/
def imgToReflectanceD (fl : ℝ → ℝ) (img : List ℝ) (cal : List (ℝ × ℝ)) : List ℝ :=
  img.map fun x => clip01D (interp1dSegD fl x (cal.insertionSort fun p q => p.1 ≤ q.1))

/-- `np.interp` at one `x` between the ends of an increasing table. (used at `simulation/functional.py`:247) -/
def interpFromD (fl : ℝ → ℝ) (x : ℝ) : List (ℝ × ℝ) → ℝ
  | [] => 0
  | [(_, ya)] => ya
  | (a, ya) :: (b, yb) :: t =>
    if x < b then (if x = a then ya else segmentD fl a ya b yb x) else interpFromD fl x ((b, yb) :: t)

/-- `interp1d(ref, pe)` at one reflectance: `ValueError` outside the table. (used at `simulation/functional.py`:246-247) -/
def interp1dStrictD (fl : ℝ → ℝ) (tbl : List (ℝ × ℝ)) (x : ℝ) : Except PyErr ℝ :=
  match tbl.head?, tbl.getLast? with
  | some lo, some hi => if x < lo.1 ∨ hi.1 < x then .error .valueError else .ok (interpFromD fl x tbl)
  | _, _ => .error .valueError

/-- `true_img` of `simulate_image`, `simulation/functional.py`:240-247, where `pe` is the table of photoelectrons; the
reflectances of the table are `np.linspace(0.0, 1.0, 100)` (`radiance/functional.py`:578). -/
def trueImageD (fl : ℝ → ℝ) (img : List ℝ) (cal : List (ℝ × ℝ)) (pe : ℕ → ℝ) : Except PyErr (List ℝ) :=
  (imgToReflectanceD fl img cal).mapM
    (interp1dStrictD fl ((List.range 100).map fun k => (linspaceD fl 0 1 100 k, pe k)))

end PyBSM
