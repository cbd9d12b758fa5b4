import Verif.Spec.Raises
import Verif.Spec.Psf
import Verif.Lemmas.Scal

/-!
# Which exception the image functions raise
-/

noncomputable section

open Classical

namespace PyBSM.Spec

/-- Python's `int` of a quotient: `nan` is a ValueError, an infinity an OverflowError. -/
def sideVerdict : XR → Option PyErr
  | .fin _ => none
  | .nan => some .valueError
  | _ => some .overflowError

/-- A side of at most half a pixel: nothing is left of it after rounding. -/
def Vanishes (side : XR) : Prop := ∃ v : ℝ, side = .fin v ∧ v ≤ 1 / 2

/-- What `resample_2D` does with an image and two spacings: first the columns, then the rows are counted, then OpenCV is
called. -/
def resampleVerdict (usable : Bool) (x : Img) (a b : Scal) : Option PyErr :=
  if usable = false then some .importError
  else if a.IsPy ∧ b.IsPy ∧ XR.eq b.val 0 then some .zeroDivisionError
  else match sideVerdict (.fin x.w * a.val / b.val) with
    | some e => some e
    | none => match sideVerdict (.fin x.h * a.val / b.val) with
      | some e => some e
      | none =>
        if x.h = 0 ∨ x.w = 0 ∨ Vanishes (.fin x.w * a.val / b.val) ∨ Vanishes (.fin x.h * a.val / b.val)
          then some .cv2Error
        else none

/-- Resampled by the factor `t`, an image keeps at least one row and one column (and it had some). -/
def Survives (x : Img) (t : ℝ) : Prop := x.h ≠ 0 ∧ x.w ≠ 0 ∧ 1 / 2 < x.h * t ∧ 1 / 2 < x.w * t

end PyBSM.Spec
