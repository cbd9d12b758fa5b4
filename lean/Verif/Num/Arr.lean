import Verif.Num.XR
import Mathlib.Data.List.GetD

/-!
# One-dimensional numpy arrays and the library routines the code calls on them

A 1-D array is a `List XR`.  Where the code works on 2-D grids with element-wise operations the
model works on one grid element (or one row) at a time, see the individual functions.
-/

noncomputable section

open Classical

namespace PyBSM

/-- Element-wise binary operation with numpy broadcasting of 1-D arrays: equal lengths, or one
side of length one; anything else is `ValueError` ("operands could not be broadcast"). -/
def bc2 (f : XR → XR → XR) (xs ys : List XR) : Except PyErr (List XR) :=
  if xs.length = ys.length then .ok (List.zipWith f xs ys)
  else match xs, ys with
    | [x], ys => .ok (ys.map (f x))
    | xs, [y] => .ok (xs.map (fun x => f x y))
    | _, _ => .error .valueError

/-- `np.sum` of a 1-D array. -/
def asum (xs : List XR) : XR := xs.foldr (· + ·) 0

/-- `np.diff`. -/
def diff : List XR → List XR
  | a :: b :: t => (b - a) :: diff (b :: t)
  | _ => []

/-- `np.trapz(y, x)`: `(diff(x) * (y[1:] + y[:-1]) / 2.0).sum()`. -/
def trapz (ys xs : List XR) : Except PyErr XR := do
  let s ← bc2 (· + ·) ys.tail ys.dropLast
  let t ← bc2 (· * ·) (diff xs) s
  .ok (asum (t.map (· / 2)))

/-- `np.linspace(a, b, n)` for `n ≥ 2`: `a + i * (b - a) / (n - 1)`. -/
def linspace (a b : XR) (n : ℕ) : List XR :=
  (List.range n).map fun (i : ℕ) => .fin ((i : ℝ) / ((n : ℝ) - 1)) * (b - a) + a

/-- `np.max` of a 1-D array; `ValueError` on an empty array. -/
def amax : List XR → Except PyErr XR
  | [] => .error .valueError
  | x :: xs => .ok (xs.foldl XR.max x)

/-- `np.min` of a 1-D array; `ValueError` on an empty array. -/
def amin : List XR → Except PyErr XR
  | [] => .error .valueError
  | x :: xs => .ok (xs.foldl XR.min x)

/-- One linear segment as `np.interp` and `interp1d` compute it: `slope*(x - x0) + y0`. -/
def segment (x0 y0 x1 y1 x : XR) : XR := (y1 - y0) / (x1 - x0) * (x - x0) + y0

/-- `np.interp` to the right of (or at) the first sample point: find the last sample point that is
`<= x` and use the segment that starts there; exactly at a sample point return its value; beyond
the last point return `right`. -/
def interpFrom (x right : XR) : List (XR × XR) → XR
  | [] => right
  | [(a, ya)] => if XR.lt a x then right else ya
  | (a, ya) :: (b, yb) :: t =>
    if XR.lt x b then (if XR.eq x a then ya else segment a ya b yb x)
    else interpFrom x right ((b, yb) :: t)

/-- `np.interp` for one `x` on a non-empty table with increasing abscissae. -/
def interpTable (x left right : XR) (tbl : List (XR × XR)) : XR :=
  match tbl with
  | [] => .nan
  | (a, ya) :: t =>
    if x.isNan then .nan
    else if XR.lt x a then left
    else interpFrom x right ((a, ya) :: t)

/-- `np.interp(xs, xp, fp, left, right)` for increasing `xp`; `ValueError` if `xp` is empty or `fp`
has another length. -/
def npInterp (xs xp fp : List XR) (left right : XR) : Except PyErr (List XR) :=
  if xp = [] ∨ xp.length ≠ fp.length then .error .valueError
  else .ok (xs.map fun x => interpTable x left right (xp.zip fp))

/-- Stable insertion of a table entry by its abscissa. -/
def insertKey (p : XR × XR) : List (XR × XR) → List (XR × XR)
  | [] => [p]
  | q :: t => if XR.lt q.1 p.1 then q :: insertKey p t else p :: q :: t

/-- `np.argsort(x, kind="mergesort")` applied to a table (stable sort by abscissa). -/
def sortKey : List (XR × XR) → List (XR × XR)
  | [] => []
  | p :: t => insertKey p (sortKey t)

/-- The segment scipy's `_call_linear` selects in a sorted table with at least two entries:
`searchsorted` (side left) clipped to `[1, n-1]`, i.e. the first segment whose right end is `>= x`,
or the last segment. -/
def interp1dSeg (x : XR) : List (XR × XR) → XR
  | (a, ya) :: (b, yb) :: [] => segment a ya b yb x
  | (a, ya) :: (b, yb) :: (c, yc) :: t =>
    if XR.le x b then segment a ya b yb x else interp1dSeg x ((b, yb) :: (c, yc) :: t)
  | _ => .nan

/-- `scipy.interpolate.interp1d(xs, ys, fill_value="extrapolate", assume_sorted=0)(x)` for a table
of at least one entry (a single entry gives `0/0 = nan`), `ValueError` for an empty table or
different lengths. -/
def interp1dExtrap (xs ys : List XR) (x : XR) : Except PyErr XR :=
  if xs.length ≠ ys.length ∨ xs = [] then .error .valueError
  else .ok (interp1dSeg x (sortKey (xs.zip ys)))

end PyBSM
