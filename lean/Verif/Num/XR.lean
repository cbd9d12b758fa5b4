import Mathlib.Analysis.SpecialFunctions.Trigonometric.Sinc
import Mathlib.Analysis.SpecialFunctions.Trigonometric.Arctan
import Mathlib.Analysis.SpecialFunctions.Trigonometric.Inverse
import Mathlib.Analysis.SpecialFunctions.Pow.Real
import Mathlib.Analysis.SpecialFunctions.Log.Base

/-!
# Numbers as numpy sees them

The code under verification computes with IEEE doubles.  We model a double as an *exact* real
number together with the three special values `+inf`, `-inf` and `nan`, and we give every
arithmetic operation the special-value behaviour that numpy gives it.  What is *not* modelled:
rounding, overflow, underflow and the sign of zero.  (`DESIGN.md`, "Trusted base".)
-/

noncomputable section

open Classical

namespace PyBSM

/-- A numpy double: an exact real, or one of the special values. -/
inductive XR where
  | fin (x : ℝ)
  | pinf
  | ninf
  | nan

namespace XR

/-- The real number carried by a finite value (junk value `0` on the special values; only used in
statements that also say that the value is finite). -/
def toReal : XR → ℝ
  | fin x => x
  | _ => 0

/-- The value is an ordinary real number. -/
def IsFin (x : XR) : Prop := ∃ r : ℝ, x = fin r

instance : Zero XR := ⟨fin 0⟩
instance : One XR := ⟨fin 1⟩
instance (n : ℕ) [n.AtLeastTwo] : OfNat XR n := ⟨fin (OfNat.ofNat n)⟩
instance : OfScientific XR := ⟨fun m s e => fin (OfScientific.ofScientific m s e)⟩
instance : Inhabited XR := ⟨nan⟩

/-- IEEE addition. -/
def add : XR → XR → XR
  | fin x, fin y => fin (x + y)
  | nan, _ => nan
  | _, nan => nan
  | pinf, ninf => nan
  | ninf, pinf => nan
  | pinf, _ => pinf
  | _, pinf => pinf
  | ninf, _ => ninf
  | _, ninf => ninf

/-- IEEE negation. -/
def neg : XR → XR
  | fin x => fin (-x)
  | pinf => ninf
  | ninf => pinf
  | nan => nan

/-- `±inf` with the sign of `x`, `nan` for `x = 0`: the product of `x` with `+inf`. -/
def mulInf (x : ℝ) : XR := if 0 < x then pinf else if x < 0 then ninf else nan

/-- IEEE multiplication (`0 * inf = nan`). -/
def mul : XR → XR → XR
  | fin x, fin y => fin (x * y)
  | nan, _ => nan
  | _, nan => nan
  | pinf, pinf => pinf
  | pinf, ninf => ninf
  | ninf, pinf => ninf
  | ninf, ninf => pinf
  | fin x, pinf => mulInf x
  | pinf, fin x => mulInf x
  | fin x, ninf => neg (mulInf x)
  | ninf, fin x => neg (mulInf x)

/-- numpy division: `x / 0` is `±inf` with the sign of `x`, `0 / 0 = nan`, `inf / inf = nan`,
`x / inf = 0`.  Zero is unsigned in this model. -/
def div : XR → XR → XR
  | fin x, fin y => if y = 0 then mulInf x else fin (x / y)
  | nan, _ => nan
  | _, nan => nan
  | fin _, _ => fin 0
  | pinf, fin y => if y < 0 then ninf else pinf
  | ninf, fin y => if y < 0 then pinf else ninf
  | _, _ => nan

instance : Add XR := ⟨add⟩
instance : Neg XR := ⟨neg⟩
instance : Mul XR := ⟨mul⟩
instance : Div XR := ⟨div⟩
/-- IEEE subtraction. -/
instance : Sub XR := ⟨fun x y => add x (neg y)⟩

/-- `x ** n` for a non-negative integer exponent (also written `x ** 2.0` in the code). -/
def npow : XR → ℕ → XR
  | fin x, n => fin (x ^ n)
  | pinf, n => if n = 0 then 1 else pinf
  | ninf, n => if n = 0 then 1 else if n % 2 = 0 then pinf else ninf
  | nan, n => if n = 0 then 1 else nan

instance : Pow XR ℕ := ⟨npow⟩

/-- `x ** y` for a (non-integer) real exponent `y`: `nan` for negative bases. -/
def rpow : XR → ℝ → XR
  | fin x, y =>
    if y = 0 then 1
    else if x < 0 then nan
    else if x = 0 then (if 0 < y then 0 else pinf)
    else fin (x ^ y)
  | pinf, y => if y = 0 then 1 else if 0 < y then pinf else 0
  | ninf, y => if y = 0 then 1 else if 0 < y then pinf else 0
  | nan, y => if y = 0 then 1 else nan

/-- `np.sqrt`. -/
def sqrt : XR → XR
  | fin x => if x < 0 then nan else fin (Real.sqrt x)
  | pinf => pinf
  | _ => nan

/-- `np.exp`. -/
def exp : XR → XR
  | fin x => fin (Real.exp x)
  | pinf => pinf
  | ninf => 0
  | nan => nan

/-- `np.log10`. -/
def log10 : XR → XR
  | fin x => if x < 0 then nan else if x = 0 then ninf else fin (Real.logb 10 x)
  | pinf => pinf
  | _ => nan

/-- `np.sin`. -/
def sin : XR → XR
  | fin x => fin (Real.sin x)
  | _ => nan

/-- `np.cos`. -/
def cos : XR → XR
  | fin x => fin (Real.cos x)
  | _ => nan

/-- `np.tan`.  At the exact poles (which no double hits) the model returns `+inf`, the limit from
below; the only place where this matters in the code is `arctan(... * tan(phi/2))`, whose value is
then the correct `pi/2`. -/
def tan : XR → XR
  | fin x => if Real.cos x = 0 then pinf else fin (Real.tan x)
  | _ => nan

/-- `np.arctan`. -/
def arctan : XR → XR
  | fin x => fin (Real.arctan x)
  | pinf => fin (Real.pi / 2)
  | ninf => fin (-(Real.pi / 2))
  | nan => nan

/-- `np.arccos`: `nan` outside `[-1, 1]`. -/
def arccos : XR → XR
  | fin x => if -1 ≤ x ∧ x ≤ 1 then fin (Real.arccos x) else nan
  | _ => nan

/-- `np.abs` on real arrays. -/
def abs : XR → XR
  | fin x => fin |x|
  | pinf => pinf
  | ninf => pinf
  | nan => nan

/-- `np.sinc(x) = sin(pi x) / (pi x)`, `1` at `0`.  (numpy substitutes `1e-20` for an exact zero,
which gives `1.0` in double precision.) -/
def sinc : XR → XR
  | fin x => fin (Real.sinc (Real.pi * x))
  | _ => nan

/-- `x < y` (false as soon as one side is `nan`). -/
def lt : XR → XR → Prop
  | fin x, fin y => x < y
  | nan, _ => False
  | _, nan => False
  | ninf, ninf => False
  | ninf, _ => True
  | _, ninf => False
  | fin _, pinf => True
  | pinf, _ => False

/-- `x <= y` (false as soon as one side is `nan`). -/
def le : XR → XR → Prop
  | fin x, fin y => x ≤ y
  | nan, _ => False
  | _, nan => False
  | ninf, _ => True
  | _, ninf => False
  | _, pinf => True
  | pinf, fin _ => False

/-- `x == y` (false as soon as one side is `nan`). -/
def eq : XR → XR → Prop
  | fin x, fin y => x = y
  | pinf, pinf => True
  | ninf, ninf => True
  | _, _ => False

/-- `np.isnan`. -/
def isNan : XR → Prop
  | nan => True
  | _ => False

/-- `np.nan_to_num`: `nan` becomes `0`, infinities become the largest double. -/
def nanToNum : XR → XR
  | fin x => fin x
  | pinf => fin 1.7976931348623157e308
  | ninf => fin (-1.7976931348623157e308)
  | nan => fin 0

/-- `np.maximum` / two-element `np.max`: `nan` if one argument is `nan`. -/
def max (x y : XR) : XR :=
  if x.isNan ∨ y.isNan then nan else if lt x y then y else x

/-- `np.minimum` / two-element `np.min`: `nan` if one argument is `nan`. -/
def min (x y : XR) : XR :=
  if x.isNan ∨ y.isNan then nan else if lt y x then y else x

/-! ## Computation rules on finite values -/

variable (x y : ℝ)

theorem zero_def : (0 : XR) = fin 0 := rfl
theorem one_def : (1 : XR) = fin 1 := rfl
theorem ofNat_def (n : ℕ) [n.AtLeastTwo] :
    (OfNat.ofNat n : XR) = fin (OfNat.ofNat n) := rfl
theorem sci_def (m : ℕ) (s : Bool) (e : ℕ) :
    (OfScientific.ofScientific m s e : XR) = fin (OfScientific.ofScientific m s e) := rfl

theorem fin_add : fin x + fin y = fin (x + y) := rfl
theorem fin_neg : -fin x = fin (-x) := rfl
theorem fin_sub : fin x - fin y = fin (x - y) := by
  show fin (x + -y) = fin (x - y); rw [sub_eq_add_neg]
theorem fin_mul : fin x * fin y = fin (x * y) := rfl
theorem fin_div {y : ℝ} (h : y ≠ 0) : fin x / fin y = fin (x / y) := by
  show (if y = 0 then mulInf x else fin (x / y)) = _; rw [if_neg h]
theorem fin_div_zero : fin x / fin 0 = mulInf x := by
  show (if (0:ℝ) = 0 then mulInf x else fin (x / 0)) = _; rw [if_pos rfl]
theorem fin_pow (n : ℕ) : fin x ^ n = fin (x ^ n) := rfl
theorem fin_sqrt {x : ℝ} (h : 0 ≤ x) : (fin x).sqrt = fin (Real.sqrt x) := by
  simp [sqrt, not_lt.mpr h]
theorem fin_exp : (fin x).exp = fin (Real.exp x) := rfl
theorem fin_sin : (fin x).sin = fin (Real.sin x) := rfl
theorem fin_cos : (fin x).cos = fin (Real.cos x) := rfl
theorem fin_tan {x : ℝ} (h : Real.cos x ≠ 0) : (fin x).tan = fin (Real.tan x) := by
  simp [tan, h]
theorem fin_arctan : (fin x).arctan = fin (Real.arctan x) := rfl
theorem fin_arccos {x : ℝ} (h1 : -1 ≤ x) (h2 : x ≤ 1) :
    (fin x).arccos = fin (Real.arccos x) := by simp [arccos, h1, h2]
theorem fin_abs : (fin x).abs = fin |x| := rfl
theorem fin_sinc : (fin x).sinc = fin (Real.sinc (Real.pi * x)) := rfl
theorem fin_log10 {x : ℝ} (h : 0 < x) : (fin x).log10 = fin (Real.logb 10 x) := by
  simp [log10, not_lt.mpr h.le, h.ne']
theorem fin_rpow {x : ℝ} (h : 0 < x) : (fin x).rpow y = fin (x ^ y) := by
  simp only [rpow, not_lt.mpr h.le, h.ne', if_false]
  split_ifs with h0
  · subst h0; simp [one_def]
  · rfl
theorem fin_rpow_nonneg {x y : ℝ} (h : 0 ≤ x) (hy : 0 < y) : (fin x).rpow y = fin (x ^ y) := by
  rcases h.eq_or_lt with rfl | h
  · simp [rpow, hy.ne', hy, Real.zero_rpow, zero_def]
  · exact fin_rpow y h
theorem fin_lt : lt (fin x) (fin y) ↔ x < y := Iff.rfl
theorem fin_le : le (fin x) (fin y) ↔ x ≤ y := Iff.rfl
theorem fin_eq : eq (fin x) (fin y) ↔ x = y := Iff.rfl
theorem fin_isNan : isNan (fin x) ↔ False := Iff.rfl
theorem fin_nanToNum : nanToNum (fin x) = fin x := rfl
theorem nan_isNan : isNan nan ↔ True := Iff.rfl
theorem nan_nanToNum : nanToNum nan = fin 0 := rfl
theorem fin_max : max (fin x) (fin y) = fin (Max.max x y) := by
  simp only [max, isNan, or_self, if_false, fin_lt]
  split_ifs with h
  · rw [max_eq_right h.le]
  · rw [max_eq_left (not_lt.mp h)]
theorem fin_min : min (fin x) (fin y) = fin (Min.min x y) := by
  simp only [min, isNan, or_self, if_false, fin_lt]
  split_ifs with h
  · rw [min_eq_right h.le]
  · rw [min_eq_left (not_lt.mp h)]
theorem fin_inj {x y : ℝ} : fin x = fin y ↔ x = y := by simp
theorem nan_add (a : XR) : nan + a = nan := by cases a <;> rfl
theorem add_nan (a : XR) : a + nan = nan := by cases a <;> rfl
theorem nan_mul (a : XR) : nan * a = nan := by cases a <;> rfl
theorem mul_nan (a : XR) : a * nan = nan := by cases a <;> rfl
theorem nan_div (a : XR) : nan / a = nan := by cases a <;> rfl
theorem div_nan (a : XR) : a / nan = nan := by cases a <;> rfl
theorem neg_nan : -nan = nan := rfl
theorem nan_sub (a : XR) : nan - a = nan := nan_add _
theorem sub_nan (a : XR) : a - nan = nan := by cases a <;> rfl
theorem toReal_fin : (fin x).toReal = x := rfl
theorem isFin_fin : (fin x).IsFin := ⟨x, rfl⟩

theorem add_comm (a b : XR) : a + b = b + a := by
  cases a <;> cases b <;> first | rfl | exact congrArg fin (_root_.add_comm _ _)

theorem mul_comm (a b : XR) : a * b = b * a := by
  cases a <;> cases b <;> first | rfl | exact congrArg fin (_root_.mul_comm _ _)

theorem add_assoc (a b c : XR) : a + b + c = a + (b + c) := by
  cases a <;> cases b <;> cases c <;> first | rfl | exact congrArg fin (_root_.add_assoc _ _ _)

theorem zero_add (a : XR) : 0 + a = a := by
  cases a <;> first | rfl | exact congrArg fin (_root_.zero_add _)

theorem add_zero (a : XR) : a + 0 = a := by
  cases a <;> first | rfl | exact congrArg fin (_root_.add_zero _)

theorem one_mul (a : XR) : 1 * a = a := by
  cases a
  · exact congrArg fin (_root_.one_mul _)
  · show mulInf 1 = pinf; simp [mulInf]
  · show neg (mulInf 1) = ninf; simp [mulInf, neg]
  · rfl

end XR

/-- simp set that evaluates XR arithmetic on finite values -/
macro "xr_simp" loc:(Lean.Parser.Tactic.location)? : tactic => `(tactic| simp only [XR.fin_add, XR.fin_sub, XR.fin_mul, XR.fin_neg,
  XR.fin_pow, XR.fin_exp, XR.fin_sin, XR.fin_cos, XR.fin_arctan, XR.fin_abs, XR.fin_sinc,
  XR.fin_lt, XR.fin_le, XR.fin_eq, XR.fin_isNan, XR.fin_nanToNum, XR.fin_max, XR.fin_min,
  XR.zero_def, XR.one_def, XR.ofNat_def, XR.sci_def] $[$loc]?)

/-- Exceptions the modelled code can raise. -/
inductive PyErr where
  | indexError
  | valueError
  | zeroDivisionError
  | importError
  | unboundLocalError
  | typeError
  | cv2Error
  | overflowError
  /-- Not an exception: the code would continue with values (non-finite pixels) outside the model. -/
  | outsideModel
  deriving DecidableEq, Repr

/-- A scalar argument, tagged with whether it is a Python `float`/`int` or a numpy scalar: the two
differ in what division by zero does. -/
inductive Scal where
  | py (x : XR)
  | np (x : XR)

namespace Scal

/-- The number carried by a scalar. -/
def val : Scal → XR
  | py x => x
  | np x => x

/-- `a / b` on scalars.  Two Python floats raise `ZeroDivisionError` on a zero divisor; if one of
them is a numpy scalar the result is numpy's `inf`/`nan`. -/
def div (a b : Scal) : Except PyErr Scal :=
  match a, b with
  | py x, py y => if XR.eq y 0 then .error .zeroDivisionError else .ok (py (x / y))
  | a, b => .ok (np (a.val / b.val))

/-- The result of an arithmetic operation is a numpy scalar as soon as one operand is. -/
def lift2 (f : XR → XR → XR) : Scal → Scal → Scal
  | py x, py y => py (f x y)
  | a, b => np (f a.val b.val)

instance : Add Scal := ⟨lift2 (· + ·)⟩
instance : Sub Scal := ⟨lift2 (· - ·)⟩
instance : Mul Scal := ⟨lift2 (· * ·)⟩
instance : Pow Scal ℕ := ⟨fun a n => match a with
  | py x => py (x ^ n)
  | np x => np (x ^ n)⟩

end Scal

end PyBSM
