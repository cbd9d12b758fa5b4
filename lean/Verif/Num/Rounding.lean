import Mathlib.Analysis.SpecialFunctions.Log.Base
import Mathlib.Algebra.Order.Round
import Mathlib.Data.Int.Log
import Mathlib.Tactic.Linarith
import Mathlib.Tactic.Positivity
import Mathlib.Tactic.NormNum
import Mathlib.Tactic.FieldSimp
import Mathlib.Tactic.Ring

/-!
# Rounding of floating-point operations

The rest of the model computes with exact real numbers. Here: what one floating-point operation may return. The result
of an operation whose exact value is `x` is any number within the relative distance `u` of `x`. IEEE 754 double
precision, rounding to nearest, satisfies this with `u = 2^-53` as long as nothing overflows or underflows
(`nearest_rnd`); `u = 2^-52` also covers the other rounding modes and library functions that are accurate to one unit in
the last place.
-/

noncomputable section

namespace PyBSM

/-- `r` is a possible floating-point result where `x` is the exact one. -/
def Rnd (u x r : ℝ) : Prop := |r - x| ≤ u * |x|

/-- The numbers of IEEE 754 double precision, without limits on the exponent: 53-bit integers times powers of two. -/
def IsDouble (x : ℝ) : Prop := ∃ m e : ℤ, |m| < 2 ^ 53 ∧ x = m * (2 : ℝ) ^ e

/-- `fl` rounds to a nearest double. -/
def RoundsToNearest (fl : ℝ → ℝ) : Prop := ∀ x, IsDouble (fl x) ∧ ∀ y, IsDouble y → |fl x - x| ≤ |y - x|

/-- A rounding: the multiple of `2 ^ (e - 52)` next to `x`, where `2 ^ e` is the largest power of two up to `|x|`. -/
def roundDouble (x : ℝ) : ℝ := round (x / (2 : ℝ) ^ (Int.log 2 |x| - 52)) * (2 : ℝ) ^ (Int.log 2 |x| - 52)

theorem log_bounds {x : ℝ} (hx : x ≠ 0) :
    (2 : ℝ) ^ Int.log 2 |x| ≤ |x| ∧ |x| < (2 : ℝ) ^ (Int.log 2 |x| + 1) := by
  have h := abs_pos.mpr hx
  exact ⟨by simpa using Int.zpow_log_le_self (b := 2) (by norm_num) h,
    by simpa using Int.lt_zpow_succ_log_self (b := 2) (by norm_num) |x|⟩

theorem two_zpow_split (e : ℤ) : (2 : ℝ) ^ e = 2 ^ 52 * (2 : ℝ) ^ (e - 52) := by
  rw [← zpow_natCast, ← zpow_add₀ two_ne_zero]; congr 1; push_cast; ring

theorem roundDouble_isDouble (x : ℝ) : IsDouble (roundDouble x) := by
  by_cases hx : x = 0
  · exact ⟨0, 0, by norm_num, by simp [roundDouble, hx]⟩
  obtain ⟨-, h2⟩ := log_bounds hx
  unfold roundDouble
  generalize Int.log 2 |x| = e at *
  have hp : (0 : ℝ) < (2 : ℝ) ^ (e - 52) := by positivity
  have hle : |(round (x / (2 : ℝ) ^ (e - 52)) : ℝ)| ≤ 2 ^ 53 := by
    have h3 : |x / (2 : ℝ) ^ (e - 52)| < 2 ^ 53 := by
      rw [abs_div, abs_of_pos hp, div_lt_iff₀ hp]
      calc |x| < (2 : ℝ) ^ (e + 1) := h2
        _ = 2 * (2 : ℝ) ^ e := by rw [zpow_add₀ two_ne_zero]; ring
        _ = _ := by rw [two_zpow_split e]; ring
    have h4 := abs_sub_round (x / (2 : ℝ) ^ (e - 52))
    rw [abs_lt] at h3
    rw [abs_le] at h4
    have b1 : (round (x / (2 : ℝ) ^ (e - 52)) : ℝ) < 2 ^ 53 + 1 := by linarith
    have b2 : -(2 ^ 53 + 1 : ℝ) < (round (x / (2 : ℝ) ^ (e - 52)) : ℝ) := by linarith
    have c1 : round (x / (2 : ℝ) ^ (e - 52)) < 2 ^ 53 + 1 := by exact_mod_cast b1
    have c2 : -(2 ^ 53 + 1 : ℤ) < round (x / (2 : ℝ) ^ (e - 52)) := by exact_mod_cast b2
    rw [abs_le]
    constructor
    · have : -(2 ^ 53 : ℤ) ≤ round (x / (2 : ℝ) ^ (e - 52)) := by omega
      exact_mod_cast this
    · have : round (x / (2 : ℝ) ^ (e - 52)) ≤ 2 ^ 53 := by omega
      exact_mod_cast this
  generalize round (x / (2 : ℝ) ^ (e - 52)) = m at *
  have hle' : |m| ≤ 2 ^ 53 := by exact_mod_cast hle
  rcases hle'.lt_or_eq with h | h
  · exact ⟨m, e - 52, h, rfl⟩
  · have e1 : (2 : ℝ) ^ (53 : ℕ) * (2 : ℝ) ^ (e - 52) = (2 : ℝ) ^ (e + 1) := by
      rw [← zpow_natCast, ← zpow_add₀ two_ne_zero]; congr 1; push_cast; ring
    rcases abs_eq (by norm_num : (0 : ℤ) ≤ 2 ^ 53) |>.mp h with h | h
    · exact ⟨1, e + 1, by norm_num, by rw [h, ← e1]; push_cast; norm_num⟩
    · exact ⟨-1, e + 1, by norm_num, by rw [h, ← e1]; push_cast; norm_num⟩

/-- No double is nearer. -/
theorem roundDouble_nearest (x : ℝ) {y : ℝ} (hy : IsDouble y) : |roundDouble x - x| ≤ |y - x| := by
  by_cases hx : x = 0
  · simp [roundDouble, hx]
  obtain ⟨h1, -⟩ := log_bounds hx
  unfold roundDouble
  generalize Int.log 2 |x| = e at *
  have hp : (0 : ℝ) < (2 : ℝ) ^ (e - 52) := by positivity
  -- multiples of the spacing
  have key : ∀ z : ℤ, |(round (x / (2 : ℝ) ^ (e - 52)) : ℝ) * (2 : ℝ) ^ (e - 52) - x| ≤ |(z : ℝ) * (2 : ℝ) ^ (e - 52) - x| := by
    intro z
    have h := round_le (x / (2 : ℝ) ^ (e - 52)) z
    have f : ∀ w : ℝ, |w * (2 : ℝ) ^ (e - 52) - x| = |x / (2 : ℝ) ^ (e - 52) - w| * (2 : ℝ) ^ (e - 52) := by
      intro w
      rw [← abs_of_pos hp, ← abs_mul, abs_of_pos hp, sub_mul, div_mul_cancel₀ _ hp.ne', abs_sub_comm]
    rw [f, f]
    exact mul_le_mul_of_nonneg_right h hp.le
  obtain ⟨m, k, hm, rfl⟩ := hy
  by_cases hk : e - 52 ≤ k
  · obtain ⟨j, hj⟩ := Int.eq_ofNat_of_zero_le (sub_nonneg.mpr hk)
    have e1 : (m : ℝ) * (2 : ℝ) ^ k = ((m * 2 ^ j : ℤ) : ℝ) * (2 : ℝ) ^ (e - 52) := by
      push_cast
      rw [mul_assoc, ← zpow_natCast, ← zpow_add₀ two_ne_zero]
      congr 2
      omega
    rw [e1]
    exact key _
  · -- a double below the binade is farther than the end of the binade
    have hlt : |(m : ℝ) * (2 : ℝ) ^ k| ≤ (2 : ℝ) ^ e := by
      rw [abs_mul, abs_of_pos (by positivity : (0 : ℝ) < (2 : ℝ) ^ k)]
      have hm' : |(m : ℝ)| ≤ 2 ^ 53 := by exact_mod_cast hm.le
      calc |(m : ℝ)| * (2 : ℝ) ^ k ≤ 2 ^ 53 * (2 : ℝ) ^ (e - 53) :=
            mul_le_mul hm' (zpow_le_zpow_right₀ (by norm_num) (by omega)) (by positivity) (by positivity)
        _ = (2 : ℝ) ^ e := by rw [← zpow_natCast, ← zpow_add₀ two_ne_zero]; congr 1; push_cast; ring
    have e2 : ∀ t : ℤ, (t = 1 ∨ t = -1) → ((t * 2 ^ 52 : ℤ) : ℝ) * (2 : ℝ) ^ (e - 52) = t * (2 : ℝ) ^ e := by
      intro t _
      rw [two_zpow_split e]; push_cast; ring
    have far : |x| - (2 : ℝ) ^ e ≤ |(m : ℝ) * (2 : ℝ) ^ k - x| := by
      have := abs_sub_abs_le_abs_sub x ((m : ℝ) * (2 : ℝ) ^ k)
      rw [abs_sub_comm] at this
      linarith
    refine le_trans ?_ far
    rcases lt_or_gt_of_ne hx with h | h
    · have := key ((-1) * 2 ^ 52)
      rw [e2 (-1) (Or.inr rfl)] at this
      refine this.trans ?_
      rw [abs_of_neg h] at h1 ⊢
      push_cast
      rw [abs_of_nonneg (by linarith)]
      linarith
    · have := key (1 * 2 ^ 52)
      rw [e2 1 (Or.inl rfl)] at this
      refine this.trans ?_
      rw [abs_of_pos h] at h1 ⊢
      push_cast
      rw [abs_of_nonpos (by linarith)]
      linarith

/-- Rounding to nearest exists. -/
theorem roundDouble_rounds : RoundsToNearest roundDouble := fun x => ⟨roundDouble_isDouble x, fun _ => roundDouble_nearest x⟩

/-- Rounding to the nearest double changes a number by at most `2^-53` of its value. -/
theorem nearest_rnd {fl : ℝ → ℝ} (h : RoundsToNearest fl) (x : ℝ) : Rnd ((2 : ℝ) ^ (-53 : ℤ)) x (fl x) := by
  unfold Rnd
  refine ((h x).2 _ (roundDouble_isDouble x)).trans ?_
  by_cases hx : x = 0
  · simp [roundDouble, hx]
  obtain ⟨h1, -⟩ := log_bounds hx
  unfold roundDouble
  generalize Int.log 2 |x| = e at *
  have hp : (0 : ℝ) < (2 : ℝ) ^ (e - 52) := by positivity
  have h4 := abs_sub_round (x / (2 : ℝ) ^ (e - 52))
  have e1 : |(round (x / (2 : ℝ) ^ (e - 52)) : ℝ) * (2 : ℝ) ^ (e - 52) - x|
      = |x / (2 : ℝ) ^ (e - 52) - round (x / (2 : ℝ) ^ (e - 52))| * (2 : ℝ) ^ (e - 52) := by
    rw [← abs_of_pos hp, ← abs_mul, abs_of_pos hp, sub_mul, div_mul_cancel₀ _ hp.ne', abs_sub_comm]
  rw [e1]
  calc _ ≤ 1 / 2 * (2 : ℝ) ^ (e - 52) := mul_le_mul_of_nonneg_right h4 hp.le
    _ = (2 : ℝ) ^ (-53 : ℤ) * (2 : ℝ) ^ e := by
      rw [← zpow_add₀ two_ne_zero, show (-53 : ℤ) + e = (e - 52) + (-1) by ring, zpow_add₀ two_ne_zero]
      norm_num
      ring
    _ ≤ _ := mul_le_mul_of_nonneg_left h1 (by positivity)

end PyBSM
