import Verif.Num.Rounding
import Verif.Num.XR

/-!
# IEEE 754 double precision, with its limits

`Num/Rounding.lean` has doubles without limits on the exponent. Here: the finite doubles, and rounding to nearest with
overflow to infinity and gradual underflow. Not modelled: the sign of zero.
-/

noncomputable section

open Classical

namespace PyBSM

/-- The finite numbers of IEEE 754 double precision (`binary64`). -/
def IsBinary64 (x : ℝ) : Prop := ∃ m e : ℤ, |m| < 2 ^ 53 ∧ -1074 ≤ e ∧ e ≤ 971 ∧ x = m * (2 : ℝ) ^ e

/-- From here on (half a unit above the largest double) numbers are rounded to infinity. -/
def overflowAt : ℝ := (2 : ℝ) ^ (1024 : ℤ) - (2 : ℝ) ^ (970 : ℤ)

/-- `fl` gives the double that an operation with the exact value `x` returns, when rounding to nearest. -/
structure RoundsIeee (fl : ℝ → XR) : Prop where
  finite : ∀ x, |x| < overflowAt → ∃ y, fl x = .fin y ∧ IsBinary64 y ∧ ∀ z, IsBinary64 z → |y - x| ≤ |z - x|
  over : ∀ x, overflowAt ≤ x → fl x = .pinf
  under : ∀ x, x ≤ -overflowAt → fl x = .ninf

/-- Such a rounding. -/
def roundIeee (x : ℝ) : XR :=
  if overflowAt ≤ x then .pinf else if x ≤ -overflowAt then .ninf
  else if |x| < (2 : ℝ) ^ (-1022 : ℤ) then .fin (round (x / (2 : ℝ) ^ (-1074 : ℤ)) * (2 : ℝ) ^ (-1074 : ℤ))
  else .fin (roundDouble x)

theorem pow_split {a b : ℤ} (n : ℕ) (h : a = n + b) : (2 : ℝ) ^ a = 2 ^ n * (2 : ℝ) ^ b := by
  rw [h, zpow_add₀ two_ne_zero, zpow_natCast]

theorem IsBinary64.isDouble {x : ℝ} (h : IsBinary64 x) : IsDouble x := by
  obtain ⟨m, e, hm, -, -, rfl⟩ := h
  exact ⟨m, e, hm, rfl⟩

/-- Every finite double is a multiple of the smallest. -/
theorem IsBinary64.multiple {x : ℝ} (h : IsBinary64 x) : ∃ k : ℤ, x = k * (2 : ℝ) ^ (-1074 : ℤ) := by
  obtain ⟨m, e, -, h1, -, rfl⟩ := h
  obtain ⟨j, hj⟩ := Int.eq_ofNat_of_zero_le (by omega : 0 ≤ e - (-1074))
  refine ⟨m * 2 ^ j, ?_⟩
  rw [pow_split j (by omega : e = j + (-1074))]
  push_cast
  ring

theorem overflowAt_eq : overflowAt = (2 ^ 53 - 1 / 2) * (2 : ℝ) ^ (971 : ℤ) := by
  unfold overflowAt
  rw [pow_split 53 (by norm_num : (1024 : ℤ) = (53 : ℕ) + 971), pow_split 1 (by norm_num : (971 : ℤ) = (1 : ℕ) + 970)]
  ring

theorem IsBinary64.lt_overflow {x : ℝ} (h : IsBinary64 x) : |x| < overflowAt := by
  obtain ⟨m, e, hm, -, h2, rfl⟩ := h
  rw [overflowAt_eq, abs_mul, abs_of_pos (by positivity : (0 : ℝ) < (2 : ℝ) ^ e)]
  have h1 : |(m : ℝ)| ≤ 2 ^ 53 - 1 := by
    have : |m| ≤ 2 ^ 53 - 1 := by omega
    exact_mod_cast this
  have h3 : (2 : ℝ) ^ e ≤ (2 : ℝ) ^ (971 : ℤ) := zpow_le_zpow_right₀ (by norm_num) h2
  have h4 : (0 : ℝ) < (2 : ℝ) ^ (971 : ℤ) := by positivity
  calc |(m : ℝ)| * (2 : ℝ) ^ e ≤ (2 ^ 53 - 1) * (2 : ℝ) ^ (971 : ℤ) :=
        mul_le_mul h1 h3 (by positivity) (by norm_num)
    _ < _ := mul_lt_mul_of_pos_right (by norm_num) h4

/-- Below the smallest normal number the doubles are evenly spaced. -/
theorem binary64_of_multiple {x : ℝ} (k : ℤ) (h : x = k * (2 : ℝ) ^ (-1074 : ℤ)) (hx : |x| ≤ (2 : ℝ) ^ (-1022 : ℤ)) :
    IsBinary64 x := by
  refine ⟨k, -1074, ?_, le_rfl, by norm_num, h⟩
  have hp : (0 : ℝ) < (2 : ℝ) ^ (-1074 : ℤ) := by positivity
  rw [h, abs_mul, abs_of_pos hp, pow_split 52 (by norm_num : (-1022 : ℤ) = (52 : ℕ) + -1074)] at hx
  have h1 : |(k : ℝ)| ≤ 2 ^ 52 := le_of_mul_le_mul_right hx hp
  have h2 : |k| ≤ 2 ^ 52 := by exact_mod_cast h1
  exact lt_of_le_of_lt h2 (by norm_num)

theorem roundDouble_binary64 {x : ℝ} (h1 : (2 : ℝ) ^ (-1022 : ℤ) ≤ |x|) (h2 : |x| < overflowAt) : IsBinary64 (roundDouble x) := by
  have hx : x ≠ 0 := by
    rintro rfl
    rw [abs_zero] at h1
    exact absurd h1 (not_le.mpr (by positivity))
  obtain ⟨l1, l2⟩ := log_bounds hx
  unfold roundDouble
  generalize Int.log 2 |x| = e at *
  have e1 : -1022 ≤ e := by
    by_contra hc
    have : (2 : ℝ) ^ (e + 1) ≤ (2 : ℝ) ^ (-1022 : ℤ) := zpow_le_zpow_right₀ (by norm_num) (by omega)
    linarith
  have e2 : e ≤ 1023 := by
    by_contra hc
    have h3 : (2 : ℝ) ^ (1024 : ℤ) ≤ (2 : ℝ) ^ e := zpow_le_zpow_right₀ (by norm_num) (by omega)
    have h4 : (0 : ℝ) < (2 : ℝ) ^ (970 : ℤ) := by positivity
    unfold overflowAt at h2
    generalize (2 : ℝ) ^ (1024 : ℤ) = A at *
    generalize (2 : ℝ) ^ (970 : ℤ) = B at *
    linarith
  have hp : (0 : ℝ) < (2 : ℝ) ^ (e - 52) := by positivity
  have h3 : |x / (2 : ℝ) ^ (e - 52)| < 2 ^ 53 := by
    rw [abs_div, abs_of_pos hp, div_lt_iff₀ hp, ← pow_split 53 (by push_cast; ring : e + 1 = (53 : ℕ) + (e - 52))]
    exact l2
  have h4 := abs_sub_round (x / (2 : ℝ) ^ (e - 52))
  have h6 : e = 1023 → |x / (2 : ℝ) ^ (e - 52)| < 2 ^ 53 - 1 / 2 := by
    rintro rfl
    rw [abs_div, abs_of_pos hp, div_lt_iff₀ hp]
    rw [overflowAt_eq] at h2
    norm_num at h2 ⊢
    exact h2
  generalize hr : round (x / (2 : ℝ) ^ (e - 52)) = m at *
  generalize x / (2 : ℝ) ^ (e - 52) = z at *
  rw [abs_lt] at h3
  rw [abs_le] at h4
  have b1 : (m : ℝ) < 2 ^ 53 + 1 := by linarith
  have b2 : -(2 ^ 53 + 1 : ℝ) < (m : ℝ) := by linarith
  have c1 : m < 2 ^ 53 + 1 := by exact_mod_cast b1
  have c2 : -(2 ^ 53 + 1 : ℤ) < m := by exact_mod_cast b2
  have hle : |m| ≤ 2 ^ 53 := by rw [abs_le]; constructor <;> omega
  rcases hle.lt_or_eq with h | h
  · exact ⟨m, e - 52, h, by omega, by omega, rfl⟩
  · have e3 : e ≤ 1022 := by
      by_contra hc
      have h7 := h6 (by omega)
      rw [abs_lt] at h7
      have d1 : (m : ℝ) < 2 ^ 53 := by linarith
      have d2 : -(2 ^ 53 : ℝ) < (m : ℝ) := by linarith
      have d1' : m < 2 ^ 53 := by exact_mod_cast d1
      have d2' : -(2 ^ 53 : ℤ) < m := by exact_mod_cast d2
      rcases abs_eq (by norm_num : (0 : ℤ) ≤ 2 ^ 53) |>.mp h with h | h <;> omega
    have e4 := pow_split 1 (by push_cast; ring : e - 51 = (1 : ℕ) + (e - 52))
    rcases abs_eq (by norm_num : (0 : ℤ) ≤ 2 ^ 53) |>.mp h with h | h
    · exact ⟨2 ^ 52, e - 51, by norm_num, by omega, by omega, by rw [h, e4]; push_cast; ring⟩
    · exact ⟨-2 ^ 52, e - 51, by norm_num, by omega, by omega, by rw [h, e4]; push_cast; ring⟩

/-- Rounding to nearest exists. -/
theorem roundIeee_rounds : RoundsIeee roundIeee := by
  have hpos : 0 < overflowAt := by
    rw [overflowAt_eq]
    have : (0 : ℝ) < (2 : ℝ) ^ (971 : ℤ) := by positivity
    exact mul_pos (by norm_num) this
  refine ⟨fun x hx => ?_, fun x hx => if_pos hx, fun x hx => ?_⟩
  · obtain ⟨a1, a2⟩ := abs_lt.mp hx
    unfold roundIeee
    rw [if_neg (not_le.mpr a2), if_neg (not_le.mpr a1)]
    split_ifs with h
    · have hp : (0 : ℝ) < (2 : ℝ) ^ (-1074 : ℤ) := by positivity
      have key : ∀ z : ℤ, |(round (x / (2 : ℝ) ^ (-1074 : ℤ)) : ℝ) * (2 : ℝ) ^ (-1074 : ℤ) - x|
          ≤ |(z : ℝ) * (2 : ℝ) ^ (-1074 : ℤ) - x| := by
        intro z
        have h := round_le (x / (2 : ℝ) ^ (-1074 : ℤ)) z
        have f : ∀ w : ℝ, |w * (2 : ℝ) ^ (-1074 : ℤ) - x| = |x / (2 : ℝ) ^ (-1074 : ℤ) - w| * (2 : ℝ) ^ (-1074 : ℤ) := by
          intro w
          rw [← abs_of_pos hp, ← abs_mul, abs_of_pos hp, sub_mul, div_mul_cancel₀ _ hp.ne', abs_sub_comm]
        rw [f, f]
        exact mul_le_mul_of_nonneg_right h hp.le
      refine ⟨_, rfl, ?_, fun z hz => ?_⟩
      · refine ⟨round (x / (2 : ℝ) ^ (-1074 : ℤ)), -1074, ?_, le_rfl, by norm_num, rfl⟩
        have h3 : |x / (2 : ℝ) ^ (-1074 : ℤ)| < 2 ^ 52 := by
          rw [abs_div, abs_of_pos hp, div_lt_iff₀ hp, ← pow_split 52 (by norm_num : (-1022 : ℤ) = (52 : ℕ) + -1074)]
          exact h
        have h4 := abs_sub_round (x / (2 : ℝ) ^ (-1074 : ℤ))
        rw [abs_lt] at h3
        rw [abs_le] at h4
        have b1 : (round (x / (2 : ℝ) ^ (-1074 : ℤ)) : ℝ) < 2 ^ 53 := by linarith
        have b2 : -(2 ^ 53 : ℝ) < (round (x / (2 : ℝ) ^ (-1074 : ℤ)) : ℝ) := by linarith
        rw [abs_lt]
        exact ⟨by exact_mod_cast b2, by exact_mod_cast b1⟩
      · obtain ⟨k, rfl⟩ := hz.multiple
        exact key k
    · exact ⟨_, rfl, roundDouble_binary64 (not_lt.mp h) hx, fun z hz => roundDouble_nearest x hz.isDouble⟩
  · unfold roundIeee
    rw [if_neg (by linarith), if_pos hx]

namespace RoundsIeee

variable {fl : ℝ → XR} (h : RoundsIeee fl)

include h

/-- A double is not changed. -/
theorem exact {x : ℝ} (hx : IsBinary64 x) : fl x = .fin x := by
  obtain ⟨y, h1, -, h3⟩ := h.finite x hx.lt_overflow
  have := h3 x hx
  rw [sub_self, abs_zero, abs_nonpos_iff, sub_eq_zero] at this
  rw [h1, this]

/-- In the normal range the relative error is at most `2^-53`. -/
theorem rnd {x : ℝ} (h1 : (2 : ℝ) ^ (-1022 : ℤ) ≤ |x|) (h2 : |x| ≤ (2 : ℝ) ^ (1023 : ℤ)) :
    ∃ y, fl x = .fin y ∧ IsBinary64 y ∧ Rnd ((2 : ℝ) ^ (-53 : ℤ)) x y := by
  have h3 : |x| < overflowAt := by
    refine lt_of_le_of_lt h2 ?_
    unfold overflowAt
    have e1 := pow_split 1 (by norm_num : (1024 : ℤ) = (1 : ℕ) + 1023)
    have e2 : (2 : ℝ) ^ (970 : ℤ) < (2 : ℝ) ^ (1023 : ℤ) := zpow_lt_zpow_right₀ (by norm_num) (by norm_num)
    rw [e1, pow_one]
    generalize (2 : ℝ) ^ (1023 : ℤ) = A at *
    generalize (2 : ℝ) ^ (970 : ℤ) = B at *
    linarith
  obtain ⟨y, e, hy, hn⟩ := h.finite x h3
  refine ⟨y, e, hy, ?_⟩
  exact (hn _ (roundDouble_binary64 h1 h3)).trans (nearest_rnd roundDouble_rounds x)

end RoundsIeee

theorem zero_binary64 : IsBinary64 0 := ⟨0, 0, by norm_num, by norm_num, by norm_num, by simp⟩

/-- A difference of doubles is exact if it is below the normal range. -/
theorem IsBinary64.sub {x y : ℝ} (hx : IsBinary64 x) (hy : IsBinary64 y) (h : |x - y| ≤ (2 : ℝ) ^ (-1022 : ℤ)) :
    IsBinary64 (x - y) := by
  obtain ⟨j, rfl⟩ := hx.multiple
  obtain ⟨k, rfl⟩ := hy.multiple
  exact binary64_of_multiple (j - k) (by push_cast; ring) h

end PyBSM
