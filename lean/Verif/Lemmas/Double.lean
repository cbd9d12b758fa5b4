import Verif.Num.Rounding
import Mathlib.Tactic.Push

/-!
# Lemmas about rounding to the nearest double
-/

noncomputable section

namespace PyBSM

theorem IsDouble.neg {x : ℝ} (h : IsDouble x) : IsDouble (-x) := by
  obtain ⟨m, e, hm, rfl⟩ := h
  exact ⟨-m, e, by rwa [abs_neg], by push_cast; ring⟩

/-- Integers below `2^53` and their quotients by powers of two are doubles. -/
theorem isDouble_dyadic {m : ℤ} (e : ℤ) (hm : |m| < 2 ^ 53) : IsDouble (m * (2 : ℝ) ^ e) := ⟨m, e, hm, rfl⟩

theorem isDouble_int {m : ℤ} (hm : |m| < 2 ^ 53) : IsDouble (m : ℝ) := ⟨m, 0, hm, by simp⟩

theorem isDouble_nat {m : ℕ} (hm : m < 2 ^ 53) : IsDouble (m : ℝ) :=
  ⟨m, 0, by rw [Nat.abs_cast]; exact_mod_cast hm, by simp⟩

/-- A double is its own rounding. -/
theorem RoundsToNearest.self {fl : ℝ → ℝ} (h : RoundsToNearest fl) {x : ℝ} (hx : IsDouble x) : fl x = x := by
  have := (h x).2 x hx
  rw [sub_self, abs_zero] at this
  linarith [abs_nonpos_iff.mp this]

theorem RoundsToNearest.zero {fl : ℝ → ℝ} (h : RoundsToNearest fl) : fl 0 = 0 := h.self ⟨0, 0, by norm_num, by simp⟩

/-- Rounding is monotone, whatever it does with ties. -/
theorem RoundsToNearest.mono {fl : ℝ → ℝ} (h : RoundsToNearest fl) {x y : ℝ} (hxy : x ≤ y) : fl x ≤ fl y := by
  rcases hxy.eq_or_lt with rfl | hlt
  · exact le_rfl
  by_contra hc
  push Not at hc
  have h1 := (h x).2 _ (h y).1
  have h2 := (h y).2 _ (h x).1
  rw [abs_le_abs_iff_sq] at h1 h2
  nlinarith
where
  abs_le_abs_iff_sq {a b : ℝ} : |a| ≤ |b| ↔ a ^ 2 ≤ b ^ 2 := sq_le_sq.symm

/-- Mirrored rounding. -/
theorem RoundsToNearest.mirror {fl : ℝ → ℝ} (h : RoundsToNearest fl) : RoundsToNearest fun x => -fl (-x) := by
  intro x
  refine ⟨(h (-x)).1.neg, fun y hy => ?_⟩
  have := (h (-x)).2 _ hy.neg
  rw [← abs_neg, show -(-fl (-x) - x) = fl (-x) - -x by ring]
  refine this.trans_eq ?_
  rw [← abs_neg]; congr 1; ring

/-- Nothing is rounded to zero but zero. -/
theorem RoundsToNearest.eq_zero {fl : ℝ → ℝ} (h : RoundsToNearest fl) {x : ℝ} (hx : fl x = 0) : x = 0 := by
  have := nearest_rnd h x
  unfold Rnd at this
  rw [hx, zero_sub, abs_neg] at this
  have h2 : (2 : ℝ) ^ (-53 : ℤ) ≤ 1 / 2 := by norm_num
  have h3 := abs_nonneg x
  have h4 : (2 : ℝ) ^ (-53 : ℤ) * |x| ≤ 1 / 2 * |x| := mul_le_mul_of_nonneg_right h2 h3
  have h5 := this.trans h4
  exact abs_eq_zero.mp (by linarith)

/-- Between two neighbours there is no double. -/
theorem no_double_between {m : ℤ} (h1 : 2 ^ 52 ≤ m) (h2 : m < 2 ^ 53) (e : ℤ) {y : ℝ} (hy : IsDouble y) :
    y ≤ m * (2 : ℝ) ^ e ∨ (m + 1) * (2 : ℝ) ^ e ≤ y := by
  obtain ⟨k, j, hk, rfl⟩ := hy
  have he : (0 : ℝ) < (2 : ℝ) ^ e := by positivity
  by_cases hj : e ≤ j
  · obtain ⟨d, hd⟩ := Int.eq_ofNat_of_zero_le (sub_nonneg.mpr hj)
    have e1 : (k : ℝ) * (2 : ℝ) ^ j = ((k * 2 ^ d : ℤ) : ℝ) * (2 : ℝ) ^ e := by
      push_cast
      rw [mul_assoc, ← zpow_natCast, ← zpow_add₀ two_ne_zero]
      congr 2
      omega
    rw [e1]
    rcases le_or_gt (k * 2 ^ d) m with h | h
    · left
      exact mul_le_mul_of_nonneg_right (by exact_mod_cast h) he.le
    · right
      exact mul_le_mul_of_nonneg_right (by exact_mod_cast h) he.le
  · left
    push Not at hj
    have hk' : (k : ℝ) ≤ 2 ^ 53 := by exact_mod_cast (le_trans (le_abs_self k) hk.le)
    have hm' : (2 : ℝ) ^ 52 ≤ m := by exact_mod_cast h1
    calc (k : ℝ) * (2 : ℝ) ^ j ≤ 2 ^ 53 * (2 : ℝ) ^ (e - 1) :=
          mul_le_mul hk' (zpow_le_zpow_right₀ (by norm_num) (by omega)) (by positivity) (by positivity)
      _ = 2 ^ 52 * (2 : ℝ) ^ e := by rw [zpow_sub₀ two_ne_zero]; norm_num; ring
      _ ≤ _ := mul_le_mul_of_nonneg_right hm' he.le

/-- Below the middle between two neighbours the rounding is at most the lower one. -/
theorem RoundsToNearest.le_of_lt {fl : ℝ → ℝ} (h : RoundsToNearest fl) {m : ℤ} (h1 : 2 ^ 52 ≤ m) (h2 : m < 2 ^ 53) (e : ℤ)
    {x : ℝ} (hx : x < (m + 1 / 2) * (2 : ℝ) ^ e) : fl x ≤ m * (2 : ℝ) ^ e := by
  have he : (0 : ℝ) < (2 : ℝ) ^ e := by positivity
  rcases no_double_between h1 h2 e (h x).1 with h3 | h3
  · exact h3
  · exfalso
    have h4 := (h x).2 (m * (2 : ℝ) ^ e) (isDouble_dyadic e (by rw [abs_of_nonneg (by omega)]; exact h2))
    have h5 := le_abs_self (fl x - x)
    rcases abs_cases (m * (2 : ℝ) ^ e - x) with ⟨h6, -⟩ | ⟨h6, -⟩
    · rw [h6] at h4; nlinarith
    · rw [h6] at h4; nlinarith

/-- Above the middle between two neighbours the rounding is at least the upper one. -/
theorem RoundsToNearest.ge_of_gt {fl : ℝ → ℝ} (h : RoundsToNearest fl) {m : ℤ} (h1 : 2 ^ 52 ≤ m) (h2 : m < 2 ^ 53) (e : ℤ)
    {x : ℝ} (hx : (m + 1 / 2) * (2 : ℝ) ^ e < x) : (m + 1) * (2 : ℝ) ^ e ≤ fl x := by
  have he : (0 : ℝ) < (2 : ℝ) ^ e := by positivity
  rcases no_double_between h1 h2 e (h x).1 with h3 | h3
  · exfalso
    have hd : IsDouble ((m + 1) * (2 : ℝ) ^ e) := by
      rcases Int.lt_iff_le_and_ne.mp (show m < 2 ^ 53 from h2) with ⟨-, -⟩
      by_cases h6 : m + 1 < 2 ^ 53
      · have := isDouble_dyadic e (m := m + 1) (by rw [abs_of_nonneg (by omega)]; exact h6)
        push_cast at this
        exact this
      · have : m + 1 = 2 ^ 53 := by omega
        refine ⟨1, 53 + e, by norm_num, ?_⟩
        rw [zpow_add₀ two_ne_zero]
        have h7 : (m : ℝ) + 1 = 2 ^ 53 := by exact_mod_cast this
        rw [h7]; push_cast; norm_num
    have h4 := (h x).2 _ hd
    have h5 := neg_le_abs (fl x - x)
    rcases abs_cases ((m + 1) * (2 : ℝ) ^ e - x) with ⟨h6, -⟩ | ⟨h6, -⟩
    · rw [h6] at h4; nlinarith
    · rw [h6] at h4; nlinarith
  · exact h3

/-- The rounding of a number that is nearer to a double than half the distance to its neighbours. -/
theorem RoundsToNearest.eq {fl : ℝ → ℝ} (h : RoundsToNearest fl) {m : ℤ} (h1 : 2 ^ 52 < m) (h2 : m < 2 ^ 53) (e : ℤ)
    {x : ℝ} (l : (m - 1 / 2) * (2 : ℝ) ^ e < x) (u : x < (m + 1 / 2) * (2 : ℝ) ^ e) : fl x = m * (2 : ℝ) ^ e := by
  refine le_antisymm (h.le_of_lt h1.le h2 e u) ?_
  have := h.ge_of_gt (m := m - 1) (by omega) (by omega) e (x := x) (by push_cast; convert l using 2; ring)
  push_cast at this
  simpa using this

/-- The relative error, in decimal. -/
theorem RoundsToNearest.error {fl : ℝ → ℝ} (h : RoundsToNearest fl) (x : ℝ) : |fl x - x| ≤ 1.2e-16 * |x| :=
  (nearest_rnd h x).trans (mul_le_mul_of_nonneg_right (by norm_num) (abs_nonneg x))

end PyBSM
