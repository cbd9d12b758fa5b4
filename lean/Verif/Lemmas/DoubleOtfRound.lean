import Verif.Lemmas.DoubleOtf
import Verif.Lemmas.DoubleGiqe
import Verif.Model.DoubleOtf
import Verif.Spec.DoubleOtf
import Mathlib.Analysis.Real.Pi.Bounds

/-!
# Rounding errors of the diffraction MTF
-/

noncomputable section

open Classical

namespace PyBSM

open Spec

variable {fl sqD acosD sinD tanD atanD : ℝ → ℝ}

theorem Apx.quot {k k' x' x m y' y : ℝ} (h : Apx k x' x m) (h' : Apx k' y' y y) (hy : 0 < y) (hk0 : 0 ≤ k) (hk : k ≤ 100)
    (hk' : k' ≤ 100) : Apx (k + k' + 1) (x' / y') (x / y) (m / y) := by
  have hm := h.size
  have hk'0 : 0 ≤ k' := by
    by_contra hc
    have := (abs_nonneg _).trans h'.1
    nlinarith
  obtain ⟨b1, b2⟩ := abs_le.mp h'.1
  have b3 : k' * 1e-15 * y ≤ 100 * 1e-15 * y := by gcongr
  have hy' : (1 - 100 * 1e-15) * y ≤ y' := by linarith
  have hy0 : 0 < y' := lt_of_lt_of_le (by positivity) hy'
  refine ⟨?_, by rw [abs_div, abs_of_pos hy]; exact div_le_div_of_nonneg_right h.2 hy.le⟩
  have e : x' / y' - x / y = ((x' - x) * y - x * (y' - y)) / (y' * y) := by field_simp; ring
  rw [e, abs_div, abs_of_pos (mul_pos hy0 hy), div_le_iff₀ (mul_pos hy0 hy)]
  have s1 : |(x' - x) * y - x * (y' - y)| ≤ (k + k') * 1e-15 * (m * y) := by
    refine (abs_sub _ _).trans ?_
    rw [abs_mul, abs_mul, abs_of_pos hy]
    have c1 : |x' - x| * y ≤ k * 1e-15 * m * y := mul_le_mul_of_nonneg_right h.1 hy.le
    have c2 : |x| * |y' - y| ≤ m * (k' * 1e-15 * y) := mul_le_mul h.2 h'.1 (abs_nonneg _) hm
    linarith
  refine s1.trans ?_
  have e2 : (k + k' + 1) * 1e-15 * (m / y) * (y' * y) = (k + k' + 1) * 1e-15 * (m * y') := by field_simp
  rw [e2]
  have s2 : (k + k' + 1) * 1e-15 * (m * ((1 - 100 * 1e-15) * y)) ≤ (k + k' + 1) * 1e-15 * (m * y') := by gcongr
  refine le_trans ?_ s2
  have hmy : 0 ≤ m * y := by positivity
  have : (k + k') * 1e-15 ≤ (k + k' + 1) * 1e-15 * (1 - 100 * 1e-15) := by nlinarith
  calc (k + k') * 1e-15 * (m * y) ≤ (k + k' + 1) * 1e-15 * (1 - 100 * 1e-15) * (m * y) := mul_le_mul_of_nonneg_right this hmy
    _ = _ := by ring

theorem Apx.root {k x' x : ℝ} (h : Apx k x' x x) (hk : k ≤ 100) : Apx k (Real.sqrt x') (Real.sqrt x) (Real.sqrt x) := by
  have hx := h.size
  refine ⟨?_, (abs_of_nonneg (Real.sqrt_nonneg _)).le⟩
  rcases hx.eq_or_lt with h0 | h0
  · have := h.1
    rw [← h0, mul_zero, sub_zero] at this
    rw [← h0, abs_eq_zero.mp (le_antisymm this (abs_nonneg _))]; simp
  · have h1 := h.1
    have hb : k * 1e-15 * x ≤ 100 * 1e-15 * x := by gcongr
    have hx' : 0 ≤ x' := by have := (abs_le.mp h1).1; linarith
    have s0 := Real.sqrt_pos.mpr h0
    have s1 := Real.sqrt_nonneg x'
    have q0 := Real.sq_sqrt h0.le
    have q1 := Real.sq_sqrt hx'
    have e : (Real.sqrt x' - Real.sqrt x) * (Real.sqrt x' + Real.sqrt x) = x' - x := by linear_combination q1 - q0
    have e' : |Real.sqrt x' - Real.sqrt x| * (Real.sqrt x' + Real.sqrt x) = |x' - x| := by
      rw [← e, abs_mul, abs_of_nonneg (by positivity : 0 ≤ Real.sqrt x' + Real.sqrt x)]
    have : |Real.sqrt x' - Real.sqrt x| * Real.sqrt x ≤ k * 1e-15 * Real.sqrt x * Real.sqrt x := by
      calc |Real.sqrt x' - Real.sqrt x| * Real.sqrt x ≤ |Real.sqrt x' - Real.sqrt x| * (Real.sqrt x' + Real.sqrt x) := by
            gcongr; linarith
        _ = |x' - x| := e'
        _ ≤ k * 1e-15 * x := h1
        _ = _ := by rw [mul_assoc (k * 1e-15), ← pow_two, q0]
    exact le_of_mul_le_mul_right this s0

theorem abs_sqrt_sub_le {a b e : ℝ} (ha : 0 ≤ a) (hb : 0 ≤ b) (he : 0 ≤ e) (h : |a - b| ≤ e ^ 2) :
    |Real.sqrt a - Real.sqrt b| ≤ e := by
  obtain ⟨h1, h2⟩ := abs_le.mp h
  rw [abs_le]
  constructor
  · have : Real.sqrt b ≤ Real.sqrt a + e := by
      rw [Real.sqrt_le_left (by positivity)]
      nlinarith [Real.sq_sqrt ha, Real.sqrt_nonneg a, mul_nonneg (Real.sqrt_nonneg a) he]
    linarith
  · have : Real.sqrt a ≤ Real.sqrt b + e := by
      rw [Real.sqrt_le_left (by positivity)]
      nlinarith [Real.sq_sqrt hb, Real.sqrt_nonneg b, mul_nonneg (Real.sqrt_nonneg b) he]
    linarith

theorem fl_close (hfl : RoundsToNearest fl) {x B : ℝ} (h : |x| ≤ B) : |fl x - x| ≤ 1.2e-16 * B :=
  (hfl.error x).trans (mul_le_mul_of_nonneg_left h (by norm_num))

/-- The chord term. -/
theorem chord_value (hfl : RoundsToNearest fl) (hl : TrigLibrary sqD acosD sinD tanD atanD) {c' c q t : ℝ} (ht : 0 ≤ t)
    (hq : |q - t| ≤ 1e-14 * t) (hc : Apx 10 c' c c) :
    ∃ y, (chordD fl acosD c' q).nanToNum = .fin y ∧ |y - c * chordAngle (Real.arccos t)| ≤ 3e-8 * c := by
  have hc0 := hc.size
  obtain ⟨q1, q2⟩ := abs_le.mp hq
  have hq0 : 0 ≤ q := by linarith
  have hlip : |chordAngle (Real.arccos q) - chordAngle (Real.arccos t)| ≤ 1e-13 := by
    rcases le_or_gt t 2 with h2 | h2
    · refine (chord_lip q t).trans ?_
      linarith
    · rw [Real.arccos_of_one_le (by linarith), Real.arccos_of_one_le (by linarith), sub_self, abs_zero]; norm_num
  rcases le_or_gt q 1 with h1 | h1
  · have hq1 : |q| ≤ 1 := by rw [abs_of_nonneg hq0]; exact h1
    have hq2 : q ^ 2 ≤ 1 := by nlinarith
    have hy0 : ¬ fl (1 - fl (q ^ 2)) < 0 := by
      rw [not_lt, ← hfl.zero]
      apply hfl.mono
      have := hfl.mono hq2
      have one : fl 1 = 1 := hfl.self (by simpa using isDouble_nat (m := 1) (by norm_num))
      rw [one] at this
      linarith
    refine ⟨fl (c' * fl (acosD q - fl (q * fl (Real.sqrt (fl (1 - fl (q ^ 2))))))), ?_, ?_⟩
    · unfold chordD arccosD
      rw [if_pos hq1]
      simp only [if_neg hy0]
      rfl
    have e1 := fl_close hfl (x := q ^ 2) (B := 1) (by rw [abs_of_nonneg (sq_nonneg q)]; exact hq2)
    generalize fl (q ^ 2) = z at *
    have e2 := fl_close hfl (x := 1 - z) (B := 2) (by
      obtain ⟨a, b⟩ := abs_le.mp e1
      rw [abs_le]; constructor <;> nlinarith)
    generalize fl (1 - z) = y at *
    push Not at hy0
    have e3 : |y - (1 - q ^ 2)| ≤ (2e-8) ^ 2 := by
      rw [show y - (1 - q ^ 2) = (y - (1 - z)) - (z - q ^ 2) by ring]
      refine (abs_sub _ _).trans ((add_le_add e2 e1).trans (by norm_num))
    have e4 := abs_sqrt_sub_le hy0 (by linarith) (by norm_num) e3
    have s1 : Real.sqrt (1 - q ^ 2) ≤ 1 := by rw [Real.sqrt_le_left one_pos.le]; nlinarith
    have s0 := Real.sqrt_nonneg (1 - q ^ 2)
    have es : chordAngle (Real.arccos q) = Real.arccos q - q * Real.sqrt (1 - q ^ 2) := by
      unfold chordAngle
      rw [Real.cos_arccos (by linarith) h1, Real.sin_arccos]
    generalize Real.sqrt (1 - q ^ 2) = s at *
    obtain ⟨f1, f2⟩ := abs_le.mp e4
    have e5 := fl_close hfl (x := Real.sqrt y) (B := 2) (by
      rw [abs_of_nonneg (Real.sqrt_nonneg _)]; linarith)
    generalize Real.sqrt y = r at *
    have e6 : |fl r - s| ≤ 2.1e-8 := by
      refine (abs_sub_le _ r _).trans ((add_le_add e5 e4).trans (by norm_num))
    generalize fl r = r' at *
    have e7 : |q * r' - q * s| ≤ 2.1e-8 := by
      rw [← mul_sub, abs_mul]
      exact (mul_le_of_le_one_left (abs_nonneg _) hq1).trans e6
    have hqs : |q * s| ≤ 1 := by
      rw [abs_mul, abs_of_nonneg s0]
      exact mul_le_one₀ hq1 s0 s1
    have e8 := fl_close hfl (x := q * r') (B := 2) (by
      have := abs_sub_abs_le_abs_sub (q * r') (q * s)
      linarith)
    have e9 : |fl (q * r') - q * s| ≤ 2.2e-8 :=
      (abs_sub_le _ (q * r') _).trans ((add_le_add e8 e7).trans (by norm_num))
    generalize fl (q * r') = x at *
    have hp := hl.acos q hq1
    have hp4 : Real.arccos q ≤ 4 := (Real.arccos_le_pi q).trans (by linarith [Real.pi_lt_d2])
    have hp0 := Real.arccos_nonneg q
    have e10 : |(acosD q - x) - chordAngle (Real.arccos q)| ≤ 2.3e-8 := by
      rw [es, show acosD q - x - (Real.arccos q - q * s) = (acosD q - Real.arccos q) - (x - q * s) by ring]
      refine (abs_sub _ _).trans ?_
      linarith
    have hca : |chordAngle (Real.arccos q)| ≤ 5 := by
      rw [es]
      refine (abs_sub _ _).trans ?_
      rw [abs_of_nonneg hp0]; linarith
    generalize chordAngle (Real.arccos q) = A at *
    generalize acosD q - x = w at *
    have e11 := fl_close hfl (x := w) (B := 6) (by
      have := abs_sub_abs_le_abs_sub w A
      linarith)
    have e12 : |fl w - A| ≤ 2.4e-8 := (abs_sub_le _ w _).trans ((add_le_add e11 e10).trans (by norm_num))
    generalize fl w = w' at *
    have hc1 := hc.1
    have e13 : |c' * w' - c * A| ≤ 2.5e-8 * c := by
      rw [show c' * w' - c * A = (c' - c) * w' + c * (w' - A) by ring]
      refine (abs_add_le _ _).trans ?_
      rw [abs_mul, abs_mul, abs_of_nonneg hc0]
      have hw : |w'| ≤ 6 := by
        have := abs_sub_abs_le_abs_sub w' A
        linarith
      have a1 : |c' - c| * |w'| ≤ 10 * 1e-15 * c * 6 := mul_le_mul hc1 hw (abs_nonneg _) (by positivity)
      have a2 : c * |w' - A| ≤ c * 2.4e-8 := mul_le_mul_of_nonneg_left e12 hc0
      linarith
    have hcA : |c * A| ≤ 5 * c := by
      rw [abs_mul, abs_of_nonneg hc0, mul_comm]
      exact mul_le_mul_of_nonneg_right hca hc0
    have e14 := fl_close hfl (x := c' * w') (B := 6 * c) (by
      have := abs_sub_abs_le_abs_sub (c' * w') (c * A)
      linarith)
    have e15 : |c * A - c * chordAngle (Real.arccos t)| ≤ 1e-13 * c := by
      rw [← mul_sub, abs_mul, abs_of_nonneg hc0, mul_comm]
      exact mul_le_mul_of_nonneg_right hlip hc0
    have := abs_sub_le (fl (c' * w')) (c' * w') (c * chordAngle (Real.arccos t))
    have := abs_sub_le (c' * w') (c * A) (c * chordAngle (Real.arccos t))
    linarith
  · refine ⟨0, ?_, ?_⟩
    · unfold chordD arccosD
      rw [if_neg (by rw [abs_of_nonneg hq0]; linarith)]
      rfl
    · rw [Real.arccos_of_one_le h1.le] at hlip
      have : chordAngle 0 = 0 := by unfold chordAngle; simp
      rw [this, zero_sub, abs_neg] at hlip
      rw [zero_sub, abs_neg, abs_mul, abs_of_nonneg hc0, mul_comm]
      exact mul_le_mul_of_nonneg_right (hlip.trans (by norm_num)) hc0

end PyBSM
