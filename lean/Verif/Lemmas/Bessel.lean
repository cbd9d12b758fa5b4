import Verif.Model.Otf
import Mathlib.Analysis.SpecialFunctions.Integrals.Basic
import Mathlib.Analysis.SpecialFunctions.Trigonometric.Bounds
import Mathlib.Analysis.Calculus.Deriv.Slope

/-!
# Bessel functions near zero
-/

noncomputable section

open intervalIntegral

namespace PyBSM

theorem cos_taylor (a h : ℝ) : |Real.cos (a - h) - Real.cos a - h * Real.sin a| ≤ 3 * h ^ 2 := by
  have h1 : |Real.cos h - 1| ≤ h ^ 2 / 2 := by
    rw [abs_le]; constructor
    · linarith [Real.one_sub_sq_div_two_le_cos (x := h)]
    · nlinarith [Real.cos_le_one h, sq_nonneg h]
  have h2 : |Real.sin h - h| ≤ 2 * h ^ 2 := by
    have h0 := abs_nonneg h
    rw [← sq_abs h]
    rcases le_or_gt |h| 1 with hh | hh
    · have hb := Real.sin_bound hh
      have h3 : |h| ^ 5 ≤ |h| ^ 2 := pow_le_pow_of_le_one h0 hh (by norm_num)
      have h4 : |h| ^ 3 ≤ |h| ^ 2 := pow_le_pow_of_le_one h0 hh (by norm_num)
      have h5 : |h ^ 3 / 6| = |h| ^ 3 / 6 := by rw [abs_div, abs_pow]; norm_num
      have h6 : |Real.sin h - h| ≤ |Real.sin h - (h - h ^ 3 / 6)| + |h ^ 3 / 6| := by
        have := abs_sub (Real.sin h - (h - h ^ 3 / 6)) (h ^ 3 / 6)
        rwa [show Real.sin h - (h - h ^ 3 / 6) - h ^ 3 / 6 = Real.sin h - h by ring] at this
      rw [h5] at h6
      nlinarith [sq_nonneg |h|]
    · have h7 := Real.abs_sin_le_one h
      have h8 := abs_sub (Real.sin h) h
      nlinarith
  have e : Real.cos (a - h) - Real.cos a - h * Real.sin a
      = Real.cos a * (Real.cos h - 1) + Real.sin a * (Real.sin h - h) := by rw [Real.cos_sub]; ring
  rw [e]
  calc _ ≤ |Real.cos a * (Real.cos h - 1)| + |Real.sin a * (Real.sin h - h)| := abs_add_le _ _
    _ = |Real.cos a| * |Real.cos h - 1| + |Real.sin a| * |Real.sin h - h| := by rw [abs_mul, abs_mul]
    _ ≤ 1 * (h ^ 2 / 2) + 1 * (2 * h ^ 2) := by
        gcongr
        · exact Real.abs_cos_le_one a
        · exact Real.abs_sin_le_one a
    _ ≤ _ := by nlinarith [sq_nonneg h]

theorem besselJ_zero (n : ℕ) : besselJ n 0 = if n = 0 then 1 else 0 := by
  unfold besselJ
  have hpi := Real.pi_pos.ne'
  split_ifs with h
  · subst h; simp [hpi]
  · have hn : (n : ℝ) ≠ 0 := by exact_mod_cast h
    have : ∫ t in (0 : ℝ)..Real.pi, Real.cos (n * t - 0 * Real.sin t) = 0 := by
      simp only [zero_mul, sub_zero]
      rw [intervalIntegral.integral_comp_mul_left (fun x => Real.cos x) hn, integral_cos]
      simp [Real.sin_nat_mul_pi]
    rw [this, mul_zero]

/-- The slope of `J_n` at zero. -/
def besselSlope (n : ℕ) : ℝ := (1 / Real.pi) * ∫ t in (0 : ℝ)..Real.pi, Real.sin t * Real.sin (n * t)

theorem besselJ_hasDerivAt (n : ℕ) : HasDerivAt (besselJ n) (besselSlope n) 0 := by
  rw [hasDerivAt_iff_isLittleO_nhds_zero]
  have hpi := Real.pi_pos
  apply Asymptotics.IsBigO.trans_isLittleO (g := fun h : ℝ => h ^ 2)
  · apply Asymptotics.IsBigO.of_bound 3
    filter_upwards with h
    rw [zero_add, Real.norm_eq_abs, Real.norm_eq_abs, abs_of_nonneg (sq_nonneg h), smul_eq_mul]
    have hc1 : IntervalIntegrable (fun t => Real.cos (n * t - h * Real.sin t)) MeasureTheory.volume 0 Real.pi :=
      (by fun_prop : Continuous fun t => Real.cos (n * t - h * Real.sin t)).intervalIntegrable _ _
    have hc2 : IntervalIntegrable (fun t => Real.cos (n * t)) MeasureTheory.volume 0 Real.pi :=
      (by fun_prop : Continuous fun t : ℝ => Real.cos (n * t)).intervalIntegrable _ _
    have hc3 : IntervalIntegrable (fun t => h * (Real.sin t * Real.sin (n * t))) MeasureTheory.volume 0 Real.pi :=
      (by fun_prop : Continuous fun t : ℝ => h * (Real.sin t * Real.sin (n * t))).intervalIntegrable _ _
    have e : besselJ n h - besselJ n 0 - h * besselSlope n = (1 / Real.pi) *
        ∫ t in (0 : ℝ)..Real.pi, (Real.cos (n * t - h * Real.sin t) - Real.cos (n * t)
          - h * (Real.sin t * Real.sin (n * t))) := by
      rw [intervalIntegral.integral_sub (hc1.sub hc2) hc3, intervalIntegral.integral_sub hc1 hc2,
        intervalIntegral.integral_const_mul]
      unfold besselJ besselSlope
      simp only [zero_mul, sub_zero]
      ring
    rw [e, abs_mul, abs_of_pos (by positivity : 0 < 1 / Real.pi)]
    have hb : ‖∫ t in (0 : ℝ)..Real.pi, (Real.cos (n * t - h * Real.sin t) - Real.cos (n * t)
          - h * (Real.sin t * Real.sin (n * t)))‖ ≤ 3 * h ^ 2 * |Real.pi - 0| := by
      apply intervalIntegral.norm_integral_le_of_norm_le_const
      intro t _
      rw [Real.norm_eq_abs]
      have := cos_taylor (n * t) (h * Real.sin t)
      rw [show h * Real.sin t * Real.sin (n * t) = h * (Real.sin t * Real.sin (n * t)) by ring] at this
      refine this.trans ?_
      rw [mul_pow]
      have hs : Real.sin t ^ 2 ≤ 1 := by nlinarith [Real.sin_sq_add_cos_sq t, sq_nonneg (Real.cos t)]
      nlinarith [sq_nonneg h]
    rw [Real.norm_eq_abs, sub_zero, abs_of_pos hpi] at hb
    calc 1 / Real.pi * _ ≤ 1 / Real.pi * (3 * h ^ 2 * Real.pi) := by gcongr
      _ = 3 * h ^ 2 := by field_simp
  · simpa using (Asymptotics.isLittleO_pow_pow (𝕜 := ℝ) (m := 1) (n := 2) (by norm_num))

theorem integral_sin_sin_one : ∫ t in (0 : ℝ)..Real.pi, Real.sin t * Real.sin t = Real.pi / 2 := by
  have : ∀ t : ℝ, Real.sin t * Real.sin t = Real.sin t ^ 2 := fun t => by ring
  simp only [this, integral_sin_sq]
  simp

theorem besselSlope_one : besselSlope 1 = 1 / 2 := by
  unfold besselSlope
  have hpi := Real.pi_pos.ne'
  simp only [Nat.cast_one, one_mul, integral_sin_sin_one]
  field_simp

theorem besselSlope_of_ne {n : ℕ} (h : n ≠ 1) : besselSlope n = 0 := by
  unfold besselSlope
  rcases Nat.eq_zero_or_pos n with h0 | h0
  · subst h0; simp
  have h1 : (n : ℝ) - 1 ≠ 0 := by rw [sub_ne_zero]; exact_mod_cast h
  have h2 : (n : ℝ) + 1 ≠ 0 := by positivity
  have e : ∀ t : ℝ, Real.sin t * Real.sin (n * t) = (1 / 2) * Real.cos (((n : ℝ) - 1) * t)
      - (1 / 2) * Real.cos (((n : ℝ) + 1) * t) := by
    intro t
    rw [sub_mul, add_mul, one_mul, Real.cos_sub, Real.cos_add]; ring
  have c1 : IntervalIntegrable (fun t => (1 / 2 : ℝ) * Real.cos (((n : ℝ) - 1) * t)) MeasureTheory.volume 0 Real.pi :=
    (by fun_prop : Continuous fun t : ℝ => (1 / 2 : ℝ) * Real.cos (((n : ℝ) - 1) * t)).intervalIntegrable _ _
  have c2 : IntervalIntegrable (fun t => (1 / 2 : ℝ) * Real.cos (((n : ℝ) + 1) * t)) MeasureTheory.volume 0 Real.pi :=
    (by fun_prop : Continuous fun t : ℝ => (1 / 2 : ℝ) * Real.cos (((n : ℝ) + 1) * t)).intervalIntegrable _ _
  have s1 : Real.sin (((n : ℝ) - 1) * Real.pi) = 0 := by
    obtain ⟨m, rfl⟩ : ∃ m, n = m + 1 := ⟨n - 1, by omega⟩
    push_cast; rw [add_sub_cancel_right, Real.sin_nat_mul_pi]
  have s2 : Real.sin (((n : ℝ) + 1) * Real.pi) = 0 := by
    have := Real.sin_nat_mul_pi (n + 1)
    push_cast at this; exact this
  simp only [e]
  rw [intervalIntegral.integral_sub c1 c2, intervalIntegral.integral_const_mul, intervalIntegral.integral_const_mul,
    intervalIntegral.integral_comp_mul_left (fun x => Real.cos x) h1,
    intervalIntegral.integral_comp_mul_left (fun x => Real.cos x) h2, integral_cos, integral_cos, s1, s2]
  simp

/-- The defocused OTF in closed form, as a function of the phase parameter `a`. -/
def defocusNum (s b a : ℝ) : ℝ :=
  Real.cos (a * 0.5 * s) * (b * besselJ 1 a
      + 1 / 2 * Real.sin (2 * b * (besselJ 1 a - besselJ 3 a))
      - 1 / 4 * Real.sin (4 * b * (besselJ 3 a - besselJ 5 a))
      + 1 / 6 * Real.sin (6 * b * (besselJ 5 a - besselJ 7 a)))
  - Real.sin (a * 0.5 * s) * (Real.sin (b * (besselJ 0 a - besselJ 2 a))
      - 1 / 3 * Real.sin (3 * b * (besselJ 2 a - besselJ 4 a))
      + 1 / 5 * Real.sin (5 * b * (besselJ 4 a - besselJ 6 a))
      - 1 / 7 * Real.sin (7 * b * (besselJ 6 a - besselJ 8 a)))

theorem defocusNum_zero (s b : ℝ) : defocusNum s b 0 = 0 := by
  unfold defocusNum; simp [besselJ_zero]

theorem defocusNum_deriv (s b : ℝ) : HasDerivAt (defocusNum s b) (b - s / 2 * Real.sin b) 0 := by
  have J := besselJ_hasDerivAt
  have S : ∀ (c : ℝ) (i j : ℕ), HasDerivAt (fun a => Real.sin (c * (besselJ i a - besselJ j a)))
      (Real.cos (c * (besselJ i 0 - besselJ j 0)) * (c * (besselSlope i - besselSlope j))) 0 := fun c i j =>
    (((J i).sub (J j)).const_mul c).sin
  have L : HasDerivAt (fun a : ℝ => a * 0.5 * s) (1 * 0.5 * s) 0 := ((hasDerivAt_id 0).mul_const 0.5).mul_const s
  have A := ((((J 1).const_mul b).add ((S (2 * b) 1 3).const_mul (1 / 2))).sub
    ((S (4 * b) 3 5).const_mul (1 / 4))).add ((S (6 * b) 5 7).const_mul (1 / 6))
  have B := (((S b 0 2).sub ((S (3 * b) 2 4).const_mul (1 / 3))).add
    ((S (5 * b) 4 6).const_mul (1 / 5))).sub ((S (7 * b) 6 8).const_mul (1 / 7))
  have H := (L.cos.mul A).sub (L.sin.mul B)
  refine H.congr_deriv ?_
  have o := besselSlope_one
  simp only [Pi.add_apply, Pi.sub_apply, Pi.mul_apply, besselJ_zero, o, besselSlope_of_ne (n := 0) (by norm_num), besselSlope_of_ne (n := 2) (by norm_num),
    besselSlope_of_ne (n := 3) (by norm_num), besselSlope_of_ne (n := 4) (by norm_num), besselSlope_of_ne (n := 5) (by norm_num),
    besselSlope_of_ne (n := 6) (by norm_num), besselSlope_of_ne (n := 7) (by norm_num), besselSlope_of_ne (n := 8) (by norm_num)]
  norm_num
  ring

theorem defocusNum_limit (s b : ℝ) :
    Filter.Tendsto (fun a => defocusNum s b a / a) (nhdsWithin 0 {0}ᶜ) (nhds (b - s / 2 * Real.sin b)) := by
  have h := (hasDerivAt_iff_tendsto_slope.mp (defocusNum_deriv s b))
  refine h.congr ?_
  intro a
  rw [slope_def_field, defocusNum_zero, sub_zero, sub_zero]

end PyBSM
