import Verif.Model.DoubleFocused
import Verif.Props.DoubleOther
import Verif.Props.DoubleOtfClaims

/-!
# The defocusable aperture without defocus in double precision (C151)
-/

noncomputable section

open Classical

namespace PyBSM

open Spec

variable {fl sqD acosD sinD tanD atanD : ℝ → ℝ}

theorem chordAngle_double (b : ℝ) : 2 * b - Real.sin (2 * b) = 2 * chordAngle b := by
  unfold chordAngle
  rw [Real.sin_two_mul]
  ring

theorem focused_quotient (hfl : RoundsToNearest fl) {lam D : ℝ} (hr : 0 < D / lam) (u v : ℝ) :
    Apx 10 (fl (0.5 * fl (fl (2 * radialD fl u v) / fl (D / lam)))) (Real.sqrt (u ^ 2 + v ^ 2) / (D / lam)) (Real.sqrt (u ^ 2 + v ^ 2) / (D / lam)) := by
  have r0 := Apx.const hfl hr.le
  have rho := radial_apx hfl u v
  have s1 := ((Apx.of (x := 2) (m := 2) (by norm_num)).mul rho (by norm_num) (by norm_num)).round hfl (by norm_num)
  have s2 := (s1.quot r0 hr (by norm_num) (by norm_num) (by norm_num)).round hfl (by norm_num)
  have s3 := (((Apx.of (x := 0.5) (m := 0.5) (by norm_num [abs_of_pos])).mul s2 (by norm_num) (by norm_num)).round hfl (by norm_num)).mono
    (show _ ≤ (10 : ℝ) by norm_num)
  rw [show (0.5 : ℝ) * (2 * Real.sqrt (u ^ 2 + v ^ 2) / (D / lam)) = Real.sqrt (u ^ 2 + v ^ 2) / (D / lam) by ring] at s3
  exact s3

/-- **C151** (without defocus): the OTF that `circular_aperture_OTF_with_defocus` computes in double precision without defocus is a number
within 3e-14 of the diffraction MTF of the clear aperture at every frequency, at and beyond the cutoff too. -/
theorem C151_focused (hfl : RoundsToNearest fl) (hT : TrigLibrary sqD acosD sinD tanD atanD) {lam D : ℝ} (hl : 0 < lam) (hD : 0 < D) (u v : ℝ) :
    ∃ h, focusedD fl acosD sinD lam D u v = .fin h ∧ |h - diffractionMTF lam D 0 u v| ≤ 3e-14 := by
  rw [diffraction_angle hl hD]
  have hr : 0 < D / lam := by positivity
  have hpi := Real.pi_gt_d2
  have hpi' := Real.pi_lt_d2
  have s3 := focused_quotient hfl hr u v
  have x0 : 0 ≤ Real.sqrt (u ^ 2 + v ^ 2) / (D / lam) := by positivity
  have e := s3.1
  unfold focusedD
  dsimp only
  generalize fl (0.5 * fl (fl (2 * radialD fl u v) / fl (D / lam))) = x' at *
  generalize Real.sqrt (u ^ 2 + v ^ 2) / (D / lam) = x at *
  obtain ⟨e1, e2⟩ := abs_le.mp e
  have x'0 : 0 ≤ x' := by linarith
  unfold arccosD
  by_cases hx : |x'| ≤ 1
  · rw [if_pos hx]
    refine ⟨_, rfl, ?_⟩
    rw [abs_of_nonneg x'0] at hx
    have x1 : x ≤ 1.01 := by linarith
    have dx : |x' - x| ≤ 1.02e-14 := by rw [abs_le]; constructor <;> linarith
    have a := hT.acos x' (by rw [abs_of_nonneg x'0]; exact hx)
    have a1 := hT.acos_lt x' (by rw [abs_of_nonneg x'0]; exact hx)
    have q0 := Real.arccos_nonneg x'
    have q1 := Real.arccos_le_pi x'
    generalize acosD x' = b at *
    obtain ⟨a2, a3⟩ := abs_le.mp a
    have b0 : 0 ≤ b := by linarith
    have c1 := angle_close (by norm_num) chordAngle_deriv chordAngle_bound b0 a1.le q0 q1
    have c2 := chord_lip x' x
    have c : |chordAngle b - chordAngle (Real.arccos x)| ≤ 2.7e-14 := by
      have := abs_sub_le (chordAngle b) (chordAngle (Real.arccos x')) (chordAngle (Real.arccos x))
      linarith
    have t := fl_close hfl (x := 2 * b) (B := 6.4) (by rw [abs_of_nonneg (by positivity)]; linarith)
    have sn := hT.sin (fl (2 * b))
    have sn1 := Real.abs_sin_le_one (fl (2 * b))
    have sn2 := Real.abs_sin_sub_sin_le (fl (2 * b)) (2 * b)
    have y : |fl (2 * b) - sinD (fl (2 * b)) - 2 * chordAngle (Real.arccos x)| ≤ 5.8e-14 := by
      have d := chordAngle_double b
      have : fl (2 * b) - sinD (fl (2 * b)) - 2 * chordAngle (Real.arccos x) = (fl (2 * b) - 2 * b)
          + (-(sinD (fl (2 * b)) - Real.sin (fl (2 * b))) + (-(Real.sin (fl (2 * b)) - Real.sin (2 * b))
            + 2 * (chordAngle b - chordAngle (Real.arccos x)))) := by linarith
      rw [this]
      refine (abs_add_le _ _).trans ?_
      have k1 := abs_add_le (-(sinD (fl (2 * b)) - Real.sin (fl (2 * b)))) (-(Real.sin (fl (2 * b)) - Real.sin (2 * b))
            + 2 * (chordAngle b - chordAngle (Real.arccos x)))
      have k2 := abs_add_le (-(Real.sin (fl (2 * b)) - Real.sin (2 * b))) (2 * (chordAngle b - chordAngle (Real.arccos x)))
      rw [abs_neg] at k1 k2
      rw [abs_mul, abs_of_pos (by norm_num : (0 : ℝ) < 2)] at k2
      linarith
    have cx : |2 * chordAngle (Real.arccos x)| ≤ 3.15 := by
      have p := Real.arccos_nonneg x
      have pl : Real.arccos x ≤ Real.pi / 2 := Real.arccos_le_pi_div_two.mpr x0
      have sc : 0 ≤ Real.cos (Real.arccos x) * Real.sin (Real.arccos x) :=
        mul_nonneg (Real.cos_nonneg_of_neg_pi_div_two_le_of_le (by linarith) pl) (Real.sin_nonneg_of_nonneg_of_le_pi p (by linarith))
      have low := (angle_lip chordAngle_deriv chordAngle_bound le_rfl p (Real.arccos_le_pi x)).1
      have z0 : chordAngle 0 = 0 := by unfold chordAngle; simp
      rw [z0, sub_zero] at low
      rw [abs_of_nonneg (by positivity)]
      unfold chordAngle
      linarith
    generalize fl (2 * b) - sinD (fl (2 * b)) = w' at *
    obtain ⟨w, hw⟩ : ∃ w, w = 2 * chordAngle (Real.arccos x) := ⟨_, rfl⟩
    rw [show chordAngle (Real.arccos x) = w / 2 by rw [hw]; ring]
    rw [← hw] at y cx
    have W : Apx 19 w' w 3.15 := ⟨y.trans (by norm_num), cx⟩
    have P := ((Apx.of (x := 1) (m := 1) (by norm_num)).quot (Apx.const hfl Real.pi_pos.le) Real.pi_pos (by norm_num) (by norm_num)
      (by norm_num)).round hfl (by norm_num)
    have R := ((P.mul (W.round hfl (by norm_num)) (by norm_num) (by norm_num)).round hfl (by norm_num)).1
    rw [show 1 / Real.pi * w = 2 / Real.pi * (w / 2) by ring] at R
    have m : 1 / Real.pi ≤ 0.319 := by rw [div_le_iff₀ Real.pi_pos]; linarith
    norm_num at R ⊢
    refine R.trans ?_
    norm_num at m ⊢
    linarith
  · rw [if_neg hx]
    refine ⟨0, rfl, ?_⟩
    rw [abs_of_nonneg x'0, not_le] at hx
    have c : |chordAngle (Real.arccos x)| ≤ 3e-14 := by
      have z1 : chordAngle (Real.arccos 1) = 0 := by unfold chordAngle; simp
      rcases le_total 1 x with h | h
      · rw [Real.arccos_of_one_le h, ← Real.arccos_one, z1]
        norm_num
      · have := chord_lip x 1
        rw [z1, sub_zero, abs_sub_comm x 1, abs_of_nonneg (by linarith : 0 ≤ 1 - x)] at this
        linarith
    rw [zero_sub, abs_neg, abs_mul, abs_of_pos (by positivity)]
    have : 2 / Real.pi ≤ 1 := by rw [div_le_one Real.pi_pos]; linarith
    have := mul_le_mul this c (abs_nonneg _) (by norm_num)
    linarith

/-- **C151** (cutoff): it is exactly zero at every frequency that exceeds the cutoff by 2e-14 of it. -/
theorem C151_cutoff (hfl : RoundsToNearest fl) (acosD sinD : ℝ → ℝ) {lam D : ℝ} (hl : 0 < lam) (hD : 0 < D) {u v : ℝ}
    (h : (1 + 2e-14) * (D / lam) ≤ Real.sqrt (u ^ 2 + v ^ 2)) : focusedD fl acosD sinD lam D u v = .fin 0 := by
  have hr : 0 < D / lam := by positivity
  have e := (focused_quotient hfl hr u v).1
  rw [← le_div_iff₀ hr] at h
  unfold focusedD
  dsimp only
  generalize fl (0.5 * fl (fl (2 * radialD fl u v) / fl (D / lam))) = x' at *
  generalize Real.sqrt (u ^ 2 + v ^ 2) / (D / lam) = x at *
  have e1 := (abs_le.mp e).1
  unfold arccosD
  rw [if_neg (fun hx => by have := (abs_le.mp hx).2; linarith)]
  rfl

/-- **C151** (two functions): without defocus and obscuration the two aperture functions agree within 1.1e-7 in double precision. -/
theorem C151_agree (hfl : RoundsToNearest fl) (hT : TrigLibrary sqD acosD sinD tanD atanD) {lam D : ℝ} (hl : 0 < lam) (hD : 0 < D) (u v : ℝ) :
    ∃ x y, focusedD fl acosD sinD lam D u v = .fin x ∧ apertureD fl sqD acosD sinD tanD atanD lam D 0 u v = .fin y ∧ |x - y| ≤ 1.1e-7 := by
  obtain ⟨x, h1, h2⟩ := C151_focused hfl hT hl hD u v
  obtain ⟨y, h3, h4⟩ := C117_clear hfl hT hl hD u v
  refine ⟨x, y, h1, h3, ?_⟩
  have := abs_sub_le x (diffractionMTF lam D 0 u v) y
  rw [abs_sub_comm (diffractionMTF lam D 0 u v) y] at this
  linarith

/-! ## Concrete cases -/

/-- A lens of 275 mm at 0.5 µm and a frequency below the cutoff (C151_focused, C151_agree). -/
example (hfl : RoundsToNearest fl) :
    (∃ h, focusedD fl (roundedLib fl).acos (roundedLib fl).sin 5e-7 0.275 300000 100000 = .fin h
        ∧ |h - diffractionMTF 5e-7 0.275 0 300000 100000| ≤ 3e-14)
      ∧ ∃ x y, focusedD fl (roundedLib fl).acos (roundedLib fl).sin 5e-7 0.275 300000 100000 = .fin x
        ∧ apertureD fl (roundedLib fl).sq (roundedLib fl).acos (roundedLib fl).sin (roundedLib fl).tan (roundedLib fl).atan 5e-7 0.275 0
          300000 100000 = .fin y ∧ |x - y| ≤ 1.1e-7 :=
  ⟨C151_focused hfl (roundedLib_accurate hfl).trig (by norm_num) (by norm_num) _ _,
    C151_agree hfl (roundedLib_accurate hfl).trig (by norm_num) (by norm_num) _ _⟩

/-- The same lens beyond its cutoff of 550 000 cycles per radian (C151_cutoff). -/
example (hfl : RoundsToNearest fl) : focusedD fl (roundedLib fl).acos (roundedLib fl).sin 5e-7 0.275 600000 0 = .fin 0 := by
  refine C151_cutoff hfl _ _ (by norm_num) (by norm_num) ?_
  rw [show (600000 : ℝ) ^ 2 + 0 ^ 2 = 600000 ^ 2 by norm_num, Real.sqrt_sq (by norm_num)]
  norm_num

end PyBSM
