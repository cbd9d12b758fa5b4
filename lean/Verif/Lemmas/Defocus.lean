import Verif.Lemmas.Bessel
import Verif.Lemmas.Aperture

/-!
# Closed form of the defocused-aperture OTF
-/

noncomputable section

namespace PyBSM

open Spec

/-- The phase parameter per unit of defocus. -/
def defocusRate (lam D f s : ℝ) : ℝ := 4 * Real.pi / lam * (0.5 / (1 + 4 * (f / D) ^ 2)) * s

theorem defocus_zero {r0 : ℝ} (hr : 0 < r0) (fd k u v : ℝ) :
    defocusApertureElt (.fin r0) (.fin fd) (.fin k) (.fin 0) (.fin u) (.fin v)
      = apertureElt (.fin r0) 0 (.fin u) (.fin v) := by
  have hpi := Real.pi_pos.ne'
  rw [aperture_noObscuration hr]
  unfold defocusApertureElt
  simp only [radial_fin]
  rw [if_neg (by rw [XR.zero_def, XR.fin_eq]; simp)]
  set rho := Real.sqrt (u ^ 2 + v ^ 2) with hrho
  have ht0 : 0 ≤ rho / r0 := by positivity
  have harg : (0.5 : XR) * (2 * XR.fin rho / XR.fin r0) = .fin (rho / r0) := by
    xr_simp
    rw [XR.fin_div _ hr.ne', XR.fin_mul]
    congr 1; norm_num; ring
  rw [harg]
  set t := rho / r0
  rcases le_or_gt t 1 with h1 | h1
  · rw [XR.fin_arccos (by linarith) h1]
    xr_simp
    rw [XR.fin_div _ hpi]
    xr_simp
    congr 1
    unfold segArea
    rw [Real.sin_two_mul, Real.sin_arccos, Real.cos_arccos (by linarith) h1]
    simp only [div_one, one_pow]
    ring
  · have : (XR.fin t).arccos = .nan := by simp only [XR.arccos]; rw [if_neg]; intro h; linarith [h.2]
    rw [this, segArea_of_le one_pos h1.le]
    simp [XR.mul_nan, XR.nan_sub, XR.nanToNum]

theorem defocus_dc {r0 : ℝ} (hr : 0 < r0) (fd k w : ℝ) :
    defocusApertureElt (.fin r0) (.fin fd) (.fin k) (.fin w) (.fin 0) (.fin 0) = .fin 1 := by
  have hpi := Real.pi_pos.ne'
  have hr0 : Real.sqrt ((0:ℝ) ^ 2 + 0 ^ 2) = 0 := by simp
  by_cases h1 : w = 0
  · rw [h1, defocus_zero hr, aperture_noObscuration hr, hr0, zero_div]
    unfold segArea
    simp [Real.arccos_zero]
  · unfold defocusApertureElt
    simp only
    rw [if_pos (by rw [XR.zero_def, XR.fin_eq]; exact h1),
      if_pos (by rw [radial_fin, hr0]; xr_simp)]
    xr_simp

theorem defocus_value {lam D : ℝ} (hl : 0 < lam) (hD : 0 < D) (f : ℝ) {w : ℝ} (hw : w ≠ 0) {u v : ℝ}
    (hz : Real.sqrt (u ^ 2 + v ^ 2) ≠ 0) :
    defocusApertureElt (.fin (D / lam)) (.fin (f / D)) (.fin (4 * Real.pi / lam)) (.fin w) (.fin u) (.fin v)
      = .fin (if Real.sqrt (u ^ 2 + v ^ 2) / (D / lam) ≤ 1 then
          2 / Real.pi * (defocusNum (2 * (Real.sqrt (u ^ 2 + v ^ 2) / (D / lam)))
            (Real.arccos (Real.sqrt (u ^ 2 + v ^ 2) / (D / lam)))
            (defocusRate lam D f (2 * (Real.sqrt (u ^ 2 + v ^ 2) / (D / lam))) * w)
            / (defocusRate lam D f (2 * (Real.sqrt (u ^ 2 + v ^ 2) / (D / lam))) * w)) else 0) := by
  have hpi := Real.pi_pos
  have hr : 0 < D / lam := by positivity
  unfold defocusApertureElt
  simp only [radial_fin]
  set rho := Real.sqrt (u ^ 2 + v ^ 2) with hrho
  have hrp : 0 < rho := lt_of_le_of_ne (Real.sqrt_nonneg _) (Ne.symm hz)
  have ht0 : 0 < rho / (D / lam) := by positivity
  rw [if_pos (by rw [XR.zero_def, XR.fin_eq]; exact hw), if_neg (by rw [radial_fin, XR.zero_def, XR.fin_eq]; exact hz)]
  have hsv : (2 : XR) * XR.fin rho / XR.fin (D / lam) = .fin (2 * (rho / (D / lam))) := by
    xr_simp
    rw [XR.fin_div _ hr.ne']; congr 1; ring
  rw [hsv]
  set t := rho / (D / lam) with ht
  have hden : (1 + 4 * (f / D) ^ 2) ≠ 0 := by positivity
  have h5 : (0.5 : XR) = .fin 0.5 := rfl
  have hal : XR.fin (4 * Real.pi / lam) * (0.5 / (1 + 4 * XR.fin (f / D) ^ 2) * XR.fin w) * XR.fin (2 * t)
      = .fin (defocusRate lam D f (2 * t) * w) := by
    rw [h5]
    xr_simp
    rw [XR.fin_div _ hden]
    xr_simp
    congr 1; unfold defocusRate; ring
  have hb : (0.5 : XR) * XR.fin (2 * t) = .fin t := by
    rw [h5]; xr_simp; congr 1; norm_num; ring
  rw [hal, hb]
  have hane : defocusRate lam D f (2 * t) * w ≠ 0 := by
    apply mul_ne_zero _ hw
    unfold defocusRate
    positivity
  set a := defocusRate lam D f (2 * t) * w with ha
  split_ifs with h1
  · rw [XR.fin_arccos (by linarith) h1]
    simp only [jn]
    rw [h5]
    xr_simp
    simp only [XR.fin_div _ (mul_ne_zero hpi.ne' hane), XR.fin_div _ (two_ne_zero (α := ℝ)),
      XR.fin_div _ (show (4 : ℝ) ≠ 0 by norm_num), XR.fin_div _ (show (6 : ℝ) ≠ 0 by norm_num),
      XR.fin_div _ (show (3 : ℝ) ≠ 0 by norm_num), XR.fin_div _ (show (5 : ℝ) ≠ 0 by norm_num),
      XR.fin_div _ (show (7 : ℝ) ≠ 0 by norm_num)]
    xr_simp
    congr 1
    unfold defocusNum
    field_simp
  · have : (XR.fin t).arccos = .nan := by simp only [XR.arccos]; rw [if_neg]; intro h; exact h1 h.2
    rw [this]
    simp only [XR.nan_mul, XR.mul_nan, XR.nan_add, XR.nan_sub, XR.nanToNum]

end PyBSM
