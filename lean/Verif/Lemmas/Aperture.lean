import Verif.Lemmas.Triangle
import Verif.Lemmas.OtfElt
import Verif.Model.Otf

/-!
# Closed forms of the circular-aperture OTF
-/

noncomputable section

namespace PyBSM

open Spec

/-- The chord term of the code, with its `nan` beyond the cutoff replaced by 0. -/
theorem chord_term {t : ℝ} (ht : 0 ≤ t) (c : ℝ) :
    (XR.fin c * ((XR.fin t).arccos - XR.fin t * XR.sqrt (1 - XR.fin t ^ 2))).nanToNum
      = .fin (c * segArea 1 t) := by
  by_cases h1 : t ≤ 1
  · rw [XR.fin_arccos (by linarith) h1, XR.fin_pow, XR.one_def, XR.fin_sub, XR.fin_sqrt (by nlinarith)]
    xr_simp
    simp [segArea]
  · push Not at h1
    rw [segArea_of_le one_pos h1.le]
    have : (XR.fin t).arccos = .nan := by simp only [XR.arccos]; rw [if_neg]; intro h; linarith [h.2]
    rw [this, XR.nan_sub, XR.mul_nan]
    simp [XR.nanToNum]

theorem aperture_noObscuration {r0 : ℝ} (hr : 0 < r0) (u v : ℝ) :
    apertureElt (.fin r0) 0 (.fin u) (.fin v)
      = .fin (2 / Real.pi * segArea 1 (Real.sqrt (u ^ 2 + v ^ 2) / r0)) := by
  have hpi := Real.pi_pos.ne'
  have : ¬ XR.lt 0 (0 : XR) := by rw [XR.zero_def, XR.fin_lt]; exact lt_irrefl _
  unfold apertureElt
  simp only [radial_fin, if_neg this]
  rw [XR.fin_div _ hr.ne', XR.ofNat_def, XR.fin_div _ hpi]
  exact chord_term (by positivity) _

/-- The cross term as computed by the code (`c1 + c2` after masking). -/
def crossCode (r0 eta rho : XR) : XR :=
  let pi : XR := .fin Real.pi
  let c1 := (-2) * eta ^ 2 * boolNum (XR.lt rho ((1 - eta) * r0 / 2))
  let phi := ((1 + eta ^ 2 - (2 * rho / r0) ^ 2) / 2 / eta).arccos
  let c2 := 2 * eta * phi.sin / pi + (1 + eta ^ 2) * phi / pi - 2 * eta ^ 2
  let c2 := c2 - (2 * (1 - eta ^ 2) / pi) * ((1 + eta) * (phi / 2).tan / (1 - eta)).arctan
  let c2 := c2.nanToNum
  let c2 := c2 * boolNum (XR.le rho ((1 + eta) * r0 / 2))
  c1 + c2

theorem boolNum_true {p : Prop} (h : p) : boolNum p = .fin 1 := if_pos h
theorem boolNum_false {p : Prop} (h : ¬ p) : boolNum p = .fin 0 := if_neg h

theorem crossCode_eq {r0 eta rho : ℝ} (hr : 0 < r0) (he : 0 < eta) (he1 : eta < 1) (hrho : 0 ≤ rho) :
    crossCode (.fin r0) (.fin eta) (.fin rho) =
      .fin (if rho = 0 then -2 * eta ^ 2 else -2 * crossArea eta (rho / r0) / Real.pi) := by
  have hpi := Real.pi_pos.ne'
  have h2 : (2 : ℝ) ≠ 0 := two_ne_zero
  have h1e : 1 - eta ≠ 0 := by linarith
  have harg : (1 + XR.fin eta ^ 2 - (2 * XR.fin rho / XR.fin r0) ^ 2) / 2 / XR.fin eta
      = .fin ((1 + eta ^ 2 - 4 * (rho / r0) ^ 2) / (2 * eta)) := by
    xr_simp
    rw [XR.fin_div _ hr.ne']
    xr_simp
    rw [XR.fin_div _ h2, XR.fin_div _ he.ne']
    congr 1; field_simp; ring
  have hlo : XR.lt (XR.fin rho) ((1 - XR.fin eta) * XR.fin r0 / 2) ↔ rho / r0 < (1 - eta) / 2 := by
    xr_simp
    rw [XR.fin_div _ h2, XR.fin_lt, div_lt_iff₀ hr]
    constructor <;> intro h <;> linarith
  have hhi : XR.le (XR.fin rho) ((1 + XR.fin eta) * XR.fin r0 / 2) ↔ rho / r0 ≤ (1 + eta) / 2 := by
    xr_simp
    rw [XR.fin_div _ h2, XR.fin_le, div_le_iff₀ hr]
    constructor <;> intro h <;> linarith
  unfold crossCode
  simp only [harg, hlo, hhi]
  have ht : 0 ≤ rho / r0 := by positivity
  set t := rho / r0 with htd
  have hz : rho = 0 ↔ t = 0 := by
    rw [htd]; constructor
    · intro h; rw [h, zero_div]
    · intro h; exact (div_eq_zero_iff.mp h).resolve_right hr.ne'
  simp only [hz]
  rcases lt_or_ge t ((1 - eta) / 2) with hA | hA
  · -- inside the inner range: the angle is undefined
    have hnan : (XR.fin ((1 + eta ^ 2 - 4 * t ^ 2) / (2 * eta))).arccos = .nan := by
      simp only [XR.arccos]
      rw [if_neg]
      rintro ⟨_, h⟩
      rw [div_le_one (by positivity)] at h
      nlinarith
    rw [hnan, boolNum_true hA, boolNum_true (show t ≤ (1 + eta) / 2 by linarith)]
    have : XR.nan / XR.fin Real.pi = XR.nan := XR.nan_div _
    simp only [XR.sin, XR.mul_nan, XR.nan_div, XR.nan_add, XR.nan_sub, XR.nanToNum]
    xr_simp
    congr 1
    split_ifs with h0
    · ring
    · rw [cross_small he (lt_of_le_of_ne ht (Ne.symm h0)) hA.le]; field_simp; ring
  rw [boolNum_false (show ¬ t < (1 - eta) / 2 by linarith)]
  have ht0 : 0 < t := by linarith
  rw [if_neg ht0.ne']
  rcases lt_or_ge ((1 + eta) / 2) t with hB | hB
  · -- beyond the outer range: masked out
    rw [boolNum_false (show ¬ t ≤ (1 + eta) / 2 by linarith), cross_large he he1 hB.le]
    have hnan : (XR.fin ((1 + eta ^ 2 - 4 * t ^ 2) / (2 * eta))).arccos = .nan := by
      simp only [XR.arccos]
      rw [if_neg]
      rintro ⟨h, _⟩
      rw [le_div_iff₀ (by positivity)] at h
      nlinarith
    rw [hnan]
    simp only [XR.sin, XR.mul_nan, XR.nan_div, XR.nan_add, XR.nan_sub, XR.nanToNum]
    xr_simp
    congr 1; ring
  rw [boolNum_true hB]
  have hcl : -1 ≤ (1 + eta ^ 2 - 4 * t ^ 2) / (2 * eta) := by
    rw [le_div_iff₀ (by positivity)]; nlinarith
  have hcu : (1 + eta ^ 2 - 4 * t ^ 2) / (2 * eta) ≤ 1 := by
    rw [div_le_one (by positivity)]; nlinarith
  rw [XR.fin_arccos hcl hcu]
  rcases hB.eq_or_lt with hB | hB
  · -- external tangency
    rw [cross_large he he1 hB.ge]
    have : (1 + eta ^ 2 - 4 * t ^ 2) / (2 * eta) = -1 := by rw [hB]; field_simp; ring
    rw [this, Real.arccos_neg_one]
    have htan : (XR.fin Real.pi / 2).tan = .pinf := by
      rw [XR.ofNat_def, XR.fin_div _ h2]; simp [XR.tan, Real.cos_pi_div_two]
    rw [htan]
    have : (1 + XR.fin eta) * XR.pinf / (1 - XR.fin eta) = .pinf := by
      have e1 : 0 < 1 + eta := by linarith
      have e2 : 0 < 1 - eta := by linarith
      xr_simp
      have m1 : XR.fin (1 + eta) * XR.pinf = .pinf := by
        show XR.mulInf (1 + eta) = _
        unfold XR.mulInf; rw [if_pos e1]
      rw [m1]
      show (if 1 - eta < 0 then XR.ninf else XR.pinf) = _
      rw [if_neg (not_lt.mpr e2.le)]
    rw [this]
    simp only [XR.arctan]
    xr_simp
    repeat rw [XR.fin_div _ hpi]
    xr_simp
    rw [Real.sin_pi]
    congr 1; field_simp; ring
  obtain ⟨hA', hmid⟩ | hA' : (t = (1 - eta) / 2 ∧ True) ∨ (1 - eta) / 2 < t := by
    rcases hA.eq_or_lt with h | h
    · exact Or.inl ⟨h.symm, trivial⟩
    · exact Or.inr h
  · -- internal tangency
    rw [cross_small he ht0 hA'.le]
    have : (1 + eta ^ 2 - 4 * t ^ 2) / (2 * eta) = 1 := by rw [hA']; field_simp; ring
    rw [this, Real.arccos_one]
    xr_simp
    rw [XR.fin_div _ h2, XR.fin_tan (by simp), XR.fin_mul, XR.fin_div _ h1e]
    xr_simp
    repeat rw [XR.fin_div _ hpi]
    xr_simp
    simp only [zero_div, Real.tan_zero, mul_zero, Real.sin_zero, Real.arctan_zero]
    congr 1; field_simp; ring
  · obtain ⟨f0, f1, hf⟩ := cross_mid he he1 hA' hB
    set φ := Real.arccos ((1 + eta ^ 2 - 4 * t ^ 2) / (2 * eta))
    have hcos : Real.cos (φ / 2) ≠ 0 := (Real.cos_pos_of_mem_Ioo ⟨by linarith, by linarith⟩).ne'
    xr_simp
    rw [XR.fin_div _ h2, XR.fin_tan hcos, XR.fin_mul, XR.fin_div _ h1e]
    xr_simp
    repeat rw [XR.fin_div _ hpi]
    xr_simp
    rw [hf]
    congr 1; ring

theorem aperture_obscured {r0 eta : ℝ} (hr : 0 < r0) (he : 0 < eta) (he1 : eta < 1) (u v : ℝ) :
    apertureElt (.fin r0) (.fin eta) (.fin u) (.fin v)
      = .fin ((2 / Real.pi * segArea 1 (Real.sqrt (u ^ 2 + v ^ 2) / r0)
          + 2 / Real.pi * segArea eta (Real.sqrt (u ^ 2 + v ^ 2) / r0)
          + (if Real.sqrt (u ^ 2 + v ^ 2) = 0 then -2 * eta ^ 2
              else -2 * crossArea eta (Real.sqrt (u ^ 2 + v ^ 2) / r0) / Real.pi)) / (1 - eta ^ 2)) := by
  have hpi := Real.pi_pos.ne'
  have hlt : XR.lt 0 (XR.fin eta) := by rw [XR.zero_def, XR.fin_lt]; exact he
  have hden : 1 - eta ^ 2 ≠ 0 := by nlinarith
  set rho := Real.sqrt (u ^ 2 + v ^ 2) with hrho
  have hr0 : 0 ≤ rho := Real.sqrt_nonneg _
  have hc := crossCode_eq hr he he1 hr0
  unfold crossCode at hc
  simp only at hc
  unfold apertureElt
  simp only [radial_fin, if_pos hlt, ← hrho]
  rw [XR.add_assoc _ _ (_ * boolNum _), hc]
  have ha : ((2 : XR) / XR.fin Real.pi * ((XR.fin rho / XR.fin r0).arccos - XR.fin rho / XR.fin r0 *
      XR.sqrt (1 - (XR.fin rho / XR.fin r0) ^ 2))).nanToNum = .fin (2 / Real.pi * segArea 1 (rho / r0)) := by
    rw [XR.fin_div _ hr.ne', XR.ofNat_def, XR.fin_div _ hpi]
    exact chord_term (by positivity) _
  have hb : ((2 : XR) * XR.fin eta ^ 2 / XR.fin Real.pi * ((XR.fin rho / XR.fin eta / XR.fin r0).arccos - XR.fin rho / XR.fin eta / XR.fin r0 *
      XR.sqrt (1 - (XR.fin rho / XR.fin eta / XR.fin r0) ^ 2))).nanToNum = .fin (2 / Real.pi * segArea eta (rho / r0)) := by
    rw [XR.fin_div _ he.ne', XR.fin_div _ hr.ne', XR.ofNat_def, XR.fin_pow, XR.fin_mul, XR.fin_div _ hpi,
      chord_term (by positivity)]
    have := segArea_scale he 1 (rho / eta / r0)
    rw [mul_one, show eta * (rho / eta / r0) = rho / r0 by field_simp] at this
    rw [this]; congr 1; ring
  rw [ha, hb]
  xr_simp
  rw [XR.fin_div _ hden]

end PyBSM
