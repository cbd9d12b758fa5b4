import Verif.Lemmas.Aperture
import Mathlib.Analysis.Calculus.Deriv.MeanValue

/-!
# The code's aperture OTF equals the physical diffraction MTF
-/

noncomputable section

namespace PyBSM

open Spec

theorem norm_shift {lam : ℝ} (hl : 0 < lam) (u v : ℝ) :
    ‖(lam : ℂ) * (u + v * Complex.I)‖ = lam * Real.sqrt (u ^ 2 + v ^ 2) := by
  rw [norm_mul, Complex.norm_real, Real.norm_of_nonneg hl.le]
  congr 1
  rw [Complex.norm_def, Complex.normSq_apply]
  congr 1
  simp
  ring

theorem shift_eq_zero {lam : ℝ} (hl : 0 < lam) (u v : ℝ) :
    (lam : ℂ) * (u + v * Complex.I) = 0 ↔ Real.sqrt (u ^ 2 + v ^ 2) = 0 := by
  rw [← norm_eq_zero, norm_shift hl, mul_eq_zero]
  constructor
  · rintro (h | h)
    · exact absurd h hl.ne'
    · exact h
  · exact Or.inr

theorem segArea_zero {r : ℝ} : segArea r 0 = r ^ 2 * (Real.pi / 2) := by
  unfold segArea; simp [Real.arccos_zero]

theorem aperture_diffraction {lam D eta : ℝ} (hl : 0 < lam) (hD : 0 < D) (he : 0 ≤ eta) (he1 : eta < 1) (u v : ℝ) :
    apertureElt (.fin (D / lam)) (.fin eta) (.fin u) (.fin v) = .fin (diffractionMTF lam D eta u v) := by
  have hpi := Real.pi_pos.ne'
  have hr : 0 < D / lam := by positivity
  have hden : 0 < 1 - eta ^ 2 := by nlinarith
  have h0 := autocorrelation_zero hD he he1
  have h0p : 0 < autocorrelation (pupil D eta) 0 := by rw [h0]; positivity
  unfold diffractionMTF
  by_cases hz : Real.sqrt (u ^ 2 + v ^ 2) = 0
  · rw [(shift_eq_zero hl u v).mpr hz, div_self h0p.ne']
    rcases he.eq_or_lt with h | h
    · rw [← h, ← XR.zero_def, aperture_noObscuration hr, hz, zero_div, segArea_zero]
      congr 1; field_simp
    · rw [aperture_obscured hr h he1, hz, if_pos rfl, zero_div, segArea_zero, segArea_zero]
      congr 1; field_simp; ring
  · have hs : (lam : ℂ) * (u + v * Complex.I) ≠ 0 := fun h => hz ((shift_eq_zero hl u v).mp h)
    have ht : ‖(lam : ℂ) * (u + v * Complex.I)‖ / D = Real.sqrt (u ^ 2 + v ^ 2) / (D / lam) := by
      rw [norm_shift hl]; field_simp
    rcases he.eq_or_lt with h | h
    · subst h
      rw [h0, autocorrelation_disc hD hs, ht, ← XR.zero_def, aperture_noObscuration hr]
      congr 1; field_simp; ring
    · rw [h0, autocorrelation_annulus hD h he1 hs, ht, aperture_obscured hr h he1, if_neg hz]
      congr 1; field_simp; ring

/-- The chord formula is strictly decreasing between zero frequency and the cutoff. -/
theorem segArea_strictAnti : StrictAntiOn (segArea 1) (Set.Icc 0 1) := by
  have hcont : Continuous (segArea 1) := by
    unfold segArea; fun_prop
  apply strictAntiOn_of_deriv_neg (convex_Icc 0 1) hcont.continuousOn
  intro x hx
  rw [interior_Icc] at hx
  have h := segArea_deriv one_pos (x := x) (by linarith [hx.1]) (by linarith [hx.2])
  have h' := h.neg
  simp only [Pi.neg_def, neg_neg] at h'
  rw [h'.deriv]
  have : 0 < Real.sqrt (1 ^ 2 - x ^ 2) := Real.sqrt_pos.mpr (by nlinarith [hx.1, hx.2])
  linarith

theorem mtf_range {lam D eta : ℝ} (hD : 0 < D) (he : 0 ≤ eta) (he1 : eta < 1) (u v : ℝ) :
    0 ≤ diffractionMTF lam D eta u v ∧ diffractionMTF lam D eta u v ≤ 1 := by
  have h0 := autocorrelation_zero hD he he1
  have hden : 0 < 1 - eta ^ 2 := by nlinarith
  have h0p : 0 < autocorrelation (pupil D eta) 0 := by rw [h0]; have := Real.pi_pos; positivity
  obtain ⟨a, b⟩ := autocorrelation_le (D := D) (eta := eta) ((lam : ℂ) * (u + v * Complex.I))
  exact ⟨div_nonneg a h0p.le, by unfold diffractionMTF; rw [div_le_one h0p]; exact b⟩

/-- A pupil and its copy shifted by at least the diameter do not overlap in any area. -/
theorem mtf_cutoff {lam D eta : ℝ} (hl : 0 < lam) (hD : 0 < D) (he : 0 ≤ eta) (he1 : eta < 1) {u v : ℝ}
    (h : D / lam ≤ Real.sqrt (u ^ 2 + v ^ 2)) : diffractionMTF lam D eta u v = 0 := by
  have hr : 0 < D / lam := by positivity
  have ht : 1 ≤ Real.sqrt (u ^ 2 + v ^ 2) / (D / lam) := by rwa [le_div_iff₀ hr, one_mul]
  have key := aperture_diffraction hl hD he he1 u v
  rw [← XR.fin_inj, ← key]
  rcases he.eq_or_lt with h' | h'
  · subst h'
    rw [← XR.zero_def, aperture_noObscuration hr, segArea_of_le one_pos ht, mul_zero]; rfl
  · rw [aperture_obscured hr h' he1, if_neg (hr.trans_le h).ne', segArea_of_le one_pos ht,
      segArea_of_le h' (by linarith), cross_large h' he1 (by linarith)]
    simp

theorem mtf_dc {lam D eta : ℝ} (hD : 0 < D) (he : 0 ≤ eta) (he1 : eta < 1) : diffractionMTF lam D eta 0 0 = 1 := by
  have h0 := autocorrelation_zero hD he he1
  have hden : 0 < 1 - eta ^ 2 := by nlinarith
  have h0p : 0 < autocorrelation (pupil D eta) 0 := by rw [h0]; have := Real.pi_pos; positivity
  unfold diffractionMTF
  simp [h0p.ne']

theorem mtf_radial {lam D eta : ℝ} (hl : 0 < lam) (hD : 0 < D) (he : 0 ≤ eta) (he1 : eta < 1) {u v u' v' : ℝ}
    (h : u ^ 2 + v ^ 2 = u' ^ 2 + v' ^ 2) : diffractionMTF lam D eta u v = diffractionMTF lam D eta u' v' := by
  have hr : 0 < D / lam := by positivity
  rw [← XR.fin_inj, ← aperture_diffraction hl hD he he1, ← aperture_diffraction hl hD he he1]
  rcases he.eq_or_lt with h' | h'
  · rw [← h', ← XR.zero_def, aperture_noObscuration hr, aperture_noObscuration hr, h]
  · rw [aperture_obscured hr h' he1, aperture_obscured hr h' he1, h]

/-- A fully obscured aperture: `0/0` everywhere but at zero frequency. -/
theorem aperture_full {r0 : ℝ} (hr : 0 < r0) (u v : ℝ) :
    apertureElt (.fin r0) (.fin 1) (.fin u) (.fin v) = if Real.sqrt (u ^ 2 + v ^ 2) = 0 then .pinf else .nan := by
  have hpi := Real.pi_pos.ne'
  have hlt : XR.lt 0 (XR.fin 1) := by rw [XR.zero_def, XR.fin_lt]; exact one_pos
  have h2 : (2 : ℝ) ≠ 0 := two_ne_zero
  unfold apertureElt
  simp only [radial_fin, if_pos hlt]
  set rho := Real.sqrt (u ^ 2 + v ^ 2) with hrho
  have hr0 : 0 ≤ rho := Real.sqrt_nonneg _
  set t := rho / r0 with ht
  have ht0 : 0 ≤ t := by positivity
  have hrt : rho = 0 ↔ t = 0 := by
    rw [ht]; constructor
    · intro h; rw [h, zero_div]
    · intro h; exact (div_eq_zero_iff.mp h).resolve_right hr.ne'
  have ha : ((2 : XR) / XR.fin Real.pi * ((XR.fin rho / XR.fin r0).arccos - XR.fin rho / XR.fin r0 *
      XR.sqrt (1 - (XR.fin rho / XR.fin r0) ^ 2))).nanToNum = .fin (2 / Real.pi * segArea 1 t) := by
    rw [XR.fin_div _ hr.ne', XR.ofNat_def, XR.fin_div _ hpi]
    exact chord_term (by positivity) _
  have hb : ((2 : XR) * XR.fin 1 ^ 2 / XR.fin Real.pi * ((XR.fin rho / XR.fin 1 / XR.fin r0).arccos - XR.fin rho / XR.fin 1 / XR.fin r0 *
      XR.sqrt (1 - (XR.fin rho / XR.fin 1 / XR.fin r0) ^ 2))).nanToNum = .fin (2 / Real.pi * segArea 1 t) := by
    rw [XR.fin_div _ one_ne_zero, div_one, XR.fin_div _ hr.ne', XR.ofNat_def, XR.fin_pow, XR.fin_mul, XR.fin_div _ hpi,
      chord_term (by positivity)]
    congr 1; ring
  have harg : (1 + XR.fin 1 ^ 2 - (2 * XR.fin rho / XR.fin r0) ^ 2) / 2 / XR.fin 1
      = .fin (1 - 2 * t ^ 2) := by
    xr_simp
    rw [XR.fin_div _ hr.ne']
    xr_simp
    rw [XR.fin_div _ h2, XR.fin_div _ one_ne_zero]
    congr 1; rw [ht]; field_simp; ring
  have hlo : ¬ XR.lt (XR.fin rho) ((1 - XR.fin 1) * XR.fin r0 / 2) := by
    xr_simp
    rw [XR.fin_div _ h2, XR.fin_lt]
    simp [hr0]
  have hhi : XR.le (XR.fin rho) ((1 + XR.fin 1) * XR.fin r0 / 2) ↔ t ≤ 1 := by
    xr_simp
    rw [XR.fin_div _ h2, XR.fin_le, ht, div_le_one hr]
    constructor <;> intro h <;> linarith
  rw [ha, hb, harg, boolNum_false hlo]
  simp only [hhi, hrt]
  have hd : (1 : XR) - XR.fin 1 ^ 2 = .fin 0 := by xr_simp; norm_num
  have hd1 : (1 : XR) - XR.fin 1 = .fin 0 := by xr_simp; norm_num
  rw [hd, hd1]
  rcases lt_or_ge 1 t with h1 | h1
  · rw [segArea_of_le one_pos h1.le, if_neg (by linarith), boolNum_false (not_le.mpr h1)]
    have hn : (XR.fin (1 - 2 * t ^ 2)).arccos = .nan := by
      simp only [XR.arccos]; rw [if_neg]; rintro ⟨h, _⟩; nlinarith
    rw [hn]
    simp only [XR.sin, XR.mul_nan, XR.nan_div, XR.nan_add, XR.nan_sub, XR.nanToNum]
    xr_simp
    rw [XR.fin_div_zero]
    simp [XR.mulInf]
  · rw [XR.fin_arccos (by nlinarith) (by nlinarith), boolNum_true h1]
    by_cases hz : t = 0
    · rw [if_pos hz, hz, segArea_zero]
      simp only [ne_eq, OfNat.ofNat_ne_zero, not_false_eq_true, zero_pow, mul_zero, sub_zero, Real.arccos_one]
      xr_simp
      rw [XR.fin_div _ h2, zero_div, XR.fin_tan (by simp)]
      xr_simp
      rw [Real.tan_zero]
      simp only [mul_zero, XR.fin_div_zero]
      have : XR.mulInf 0 = .nan := by simp [XR.mulInf]
      rw [this]
      simp only [XR.arctan, XR.mul_nan, XR.sub_nan, XR.nanToNum]
      xr_simp
      rw [XR.fin_div_zero]
      unfold XR.mulInf
      rw [if_pos]
      field_simp; norm_num
    · rw [if_neg hz]
      have htp : 0 < t := lt_of_le_of_ne ht0 (Ne.symm hz)
      set φ := Real.arccos (1 - 2 * t ^ 2) with hφ
      have hφ0 : 0 < φ := Real.arccos_pos.mpr (by nlinarith)
      have hφ1 : φ ≤ Real.pi := Real.arccos_le_pi _
      have htan : (1 + XR.fin 1) * (XR.fin φ / 2).tan / XR.fin 0 = .pinf := by
        rw [XR.ofNat_def, XR.fin_div _ h2]
        by_cases hc : Real.cos (φ / 2) = 0
        · have : (XR.fin (φ / 2)).tan = .pinf := by simp [XR.tan, hc]
          rw [this]
          xr_simp
          have m1 : XR.fin (1 + 1) * XR.pinf = .pinf := by
            show XR.mulInf (1 + 1) = _
            unfold XR.mulInf; rw [if_pos (by norm_num)]
          rw [m1]
          show (if (0 : ℝ) < 0 then XR.ninf else XR.pinf) = _
          simp
        · rw [XR.fin_tan hc]
          xr_simp
          rw [XR.fin_div_zero]
          unfold XR.mulInf
          have hc' : φ ≠ Real.pi := by intro e; apply hc; rw [e]; exact Real.cos_pi_div_two
          have := Real.tan_pos_of_pos_of_lt_pi_div_two (x := φ / 2) (by linarith) (by
            have := lt_of_le_of_ne hφ1 hc'; linarith)
          rw [if_pos (by positivity)]
      rw [htan]
      simp only [XR.arctan]
      xr_simp
      repeat rw [XR.fin_div _ hpi]
      xr_simp
      -- the numerator cancels
      have hcos : Real.cos φ = 1 - 2 * t ^ 2 := Real.cos_arccos (by nlinarith) (by nlinarith)
      have hhalf : Real.arccos t = Real.pi / 2 - φ / 2 := by
        have hs : Real.sin (φ / 2) = t := by
          have h2' : Real.sin (φ / 2) ^ 2 = t ^ 2 := by
            have := Real.cos_sq' (φ / 2)
            have e := Real.cos_two_mul (φ / 2)
            rw [show 2 * (φ / 2) = φ by ring, hcos] at e
            nlinarith [Real.sin_sq_add_cos_sq (φ / 2)]
          have hsp : 0 ≤ Real.sin (φ / 2) := Real.sin_nonneg_of_nonneg_of_le_pi (by linarith) (by linarith)
          exact (sq_eq_sq₀ hsp ht0).mp h2'
        rw [← hs, Real.arccos_eq_pi_div_two_sub_arcsin, Real.arcsin_sin (by linarith) (by linarith)]
      have hsin : t * Real.sqrt (1 ^ 2 - t ^ 2) = Real.sin φ / 2 := by
        rw [Real.sin_arccos, show 1 - (1 - 2 * t ^ 2) ^ 2 = (2 * t) ^ 2 * (1 ^ 2 - t ^ 2) by ring,
          Real.sqrt_mul (by positivity), Real.sqrt_sq (by positivity)]
        ring
      have hseg : segArea 1 t = Real.pi / 2 - φ / 2 - Real.sin φ / 2 := by
        unfold segArea; rw [hsin, div_one, hhalf]; ring
      rw [hseg]
      have : (2 / Real.pi * (Real.pi / 2 - φ / 2 - Real.sin φ / 2) + 2 / Real.pi * (Real.pi / 2 - φ / 2 - Real.sin φ / 2)
          + -2 * 1 ^ 2 * 0 + (2 * 1 * Real.sin φ / Real.pi + (1 + 1 ^ 2) * φ / Real.pi - 2 * 1 ^ 2
            - 2 * 0 / Real.pi * (Real.pi / 2)) * 1) = 0 := by field_simp; ring
      rw [this, XR.fin_div_zero]
      simp [XR.mulInf]

end PyBSM
