import Verif.Lemmas.OtfElt

/-!
# C37, C39, C42: turbulence, wavefront error and turbulence profile
-/

noncomputable section

open Classical

namespace PyBSM

open Spec

/-! ## C37 -/

/-- **C37** (long exposure): in (0, 1], and 1 at zero frequency. -/
theorem C37_long_range (u v : ℝ) {lam D r0 : ℝ} (hD : 0 < D) (hr : 0 < r0) (hl : 0 ≤ lam) :
    turbulenceOTF (.fin 0) (.fin 0) (.fin lam) (.fin D) (.fin r0) 0 = .fin 1
    ∧ ∃ h : ℝ, turbulenceOTF (.fin u) (.fin v) (.fin lam) (.fin D) (.fin r0) 0 = .fin h
        ∧ 0 < h ∧ h ≤ 1 := by
  rw [turbulence_long_fin _ _ _ hD hr hl]
  constructor
  · simp
  · refine ⟨_, turbulence_long_fin _ _ _ hD hr hl, Real.exp_pos _, ?_⟩
    rw [Real.exp_le_one_iff, neg_nonpos]
    positivity

/-- **C37** (long exposure): strictly decreasing in the radial frequency. -/
theorem C37_long_decreasing {u v u' v' lam D r0 : ℝ} (hD : 0 < D) (hr : 0 < r0) (hl : 0 < lam)
    (h : u ^ 2 + v ^ 2 < u' ^ 2 + v' ^ 2) :
    ∃ a b : ℝ, turbulenceOTF (.fin u) (.fin v) (.fin lam) (.fin D) (.fin r0) 0 = .fin a
      ∧ turbulenceOTF (.fin u') (.fin v') (.fin lam) (.fin D) (.fin r0) 0 = .fin b ∧ b < a := by
  refine ⟨_, _, turbulence_long_fin _ _ _ hD hr hl.le, turbulence_long_fin _ _ _ hD hr hl.le, ?_⟩
  rw [Real.exp_lt_exp, neg_lt_neg_iff]
  apply mul_lt_mul_of_pos_left _ (by norm_num)
  have hs := Real.sqrt_lt_sqrt (by positivity) h
  apply Real.rpow_lt_rpow (by positivity) _ (by norm_num)
  exact div_lt_div_of_pos_right (mul_lt_mul_of_pos_left hs hl) hr

/-- **C37** (long exposure): weaker turbulence (larger `r0`) gives more contrast. -/
theorem C37_long_r0 {u v lam D r0 r0' : ℝ} (hD : 0 < D) (hr : 0 < r0) (hrr : r0 < r0') (hl : 0 < lam)
    (h : 0 < u ^ 2 + v ^ 2) :
    ∃ a b : ℝ, turbulenceOTF (.fin u) (.fin v) (.fin lam) (.fin D) (.fin r0) 0 = .fin a
      ∧ turbulenceOTF (.fin u) (.fin v) (.fin lam) (.fin D) (.fin r0') 0 = .fin b ∧ a < b := by
  have hr' := hr.trans hrr
  refine ⟨_, _, turbulence_long_fin _ _ _ hD hr hl.le, turbulence_long_fin _ _ _ hD hr' hl.le, ?_⟩
  rw [Real.exp_lt_exp, neg_lt_neg_iff]
  apply mul_lt_mul_of_pos_left _ (by norm_num)
  have hs := Real.sqrt_pos.mpr h
  apply Real.rpow_lt_rpow (by positivity) _ (by norm_num)
  exact div_lt_div_of_pos_left (by positivity) hr hrr

/-- **C37** (exposure): the larger the short-exposure parameter `alpha`, the larger the OTF; in
particular short exposure (`alpha = 1/2`) is at least long exposure (`alpha = 0`). -/
theorem C37_short_ge_long (u v : ℝ) {lam D r0 : ℝ} (hD : 0 < D) (hr : 0 < r0) (hl : 0 ≤ lam) :
    ∃ long short : ℝ, turbulenceOTF (.fin u) (.fin v) (.fin lam) (.fin D) (.fin r0) 0 = .fin long
      ∧ turbulenceOTF (.fin u) (.fin v) (.fin lam) (.fin D) (.fin r0) 0.5 = .fin short
      ∧ long ≤ short := by
  have h5 : (0.5 : XR) = .fin 0.5 := rfl
  refine ⟨_, _, turbulence_long_fin _ _ _ hD hr hl, by rw [h5, turbulence_fin _ _ _ _ hD hr hl], ?_⟩
  rw [Real.exp_le_exp, neg_le_neg_iff]
  have h1 : 0 ≤ (lam * Real.sqrt (u ^ 2 + v ^ 2) / r0) ^ ((5 : ℝ) / 3) := by positivity
  have h2 : 0 ≤ (lam * Real.sqrt (u ^ 2 + v ^ 2) / D) ^ ((1 : ℝ) / 3) := by positivity
  nlinarith [mul_nonneg h1 h2]

/-- **C37** (mixture): the reported OTF is the convex combination of the short- and long-exposure
OTFs with weight `exp(-vel*t/r0)`, so it lies between the two. -/
theorem C37_mixture (u v : ℝ) {lam D : ℝ} {r0 tD vel : Scal} {r t w : ℝ} (hD : 0 < D)
    (hr0 : r0.val = .fin r) (hr : 0 < r) (hl : 0 ≤ lam) (ht : tD.val = .fin t) (hv : vel.val = .fin w)
    (ht0 : 0 ≤ t) (hv0 : 0 ≤ w) :
    ∃ long short h : ℝ,
      turbulenceOTF (.fin u) (.fin v) (.fin lam) (.fin D) (.fin r) 0 = .fin long
      ∧ turbulenceOTF (.fin u) (.fin v) (.fin lam) (.fin D) (.fin r) 0.5 = .fin short
      ∧ windSpeedTurbulenceOTF [.fin u] [.fin v] (.fin lam) (.fin D) r0 tD vel = .ok [.fin h]
      ∧ h = Real.exp (-(w * t / r)) * short + (1 - Real.exp (-(w * t / r))) * long
      ∧ long ≤ h ∧ h ≤ short := by
  obtain ⟨long, short, h1, h2, hle⟩ := C37_short_ge_long u v hD hr hl
  refine ⟨long, short, _, h1, h2, ?_, rfl, ?_, ?_⟩
  · unfold windSpeedTurbulenceOTF
    have hx : (Scal.py (-1) * vel * tD).val = .fin (-1 * w * t) := by
      rw [Scal.val_mul, Scal.val_mul, hv, ht]
      show (-1 : XR) * _ * _ = _
      xr_simp
    obtain ⟨q, e1, e2⟩ := Scal.div_fin hx hr0 hr.ne'
    rw [e1, ok_bind, e2, hr0]
    unfold windSpeedTurbulenceElt
    simp only [bc2, List.length_singleton, List.zipWith_cons_cons, List.zipWith_nil_right, if_true, h1, h2]
    xr_simp
    rw [show -1 * w * t / r = -(w * t / r) by ring]
  · have : 0 ≤ Real.exp (-(w * t / r)) := (Real.exp_pos _).le
    nlinarith
  · have h3 : Real.exp (-(w * t / r)) ≤ 1 := Real.exp_le_one_iff.mpr (by
      have : 0 ≤ w * t / r := by positivity
      linarith)
    nlinarith

/-- **C37** (no turbulence): for an infinite coherence diameter both OTFs are 1 at every frequency. -/
theorem C37_infinite_r0 (u v lam a : ℝ) {D : ℝ} (hD : 0 < D) (hl : 0 ≤ lam) :
    turbulenceOTF (.fin u) (.fin v) (.fin lam) (.fin D) .pinf (.fin a) = .fin 1 := by
  unfold turbulenceOTF
  rw [radial_fin]
  xr_simp
  rw [XR.fin_div _ hD.ne', XR.fin_rpow_nonneg (by positivity) (by norm_num)]
  have : XR.fin (lam * Real.sqrt (u ^ 2 + v ^ 2)) / XR.pinf = .fin 0 := rfl
  rw [this, XR.fin_rpow_nonneg le_rfl (by norm_num), Real.zero_rpow (by norm_num)]
  xr_simp
  simp

/-- **C37** (finding): the short-exposure OTF is at most 1 exactly up to eight aperture cutoffs;
beyond, the formula exceeds 1.  (The aperture OTF is zero there.) -/
theorem C37_short_le_one_iff (u v : ℝ) {lam D r0 : ℝ} (hD : 0 < D) (hr : 0 < r0) (hl : 0 < lam) :
    ∃ h : ℝ, turbulenceOTF (.fin u) (.fin v) (.fin lam) (.fin D) (.fin r0) 0.5 = .fin h
      ∧ (h ≤ 1 ↔ Real.sqrt (u ^ 2 + v ^ 2) ≤ 8 * (D / lam)) := by
  have h5 : (0.5 : XR) = .fin 0.5 := rfl
  refine ⟨_, by rw [h5, turbulence_fin _ _ _ _ hD hr hl.le], ?_⟩
  rw [Real.exp_le_one_iff, neg_nonpos]
  set rho := Real.sqrt (u ^ 2 + v ^ 2) with hrho
  have hrho0 : 0 ≤ rho := Real.sqrt_nonneg _
  have h8 : (8 : ℝ) ^ ((1 : ℝ) / 3) = 2 := by
    rw [show (8 : ℝ) = 2 ^ (3 : ℝ) by norm_num, ← Real.rpow_mul (by norm_num)]; norm_num
  have key : (lam * rho / D) ^ ((1 : ℝ) / 3) ≤ 2 ↔ rho ≤ 8 * (D / lam) := by
    rw [← h8, Real.rpow_le_rpow_iff (by positivity) (by norm_num) (by norm_num), div_le_iff₀ hD,
      mul_div_assoc', le_div_iff₀ hl, mul_comm lam rho]
  rw [← key]
  rcases hrho0.eq_or_lt with h | h
  · rw [← h]; simp
  · have hp : 0 < 3.44 * (lam * rho / r0) ^ ((5 : ℝ) / 3) := by positivity
    rw [mul_nonneg_iff_of_pos_left hp]
    constructor <;> intro h <;> linarith

example : ∃ long short h : ℝ,
      turbulenceOTF (.fin 1e5) (.fin 0) (.fin 5e-7) (.fin 0.1) (.fin 0.05) 0 = .fin long
      ∧ turbulenceOTF (.fin 1e5) (.fin 0) (.fin 5e-7) (.fin 0.1) (.fin 0.05) 0.5 = .fin short
      ∧ windSpeedTurbulenceOTF [.fin 1e5] [.fin 0] (.fin 5e-7) (.fin 0.1) (.np (.fin 0.05)) (.py (.fin 0.03))
          (.py (.fin 10)) = .ok [.fin h]
      ∧ h = Real.exp (-(10 * 0.03 / 0.05)) * short + (1 - Real.exp (-(10 * 0.03 / 0.05))) * long
      ∧ long ≤ h ∧ h ≤ short :=
  C37_mixture 1e5 0 (by norm_num) rfl (by norm_num) (by norm_num) rfl rfl (by norm_num) (by norm_num)

/-! ## C39 -/

theorem autoC_nonneg (lam u v lx ly : ℝ) :
    0 ≤ 1 - Real.exp (-(lam ^ 2 * ((u / lx) ^ 2 + (v / ly) ^ 2))) := by
  have : Real.exp (-(lam ^ 2 * ((u / lx) ^ 2 + (v / ly) ^ 2))) ≤ 1 :=
    Real.exp_le_one_iff.mpr (by rw [neg_nonpos]; positivity)
  linarith

/-- **C39** (wavefront OTF): in (0, 1], never below `exp(-pv)`, 1 at zero frequency and without
error, even in both frequencies. -/
theorem C39_range (u v lam : ℝ) {pv lx ly : ℝ} (hx : lx ≠ 0) (hy : ly ≠ 0) (hp : 0 ≤ pv) :
    (∃ h : ℝ, wavefrontOTF (.fin u) (.fin v) (.fin lam) (.fin pv) (.fin lx) (.fin ly) = .fin h
      ∧ 0 < h ∧ Real.exp (-pv) ≤ h ∧ h ≤ 1)
    ∧ wavefrontOTF (.fin 0) (.fin 0) (.fin lam) (.fin pv) (.fin lx) (.fin ly) = .fin 1
    ∧ wavefrontOTF (.fin u) (.fin v) (.fin lam) (.fin 0) (.fin lx) (.fin ly) = .fin 1
    ∧ wavefrontOTF (.fin (-u)) (.fin v) (.fin lam) (.fin pv) (.fin lx) (.fin ly)
        = wavefrontOTF (.fin u) (.fin v) (.fin lam) (.fin pv) (.fin lx) (.fin ly)
    ∧ wavefrontOTF (.fin u) (.fin (-v)) (.fin lam) (.fin pv) (.fin lx) (.fin ly)
        = wavefrontOTF (.fin u) (.fin v) (.fin lam) (.fin pv) (.fin lx) (.fin ly) := by
  simp only [wavefrontOTF_fin _ _ _ _ hx hy]
  refine ⟨⟨_, rfl, Real.exp_pos _, ?_, ?_⟩, by simp, by simp, ?_, ?_⟩
  · rw [Real.exp_le_exp, neg_le_neg_iff]
    have : 1 - Real.exp (-(lam ^ 2 * ((u / lx) ^ 2 + (v / ly) ^ 2))) ≤ 1 := by
      linarith [Real.exp_pos (-(lam ^ 2 * ((u / lx) ^ 2 + (v / ly) ^ 2)))]
    nlinarith
  · rw [Real.exp_le_one_iff, neg_nonpos]
    exact mul_nonneg hp (autoC_nonneg _ _ _ _ _)
  · rw [show (-u / lx) ^ 2 = (u / lx) ^ 2 by ring]
  · rw [show (-v / ly) ^ 2 = (v / ly) ^ 2 by ring]

/-- **C39** (wavefront OTF): more phase variance, less contrast; strictly so away from zero
frequency. -/
theorem C39_variance {u v lam pv pv' lx ly : ℝ} (hx : lx ≠ 0) (hy : ly ≠ 0) (hp : pv < pv') :
    ∃ h h' : ℝ, wavefrontOTF (.fin u) (.fin v) (.fin lam) (.fin pv) (.fin lx) (.fin ly) = .fin h
      ∧ wavefrontOTF (.fin u) (.fin v) (.fin lam) (.fin pv') (.fin lx) (.fin ly) = .fin h'
      ∧ h' ≤ h ∧ (lam ≠ 0 → u ≠ 0 → h' < h) := by
  refine ⟨_, _, wavefrontOTF_fin _ _ _ _ hx hy, wavefrontOTF_fin _ _ _ _ hx hy, ?_, ?_⟩
  · rw [Real.exp_le_exp, neg_le_neg_iff]
    exact mul_le_mul_of_nonneg_right hp.le (autoC_nonneg _ _ _ _ _)
  · intro hl hu
    rw [Real.exp_lt_exp, neg_lt_neg_iff]
    apply mul_lt_mul_of_pos_right hp
    have h1 : 0 < (u / lx) ^ 2 := by
      have : u / lx ≠ 0 := div_ne_zero hu hx
      positivity
    have : Real.exp (-(lam ^ 2 * ((u / lx) ^ 2 + (v / ly) ^ 2))) < 1 :=
      Real.exp_lt_one_iff.mpr (by rw [neg_lt_zero]; positivity)
    linarith

/-- **C39** (second wavefront OTF): 1 at zero frequency and at the cutoff, at most 1 inside, and
smallest at half the cutoff. -/
theorem C39_second {c : ℝ} (w : ℝ) (hc : 0 < c) :
    wavefrontOTF2 (.fin 0) (.fin 0) (.fin c) (.fin w) = .fin 1
    ∧ (∀ u v : ℝ, Real.sqrt (u ^ 2 + v ^ 2) = c →
        wavefrontOTF2 (.fin u) (.fin v) (.fin c) (.fin w) = .fin 1)
    ∧ (∀ u v : ℝ, Real.sqrt (u ^ 2 + v ^ 2) = c / 2 →
        wavefrontOTF2 (.fin u) (.fin v) (.fin c) (.fin w) = .fin (1 - (w / 0.18) ^ 2))
    ∧ (∀ u v : ℝ, ∃ h : ℝ, wavefrontOTF2 (.fin u) (.fin v) (.fin c) (.fin w) = .fin h
        ∧ 1 - (w / 0.18) ^ 2 ≤ h ∧ (Real.sqrt (u ^ 2 + v ^ 2) ≤ c → h ≤ 1)) := by
  have hne := hc.ne'
  refine ⟨?_, ?_, ?_, ?_⟩
  · rw [wavefrontOTF2_fin _ _ _ hne]; norm_num
  · intro u v h; rw [wavefrontOTF2_fin _ _ _ hne, h, div_self hne]; norm_num
  · intro u v h
    rw [wavefrontOTF2_fin _ _ _ hne, h, show c / 2 / c = 1 / 2 by field_simp]; norm_num
  · intro u v
    refine ⟨_, wavefrontOTF2_fin _ _ _ hne, ?_, ?_⟩
    · have h1 := sq_nonneg (w / 0.18)
      have h2 := sq_nonneg (Real.sqrt (u ^ 2 + v ^ 2) / c - 0.5)
      nlinarith [mul_nonneg h1 h2]
    · intro h
      have h1 := sq_nonneg (w / 0.18)
      have h2 : Real.sqrt (u ^ 2 + v ^ 2) / c ≤ 1 := (div_le_one hc).mpr h
      have h3 : 0 ≤ Real.sqrt (u ^ 2 + v ^ 2) / c := by positivity
      have h4 : 0 ≤ 1 - 4 * (Real.sqrt (u ^ 2 + v ^ 2) / c - 0.5) ^ 2 := by nlinarith
      nlinarith [mul_nonneg h1 h4]

example : ∃ u v : ℝ, Real.sqrt (u ^ 2 + v ^ 2) = 10 / 2 := ⟨3, 4, by
  rw [show (3 : ℝ) ^ 2 + 4 ^ 2 = 5 ^ 2 by norm_num, Real.sqrt_sq (by norm_num)]; norm_num⟩

/-! ## C42 -/

/-- **C42** (value at the ground). -/
theorem C42_ground (w c : ℝ) : hvProfile (.fin w) (.fin c) (.fin 0) = .fin (c + 2.7e-16) := by
  rw [hvProfile_fin, XR.fin_inj]
  norm_num
  ring

/-- **C42** (positive). -/
theorem C42_positive (w h : ℝ) {c : ℝ} (hc : 0 ≤ c) :
    ∃ y : ℝ, hvProfile (.fin w) (.fin c) (.fin h) = .fin y ∧ 0 < y := by
  refine ⟨_, hvProfile_fin _ _ _, ?_⟩
  have h10 : 0 ≤ h ^ 10 := by positivity
  positivity

/-- **C42** (increasing in wind speed and in ground turbulence). -/
theorem C42_monotone {w w' c c' : ℝ} (h : ℝ) (hw : 0 ≤ w) (hww : w ≤ w') (hc : c ≤ c') :
    ∃ y y' : ℝ, hvProfile (.fin w) (.fin c) (.fin h) = .fin y
      ∧ hvProfile (.fin w') (.fin c') (.fin h) = .fin y' ∧ y ≤ y'
      ∧ (h ≠ 0 → w < w' → y < y') ∧ (c < c' → y < y') := by
  have h10 : 0 ≤ h ^ 10 := by positivity
  have e1 := Real.exp_pos (-h / 1000)
  have e2 := Real.exp_pos (-h / 100)
  have hsq : (w / 27) ^ 2 ≤ (w' / 27) ^ 2 := by
    apply pow_le_pow_left₀ (by positivity)
    linarith
  have hA : 5.94e-53 * (w / 27) ^ 2 * h ^ 10 * Real.exp (-h / 1000)
      ≤ 5.94e-53 * (w' / 27) ^ 2 * h ^ 10 * Real.exp (-h / 1000) := by
    gcongr
  have hC : c * Real.exp (-h / 100) ≤ c' * Real.exp (-h / 100) := by gcongr
  refine ⟨_, _, hvProfile_fin _ _ _, hvProfile_fin _ _ _, ?_, ?_, ?_⟩
  · linarith
  · intro hh hlt
    have h10' : 0 < h ^ 10 := by positivity
    have hsq' : (w / 27) ^ 2 < (w' / 27) ^ 2 := by
      apply pow_lt_pow_left₀ _ (by positivity) (by norm_num)
      linarith
    have hA' : 5.94e-53 * (w / 27) ^ 2 * h ^ 10 * Real.exp (-h / 1000)
        < 5.94e-53 * (w' / 27) ^ 2 * h ^ 10 * Real.exp (-h / 1000) := by
      gcongr
    linarith
  · intro hlt
    have hC' : c * Real.exp (-h / 100) < c' * Real.exp (-h / 100) := by gcongr
    linarith

example : (0 : ℝ) ≤ 21 ∧ (21 : ℝ) ≤ 30 ∧ (1e-15 : ℝ) ≤ 1.7e-14 ∧ (500 : ℝ) ≠ 0 := by norm_num

end PyBSM
