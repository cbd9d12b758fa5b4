import Verif.Spec.Physics
import Verif.Props.Blur
import Verif.Props.Turbulence
import Verif.Props.Scalars
import Mathlib.Analysis.SpecialFunctions.ImproperIntegrals

/-!
# C17, C34, C37, C39, C42, C49: physical meaning and exact values of further components
-/

noncomputable section

open MeasureTheory Set

namespace PyBSM

open Spec

theorem meanPhasor_eq {V : ℝ} (hV : 0 ≤ V) : meanPhasor V = (Real.exp (-(V / 2)) : ℂ) := by
  have h := ProbabilityTheory.charFun_gaussianReal (μ := 0) (v := V.toNNReal) 1
  rw [charFun_apply_real] at h
  unfold meanPhasor
  simp only [Complex.ofReal_one, one_mul] at h
  rw [h]
  push_cast
  congr 1
  rw [show ((V.toNNReal : ℝ) : ℂ) = (V : ℂ) by rw [Real.coe_toNNReal _ hV]]
  simp

theorem collected_eq {a d L : ℝ} (ha : 0 < a) (hd : 0 ≤ d) (hL : 0 < L) :
    collected a d L = 1 - Real.exp (-(a * d)) / (1 + a * L) := by
  unfold collected
  have hneg : -(a + 1 / L) < 0 := by have := one_div_pos.mpr hL; linarith
  have hcong : EqOn (fun x => a * Real.exp (-(a * x)) * (if x ≤ d then 1 else Real.exp (-((x - d) / L))))
      (fun x => (a * Real.exp (d / L)) * Real.exp (-(a + 1 / L) * x)) (Ioi d) := by
    intro x hx
    simp only
    rw [if_neg (not_le.mpr hx), mul_assoc, mul_assoc, ← Real.exp_add, ← Real.exp_add]
    congr 2
    field_simp
    ring
  have hcong1 : EqOn (fun x => a * Real.exp (-(a * x)) * (if x ≤ d then 1 else Real.exp (-((x - d) / L))))
      (fun x => a * Real.exp (-a * x)) (Ioc 0 d) := by
    intro x hx
    simp only
    rw [if_pos hx.2, mul_one, neg_mul]
  have i1 : IntegrableOn (fun x => a * Real.exp (-(a * x)) * (if x ≤ d then 1 else Real.exp (-((x - d) / L)))) (Ioc 0 d) := by
    rw [integrableOn_congr_fun hcong1 measurableSet_Ioc]
    exact ((by fun_prop : Continuous fun x : ℝ => a * Real.exp (-a * x)).integrableOn_Icc (a := 0) (b := d)).mono_set Ioc_subset_Icc_self
  have i2 : IntegrableOn (fun x => a * Real.exp (-(a * x)) * (if x ≤ d then 1 else Real.exp (-((x - d) / L)))) (Ioi d) := by
    rw [integrableOn_congr_fun hcong measurableSet_Ioi]
    exact (integrableOn_exp_mul_Ioi hneg d).const_mul _
  have hna : -a < 0 := by linarith
  have hfin : ∫ x in Ioc 0 d, Real.exp (-a * x) = (1 - Real.exp (-(a * d))) / a := by
    have h1 := integral_exp_mul_Ioi hna 0
    have j := integrableOn_exp_mul_Ioi hna
    rw [← Ioc_union_Ioi_eq_Ioi hd, setIntegral_union (Ioc_disjoint_Ioi le_rfl) measurableSet_Ioi
      ((j 0).mono_set Ioc_subset_Ioi_self) (j d), integral_exp_mul_Ioi hna d, mul_zero, Real.exp_zero] at h1
    have e := eq_sub_of_add_eq h1
    rw [e, neg_mul]
    field_simp
  rw [← Ioc_union_Ioi_eq_Ioi hd, setIntegral_union (Ioc_disjoint_Ioi le_rfl) measurableSet_Ioi i1 i2,
    setIntegral_congr_fun measurableSet_Ioc hcong1, setIntegral_congr_fun measurableSet_Ioi hcong,
    integral_const_mul, integral_const_mul, integral_exp_mul_Ioi hneg, hfin]
  have e : Real.exp (-(a + 1 / L) * d) = Real.exp (-(a * d)) / Real.exp (d / L) := by
    rw [← Real.exp_sub]; congr 1; field_simp; ring
  rw [e]
  have h0 := (Real.exp_pos (d / L)).ne'
  have h1 : (1 + a * L) ≠ 0 := by positivity
  have h2 : -(a + 1 / L) ≠ 0 := hneg.ne
  have h3 : a + 1 / L ≠ 0 := by intro h; apply h2; rw [h]; simp
  rw [neg_div_neg_eq]
  field_simp
  ring

/-- **C34** (charge collection): `diffusion_OTF` is the share of the light collected for a fringe relative to that for
uniform light: for a fringe of wavenumber `2 pi rho / f` on the detector the diffusion length `l` shortens to `L` with
`1/L^2 = 1/l^2 + (2 pi rho / f)^2`. -/
theorem C34_collection (u v : ℝ) {alpha d l f : ℝ} {al0 : Scal} (ha : 0 < alpha) (hl : al0.val = .fin l)
    (hl0 : 0 < l) (hf : f ≠ 0) (hd : 0 ≤ d) :
    ∃ L > 0, 1 / L ^ 2 = 1 / l ^ 2 + (2 * Real.pi * Real.sqrt (u ^ 2 + v ^ 2) / f) ^ 2
      ∧ 0 < collected alpha d l
      ∧ diffusionOTF (.fin u) (.fin v) (.fin alpha) (.fin d) al0 (.fin f)
        = .ok (.fin (collected alpha d L / collected alpha d l)) := by
  have hp := alRho_pos hl0 (2 * Real.pi * Real.sqrt (u ^ 2 + v ^ 2) / f)
  refine ⟨alRho l (2 * Real.pi * Real.sqrt (u ^ 2 + v ^ 2) / f), hp, ?_, ?_, ?_⟩
  · unfold alRho
    rw [Real.sq_sqrt (by positivity), one_div_one_div]
  · rw [collected_eq ha hd hl0]; exact diffusion_num_pos ha hl0 hd
  · rw [diffusion_fin u v ha hl hl0 hf hd, collected_eq ha hd hp, collected_eq ha hd hl0]

/-- **C37** (long exposure): the contrast left by random phase differences with Kolmogorov's structure function
`6.88 (r / r0)^(5/3)` at separation `r = lam * rho`. -/
theorem C37_kolmogorov (u v : ℝ) {lam D r0 : ℝ} (hD : 0 < D) (hr : 0 < r0) (hl : 0 ≤ lam) :
    ∃ h : ℝ, turbulenceOTF (.fin u) (.fin v) (.fin lam) (.fin D) (.fin r0) 0 = .fin h
      ∧ (h : ℂ) = meanPhasor (6.88 * (lam * Real.sqrt (u ^ 2 + v ^ 2) / r0) ^ ((5 : ℝ) / 3)) := by
  refine ⟨_, turbulence_fin u v lam 0 hD hr hl, ?_⟩
  rw [meanPhasor_eq (by positivity), zero_mul, sub_zero, mul_one]
  norm_num
  congr 1
  ring

/-- **C37** (short exposure): the mean tilt removed, the structure function is multiplied by
`1 - (r / D)^(1/3) / 2`. -/
theorem C37_tilt_removed (u v : ℝ) {lam D r0 : ℝ} (hD : 0 < D) (hr : 0 < r0) (hl : 0 ≤ lam)
    (hc : lam * Real.sqrt (u ^ 2 + v ^ 2) ≤ D) :
    ∃ h : ℝ, turbulenceOTF (.fin u) (.fin v) (.fin lam) (.fin D) (.fin r0) 0.5 = .fin h
      ∧ (h : ℂ) = meanPhasor (6.88 * (lam * Real.sqrt (u ^ 2 + v ^ 2) / r0) ^ ((5 : ℝ) / 3)
          * (1 - (lam * Real.sqrt (u ^ 2 + v ^ 2) / D) ^ ((1 : ℝ) / 3) / 2)) := by
  refine ⟨_, turbulence_fin u v lam 0.5 hD hr hl, ?_⟩
  have hq : (lam * Real.sqrt (u ^ 2 + v ^ 2) / D) ^ ((1 : ℝ) / 3) ≤ 1 :=
    Real.rpow_le_one (by positivity) (by rw [div_le_one hD]; exact hc) (by norm_num)
  rw [meanPhasor_eq (mul_nonneg (by positivity) (by linarith))]
  congr 2
  norm_num
  ring

/-- **C39** (wavefront errors): the contrast left by random phase errors of variance `pv` whose correlation over a
separation `(lam u, lam v)` is a Gaussian of widths `L_x`, `L_y`: the difference of two of them has the variance
`2 pv (1 - correlation)`. -/
theorem C39_random_phase (u v lam : ℝ) {pv lx ly : ℝ} (hx : lx ≠ 0) (hy : ly ≠ 0) (hp : 0 ≤ pv) :
    ∃ h : ℝ, wavefrontOTF (.fin u) (.fin v) (.fin lam) (.fin pv) (.fin lx) (.fin ly) = .fin h
      ∧ (h : ℂ) = meanPhasor (2 * pv * (1 - Real.exp (-((lam * u / lx) ^ 2 + (lam * v / ly) ^ 2)))) := by
  refine ⟨_, wavefrontOTF_fin u v lam pv hx hy, ?_⟩
  have hle : Real.exp (-((lam * u / lx) ^ 2 + (lam * v / ly) ^ 2)) ≤ 1 := by
    rw [Real.exp_le_one_iff]; nlinarith [sq_nonneg (lam * u / lx), sq_nonneg (lam * v / ly)]
  rw [meanPhasor_eq (mul_nonneg (by positivity) (by linarith))]
  have e : lam ^ 2 * ((u / lx) ^ 2 + (v / ly) ^ 2) = (lam * u / lx) ^ 2 + (lam * v / ly) ^ 2 := by ring
  rw [e]
  congr 2
  ring

/-- **C42** (value): the Hufnagel-Valley model in its usual units: a wind term peaking at 10 km, a tropopause term with
scale height 1500 m and a ground term with scale height 100 m. -/
theorem C42_value (w c h : ℝ) : hvProfile (.fin w) (.fin c) (.fin h)
    = .fin (0.00594 * (w / 27) ^ 2 * (1e-5 * h) ^ 10 * Real.exp (-(h / 1000)) + 2.7e-16 * Real.exp (-(h / 1500))
        + c * Real.exp (-(h / 100))) := by
  rw [hvProfile_fin, XR.fin_inj]
  simp only [neg_div]
  congr 2
  ring

/-- **C49** (values): 0.62 times the angle between the marginal rays of object and focus ranges, and the same with the
image displaced by `z`. -/
theorem C49_value {d r r0 z f : ℝ} (hr : r ≠ 0) (hr0 : r0 ≠ 0) (hf : f ≠ 0) {D R R0 Z F : Scal} (h1 : D.val = .fin d)
    (h2 : R.val = .fin r) (h3 : R0.val = .fin r0) (h4 : Z.val = .fin z) (h5 : F.val = .fin f) :
    objectDomainDefocusRadii D R R0 = .ok (.fin (0.62 * (d / r - d / r0)))
    ∧ imageDomainDefocusRadii D Z F = .ok (.fin (0.62 * (d / f * (z / f)))) := by
  constructor
  · obtain ⟨a, ha, hva⟩ := Scal.div_fin (a := .py 1) (x := 1) rfl h2 hr
    obtain ⟨b, hb, hvb⟩ := Scal.div_fin (a := .py 1) (x := 1) rfl h3 hr0
    unfold objectDomainDefocusRadii
    rw [ha, ok_bind, hb, ok_bind, hva, hvb, h1]
    xr_simp
    congr 2
    ring
  · have hn : (Scal.py 0.62 * D * Z).val = .fin (0.62 * d * z) := by
      simp only [Scal.val_mul, h1, h4, Scal.val_py]; xr_simp
    have hq : (F ^ 2).val = .fin (f ^ 2) := by rw [Scal.val_pow, h5, XR.fin_pow]
    obtain ⟨q, h, hv⟩ := Scal.div_fin hn hq (pow_ne_zero 2 hf)
    unfold imageDomainDefocusRadii
    rw [h, ok_bind, hv]
    congr 2
    ring

/-- A silicon detector: absorption 1e5 per metre, 10 um depletion, 100 um diffusion length collects most but not all
of the light. -/
example : 0 < collected 1e5 1e-5 1e-4 ∧ collected 1e5 1e-5 1e-4 < 1 := by
  rw [collected_eq (by norm_num) (by norm_num) (by norm_num)]
  have h0 := Real.exp_pos (-(1e5 * 1e-5))
  have h1 : Real.exp (-(1e5 * 1e-5)) < 1 := by rw [Real.exp_lt_one_iff]; norm_num
  constructor
  · rw [sub_pos, div_lt_one (by norm_num)]; linarith [show (1 : ℝ) < 1 + 1e5 * 1e-4 by norm_num]
  · have : 0 < Real.exp (-(1e5 * 1e-5)) / (1 + 1e5 * 1e-4) := by positivity
    linarith

/-- A random phase of one radian leaves a contrast strictly between 0 and 1. -/
example : meanPhasor 1 = (Real.exp (-(1 / 2)) : ℂ) ∧ Real.exp (-(1 / 2)) < 1 := by
  refine ⟨meanPhasor_eq zero_le_one, ?_⟩
  rw [Real.exp_lt_one_iff]; norm_num

/-- **C17** (remaining cases): a zero count over a negative limit is a ZeroDivisionError for Python numbers and minus
infinity otherwise; an infinite count is scaled to zero; a count or limit that is not a number is not scaled. -/
theorem C17_special {total limit : Scal} :
    (∀ m : ℝ, total.val = .fin 0 → limit.val = .fin m → m < 0 →
      (total.IsPy ∧ limit.IsPy → checkWellFill total limit = .error .zeroDivisionError)
      ∧ (¬ (total.IsPy ∧ limit.IsPy) → ∃ s, checkWellFill total limit = .ok s ∧ s.val = .ninf))
    ∧ (∀ m : ℝ, total.val = .pinf → limit.val = .fin m → ∃ s, checkWellFill total limit = .ok s ∧ s.val = .fin 0)
    ∧ (total.val = .nan ∨ limit.val = .nan → checkWellFill total limit = .ok (.py 1)) := by
  refine ⟨fun m ht hm h0 => ?_, fun m ht hm => ?_, fun h => ?_⟩
  · unfold checkWellFill
    rw [ht, hm, if_pos (by rw [XR.fin_lt]; exact h0)]
    have hd : XR.fin m / XR.fin 0 = .ninf := by
      rw [XR.fin_div_zero]; simp [XR.mulInf, h0, not_lt.mpr h0.le]
    cases total <;> cases limit <;> simp_all [Scal.div, Scal.IsPy, Scal.val, XR.eq]
  · unfold checkWellFill
    rw [ht, hm, if_pos (by simp [XR.lt])]
    have hd : XR.fin m / XR.pinf = .fin 0 := rfl
    cases total <;> cases limit <;> simp_all [Scal.div, Scal.val, XR.eq]
  · unfold checkWellFill
    rw [if_neg]
    rcases h with h | h <;> rw [h] <;> cases limit.val <;> simp [XR.lt]

end PyBSM
