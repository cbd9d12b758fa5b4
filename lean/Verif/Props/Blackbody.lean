import Verif.Lemmas.Radiance
import Mathlib.NumberTheory.ZetaValues
import Mathlib.Analysis.SpecialFunctions.Gamma.Basic
import Mathlib.MeasureTheory.Integral.IntegralEqImproper
import Mathlib.MeasureTheory.Integral.DominatedConvergence
import Mathlib.Analysis.Real.Pi.Bounds
import Mathlib.Analysis.Complex.ExponentialBounds
import Mathlib.Analysis.Calculus.Deriv.MeanValue

/-!
# C89: blackbody radiance obeys the Stefan-Boltzmann and Wien displacement laws
-/

noncomputable section

open MeasureTheory Set

namespace PyBSM

open Spec

/-- The Stefan-Boltzmann constant (W m^-2 K^-4) belonging to the constants of the code. -/
def Spec.stefanBoltzmann : ℝ := 2 * Real.pi ^ 5 * boltzmannK ^ 4 / (15 * planckH ^ 3 * lightC ^ 2)

/-! ## The Bose integral -/

theorem pow_exp_integral (n : ℕ) : ∫ t in Ioi (0 : ℝ), t ^ 3 * Real.exp (-((n + 1 : ℝ) * t)) = 6 / (n + 1 : ℝ) ^ 4 := by
  have h := Real.integral_rpow_mul_exp_neg_mul_Ioi (a := 4) (r := (n : ℝ) + 1) (by norm_num) (by positivity)
  have hG : Real.Gamma 4 = 6 := by
    have h3 := Real.Gamma_nat_eq_factorial 3
    rw [show ((3 : ℕ) : ℝ) + 1 = 4 by norm_num] at h3
    rw [h3]; norm_num [Nat.factorial]
  rw [hG] at h
  have e : ∀ t : ℝ, t ^ ((4 : ℝ) - 1) = t ^ 3 := by
    intro t
    rw [show (4 : ℝ) - 1 = ((3 : ℕ) : ℝ) by norm_num, Real.rpow_natCast]
  simp only [e] at h
  rw [h, show (4 : ℝ) = ((4 : ℕ) : ℝ) by norm_num, Real.rpow_natCast]
  field_simp

theorem pow_exp_integrable (n : ℕ) : IntegrableOn (fun t : ℝ => t ^ 3 * Real.exp (-((n + 1 : ℝ) * t))) (Ioi 0) := by
  by_contra h
  have h0 := integral_undef h
  rw [pow_exp_integral] at h0
  have : (0 : ℝ) < 6 / (n + 1 : ℝ) ^ 4 := by positivity
  linarith

theorem bose_series {x : ℝ} (hx : 0 < x) : ∑' n : ℕ, x ^ 3 * Real.exp (-((n + 1 : ℝ) * x)) = x ^ 3 / (Real.exp x - 1) := by
  have h1 : Real.exp (-x) < 1 := by rw [Real.exp_lt_one_iff]; linarith
  have e : ∀ n : ℕ, x ^ 3 * Real.exp (-((n + 1 : ℝ) * x)) = x ^ 3 * Real.exp (-x) * Real.exp (-x) ^ n := by
    intro n
    rw [← Real.exp_nat_mul, mul_assoc, ← Real.exp_add]
    congr 2; ring
  simp only [e]
  rw [tsum_mul_left, tsum_geometric_of_lt_one (Real.exp_pos _).le h1, Real.exp_neg]
  have hp := Real.exp_pos x
  have hg : 1 < Real.exp x := by rw [Real.one_lt_exp_iff]; exact hx
  have h2 : Real.exp x - 1 ≠ 0 := by linarith
  have h3 : 1 - (Real.exp x)⁻¹ ≠ 0 := by
    rw [Real.exp_neg] at h1; linarith
  field_simp

theorem bose_integral : ∫ x in Ioi (0 : ℝ), x ^ 3 / (Real.exp x - 1) = Real.pi ^ 4 / 15 := by
  have hs : HasSum (fun n : ℕ => 6 / (n + 1 : ℝ) ^ 4) (Real.pi ^ 4 / 15) := by
    have h := hasSum_zeta_four
    rw [← hasSum_nat_add_iff' 1] at h
    simp only [Finset.range_one, Finset.sum_singleton, Nat.cast_zero, ne_eq, OfNat.ofNat_ne_zero, not_false_eq_true,
      zero_pow, div_zero, sub_zero] at h
    have := h.mul_left 6
    convert! this using 1
    · funext n; push_cast; ring
    · ring
  have hn : ∀ n : ℕ, ∫ t in Ioi (0 : ℝ), ‖t ^ 3 * Real.exp (-((n + 1 : ℝ) * t))‖ = 6 / (n + 1 : ℝ) ^ 4 := by
    intro n
    rw [← pow_exp_integral]
    apply setIntegral_congr_fun measurableSet_Ioi
    intro t ht
    have ht' : (0 : ℝ) < t := ht
    simp only
    rw [Real.norm_of_nonneg (by positivity)]
  have key := hasSum_integral_of_summable_integral_norm (μ := volume.restrict (Ioi (0 : ℝ)))
    (F := fun (n : ℕ) t => t ^ 3 * Real.exp (-((n + 1 : ℝ) * t))) (fun n => pow_exp_integrable n)
    (by simp only [hn]; exact hs.summable)
  simp only [pow_exp_integral] at key
  rw [← key.unique hs]
  apply setIntegral_congr_fun measurableSet_Ioi
  intro x hx
  exact (bose_series hx).symm

theorem planck_integral {T : ℝ} (hT : 0 < T) :
    ∫ lam in Ioi (0 : ℝ), planck lam T = stefanBoltzmann * T ^ 4 / Real.pi := by
  have hp := planckH_pos; have hc := lightC_pos; have hk := boltzmannK_pos
  set b := planckH * lightC / (boltzmannK * T) with hb
  have hb0 : 0 < b := by positivity
  rw [← integral_comp_rpow_Ioi (fun lam => planck lam T) (p := -1) (by norm_num)]
  have e : EqOn (fun x : ℝ => (|(-1 : ℝ)| * x ^ ((-1 : ℝ) - 1)) • planck (x ^ (-1 : ℝ)) T)
      (fun x => (2 * planckH * lightC ^ 2 / b ^ 3) * ((b * x) ^ 3 / (Real.exp (b * x) - 1))) (Ioi 0) := by
    intro x hx
    have hx' : (0 : ℝ) < x := hx
    have hE : Real.exp (b * x) - 1 ≠ 0 := by
      have : 1 < Real.exp (b * x) := by rw [Real.one_lt_exp_iff]; positivity
      linarith
    simp only [smul_eq_mul]
    unfold planck
    rw [show (-1 : ℝ) - 1 = -((2 : ℕ) : ℝ) by norm_num, Real.rpow_neg hx'.le, Real.rpow_natCast, Real.rpow_neg_one,
      show planckH * lightC / (x⁻¹ * boltzmannK * T) = b * x by rw [hb]; field_simp]
    norm_num
    field_simp
  rw [setIntegral_congr_fun measurableSet_Ioi e, integral_const_mul,
    integral_comp_mul_left_Ioi (fun y : ℝ => y ^ 3 / (Real.exp y - 1)) 0 hb0, mul_zero, bose_integral, hb]
  unfold stefanBoltzmann
  have hpi := Real.pi_pos
  rw [smul_eq_mul]
  field_simp

/-- **C89** (Stefan-Boltzmann): summed over all wavelengths and over the hemisphere, a black body of `blackbody_radiance`
emits `sigma T^4`. -/
theorem C89_stefan_boltzmann {T : ℝ} (hT : 0 < T) :
    ∃ B : ℝ → ℝ, (∀ lam > 0, blackbody (.fin lam) (.fin T) = .fin (B lam)) ∧ IntegrableOn B (Ioi 0)
      ∧ Real.pi * ∫ lam in Ioi 0, B lam = stefanBoltzmann * T ^ 4 := by
  have hp := planckH_pos; have hc := lightC_pos; have hk := boltzmannK_pos
  have hpi := Real.pi_pos
  have hs : 0 < stefanBoltzmann := by unfold stefanBoltzmann; positivity
  refine ⟨fun lam => planck lam T, fun lam hl => blackbody_fin hl hT, ?_, ?_⟩
  · by_contra h
    have h0 := integral_undef h
    rw [planck_integral hT] at h0
    have : 0 < stefanBoltzmann * T ^ 4 / Real.pi := by positivity
    linarith
  · rw [planck_integral hT]
    field_simp

/-- **C89** (constant): with the constants of the code, sigma is 5.67037e-8 W m^-2 K^-4. -/
theorem C89_constant : 5.6703e-8 < stefanBoltzmann ∧ stefanBoltzmann < 5.6704e-8 := by
  unfold stefanBoltzmann planckH lightC boltzmannK
  have h1 := Real.pi_gt_d6
  have h2 := Real.pi_lt_d6
  have h5l : (3.141592 : ℝ) ^ 5 < Real.pi ^ 5 := by gcongr
  have h5u : Real.pi ^ 5 < (3.141593 : ℝ) ^ 5 := by gcongr
  constructor
  · rw [lt_div_iff₀ (by norm_num)]
    calc _ < 2 * (3.141592 : ℝ) ^ 5 * 1.38064852e-23 ^ 4 := by norm_num
      _ < _ := by gcongr
  · rw [div_lt_iff₀ (by norm_num)]
    calc _ < 2 * (3.141593 : ℝ) ^ 5 * 1.38064852e-23 ^ 4 := by gcongr
      _ < _ := by norm_num

/-! ## The displacement law -/

/-- The reduced spectrum. -/
def bose5 (x : ℝ) : ℝ := x ^ 5 / (Real.exp x - 1)

/-- The sign of its slope. -/
def boseSlope (x : ℝ) : ℝ := 5 * (Real.exp x - 1) - x * Real.exp x

theorem exp_five : 148.3 < Real.exp 5 ∧ Real.exp 5 < 149 := by
  have h1 := Real.exp_one_gt_d9
  have h2 := Real.exp_one_lt_d9
  have e : Real.exp 5 = Real.exp 1 ^ 5 := by rw [← Real.exp_nat_mul]; norm_num
  rw [e]
  constructor
  · calc (148.3 : ℝ) < 2.7182818283 ^ 5 := by norm_num
      _ < _ := by gcongr
  · calc Real.exp 1 ^ 5 < 2.7182818286 ^ 5 := by gcongr
      _ < _ := by norm_num

theorem boseSlope_low : 0 < boseSlope 4.965 := by
  unfold boseSlope
  have h : Real.exp 4.965 = Real.exp 5 * Real.exp (-0.035) := by rw [← Real.exp_add]; norm_num
  have h1 := Real.add_one_le_exp (-0.035 : ℝ)
  have h5 := exp_five.1
  have : 142.86 < Real.exp 4.965 := by rw [h]; nlinarith
  linarith

theorem boseSlope_high : boseSlope 4.966 < 0 := by
  unfold boseSlope
  have h : Real.exp 4.966 * Real.exp 0.034 = Real.exp 5 := by rw [← Real.exp_add]; norm_num
  have h1 := Real.add_one_le_exp (0.034 : ℝ)
  have h5 := exp_five.2
  have hp := Real.exp_pos (4.966 : ℝ)
  have : Real.exp 4.966 < 147 := by nlinarith
  linarith

theorem boseSlope_deriv (x : ℝ) : HasDerivAt boseSlope ((4 - x) * Real.exp x) x := by
  unfold boseSlope
  have := (((Real.hasDerivAt_exp x).sub_const 1).const_mul 5).sub ((hasDerivAt_id x).mul (Real.hasDerivAt_exp x))
  convert! this using 1
  simp only [id]
  ring

theorem boseSlope_root : ∃ x0, 4.965 < x0 ∧ x0 < 4.966 ∧ (∀ x, 0 < x → x < x0 → 0 < boseSlope x)
    ∧ ∀ x, x0 < x → boseSlope x < 0 := by
  have hcont : Continuous boseSlope := by unfold boseSlope; fun_prop
  have hanti : StrictAntiOn boseSlope (Ici 4) := by
    apply strictAntiOn_of_deriv_neg (convex_Ici 4) hcont.continuousOn
    intro x hx
    rw [interior_Ici] at hx
    rw [(boseSlope_deriv x).deriv]
    exact mul_neg_of_neg_of_pos (by linarith [show (4 : ℝ) < x from hx]) (Real.exp_pos x)
  have hmono : StrictMonoOn boseSlope (Icc 0 4) := by
    apply strictMonoOn_of_deriv_pos (convex_Icc 0 4) hcont.continuousOn
    intro x hx
    rw [interior_Icc] at hx
    rw [(boseSlope_deriv x).deriv]
    exact mul_pos (by linarith [hx.2]) (Real.exp_pos x)
  obtain ⟨x0, ⟨h1, h2⟩, h0⟩ := intermediate_value_Icc' (show (4.965 : ℝ) ≤ 4.966 by norm_num) hcont.continuousOn
    ⟨boseSlope_high.le, boseSlope_low.le⟩
  have hlo : 4.965 < x0 := lt_of_le_of_ne h1 (by rintro rfl; linarith [boseSlope_low])
  have hhi : x0 < 4.966 := lt_of_le_of_ne h2 (by rintro rfl; linarith [boseSlope_high])
  refine ⟨x0, hlo, hhi, ?_, ?_⟩
  · intro x hx hx0
    rcases le_total x 4 with h | h
    · have := hmono (show (0 : ℝ) ∈ Icc 0 4 by norm_num) ⟨hx.le, h⟩ hx
      have z : boseSlope 0 = 0 := by simp [boseSlope]
      linarith
    · have := hanti (show x ∈ Ici 4 from h) (show x0 ∈ Ici 4 by rw [mem_Ici]; linarith) hx0
      linarith
  · intro x hx
    have := hanti (show x0 ∈ Ici 4 by rw [mem_Ici]; linarith) (show x ∈ Ici 4 by rw [mem_Ici]; linarith) hx
    linarith

theorem bose5_deriv {x : ℝ} (hx : 0 < x) :
    HasDerivAt bose5 (x ^ 4 * boseSlope x / (Real.exp x - 1) ^ 2) x := by
  have hE : Real.exp x - 1 ≠ 0 := by
    have : 1 < Real.exp x := by rw [Real.one_lt_exp_iff]; exact hx
    linarith
  unfold bose5 boseSlope
  have := (hasDerivAt_pow 5 x).div ((Real.hasDerivAt_exp x).sub_const 1) hE
  convert! this using 1
  push_cast
  ring

theorem bose5_peak : ∃ x0, 4.965 < x0 ∧ x0 < 4.966 ∧ StrictMonoOn bose5 (Ioc 0 x0) ∧ StrictAntiOn bose5 (Ici x0) := by
  obtain ⟨x0, h1, h2, hpos, hneg⟩ := boseSlope_root
  have hE : ∀ x : ℝ, 0 < x → 0 < Real.exp x - 1 := by
    intro x hx
    have : 1 < Real.exp x := by rw [Real.one_lt_exp_iff]; exact hx
    linarith
  refine ⟨x0, h1, h2, ?_, ?_⟩
  · apply strictMonoOn_of_deriv_pos (convex_Ioc 0 x0)
    · intro x hx; exact (bose5_deriv hx.1).continuousAt.continuousWithinAt
    · intro x hx
      rw [interior_Ioc] at hx
      rw [(bose5_deriv hx.1).deriv]
      have := hpos x hx.1 hx.2; have := hE x hx.1; have := hx.1
      positivity
  · apply strictAntiOn_of_deriv_neg (convex_Ici x0)
    · intro x hx
      exact (bose5_deriv (by have : x0 ≤ x := hx; linarith)).continuousAt.continuousWithinAt
    · intro x hx
      rw [interior_Ici] at hx
      have hx0 : x0 < x := hx
      have hxp : 0 < x := by linarith
      rw [(bose5_deriv hxp).deriv]
      have := hneg x hx; have := hE x hxp
      apply div_neg_of_neg_of_pos
      · exact mul_neg_of_pos_of_neg (by positivity) (hneg x hx)
      · positivity

theorem planck_bose5 {lam T : ℝ} (hl : 0 < lam) (hT : 0 < T) :
    planck lam T = 2 * planckH * lightC ^ 2 / (planckH * lightC / (boltzmannK * T)) ^ 5
      * bose5 (planckH * lightC / (lam * boltzmannK * T)) := by
  have hp := planckH_pos; have hc := lightC_pos; have hk := boltzmannK_pos
  have hE := (exp_sub_one_pos hl hT).ne'
  unfold planck bose5
  field_simp

/-- **C89** (Wien's displacement law): there is one constant `b = 2.898 mm K` such that at every temperature the spectral
radiance of `blackbody_radiance` strictly increases with the wavelength up to `b / T` and strictly decreases from there
on. -/
theorem C89_displacement : ∃ b : ℝ, 0.0028970 < b ∧ b < 0.0028984 ∧ ∀ T > 0, ∃ B : ℝ → ℝ,
    (∀ lam > 0, blackbody (.fin lam) (.fin T) = .fin (B lam))
    ∧ StrictMonoOn B (Ioc 0 (b / T)) ∧ StrictAntiOn B (Ici (b / T)) := by
  have hp := planckH_pos; have hc := lightC_pos; have hk := boltzmannK_pos
  obtain ⟨x0, h1, h2, hm, ha⟩ := bose5_peak
  have hx0 : 0 < x0 := by linarith
  refine ⟨planckH * lightC / (boltzmannK * x0), ?_, ?_, fun T hT => ⟨fun lam => planck lam T,
    fun lam hl => blackbody_fin hl hT, ?_, ?_⟩⟩
  · rw [lt_div_iff₀ (by positivity)]
    unfold planckH lightC boltzmannK
    nlinarith
  · rw [div_lt_iff₀ (by positivity)]
    unfold planckH lightC boltzmannK
    nlinarith
  · intro l hl l' hl' hll
    have hl0 : 0 < l := hl.1
    have hl0' : 0 < l' := hl'.1
    simp only
    rw [planck_bose5 hl0 hT, planck_bose5 hl0' hT]
    apply mul_lt_mul_of_pos_left _ (by positivity)
    have hle : l' ≤ planckH * lightC / (boltzmannK * x0) / T := hl'.2
    have e1 : x0 ≤ planckH * lightC / (l' * boltzmannK * T) := by
      rw [le_div_iff₀ (by positivity)] at hle ⊢
      rw [le_div_iff₀ (by positivity)] at hle
      linarith
    have e2 : planckH * lightC / (l' * boltzmannK * T) < planckH * lightC / (l * boltzmannK * T) := by
      apply div_lt_div_of_pos_left (by positivity) (by positivity)
      gcongr
    exact ha e1 (e1.trans e2.le) e2
  · intro l hl l' hl' hll
    have hb : 0 < planckH * lightC / (boltzmannK * x0) / T := by positivity
    have hl0 : 0 < l := lt_of_lt_of_le hb hl
    have hl0' : 0 < l' := lt_of_lt_of_le hb hl'
    simp only
    rw [planck_bose5 hl0 hT, planck_bose5 hl0' hT]
    apply mul_lt_mul_of_pos_left _ (by positivity)
    have hle : planckH * lightC / (boltzmannK * x0) / T ≤ l := hl
    have e1 : planckH * lightC / (l * boltzmannK * T) ≤ x0 := by
      rw [div_le_iff₀ (by positivity)] at hle ⊢
      rw [div_le_iff₀ (by positivity)] at hle
      linarith
    have e2 : planckH * lightC / (l' * boltzmannK * T) < planckH * lightC / (l * boltzmannK * T) := by
      apply div_lt_div_of_pos_left (by positivity) (by positivity)
      gcongr
    exact hm ⟨by positivity, e2.le.trans e1⟩ ⟨by positivity, e1⟩ e2

/-- Room temperature: the peak is between 9.6 and 9.7 micrometres. -/
example {b : ℝ} (h1 : 0.0028970 < b) (h2 : b < 0.0028984) : 9.6e-6 < b / 300 ∧ b / 300 < 9.7e-6 := by
  constructor
  · rw [lt_div_iff₀ (by norm_num)]; linarith
  · rw [div_lt_iff₀ (by norm_num)]; linarith

end PyBSM
