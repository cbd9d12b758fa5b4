import Verif.Spec.EdgeSpread
import Verif.Lemmas.Edge
import Mathlib.Analysis.Fourier.Inversion
import Mathlib.Analysis.SpecialFunctions.Integrals.Basic
import Mathlib.MeasureTheory.Integral.IntegralEqImproper

/-!
# The edge response as an integral over the MTF
-/

noncomputable section

open MeasureTheory Set
open scoped FourierTransform

namespace PyBSM

open Spec

theorem even_fourier {f : ℝ → ℝ} (hf : Integrable f) (he : ∀ x, f (-x) = f x) (u : ℝ) :
    𝓕 (fun x => (f x : ℂ)) u = ((∫ x, f x * Real.cos (2 * Real.pi * u * x) : ℝ) : ℂ) := by
  rw [Real.fourier_real_eq_integral_exp_smul]
  have hc : Integrable fun x => f x * Real.cos (2 * Real.pi * u * x) := by
    apply hf.mul_bdd (c := 1) (by fun_prop)
    exact Filter.Eventually.of_forall fun x => Real.abs_cos_le_one _
  have hs : Integrable fun x => f x * Real.sin (2 * Real.pi * u * x) := by
    apply hf.mul_bdd (c := 1) (by fun_prop)
    exact Filter.Eventually.of_forall fun x => Real.abs_sin_le_one _
  have e : ∀ x : ℝ, Complex.exp (((-2 * Real.pi * x * u : ℝ) : ℂ) * Complex.I) • (f x : ℂ)
      = ((f x * Real.cos (2 * Real.pi * u * x) : ℝ) : ℂ) - Complex.I * ((f x * Real.sin (2 * Real.pi * u * x) : ℝ) : ℂ) := by
    intro x
    rw [Complex.exp_mul_I, ← Complex.ofReal_cos, ← Complex.ofReal_sin,
      show -2 * Real.pi * x * u = -(2 * Real.pi * u * x) by ring, Real.cos_neg, Real.sin_neg, smul_eq_mul]
    push_cast
    ring
  simp only [e]
  rw [integral_sub hc.ofReal (hs.ofReal.const_mul _), integral_const_mul, integral_complex_ofReal, integral_complex_ofReal]
  have z : ∫ x, f x * Real.sin (2 * Real.pi * u * x) = 0 := by
    have h := integral_neg_eq_self (fun x => f x * Real.sin (2 * Real.pi * u * x)) volume
    have e2 : ∀ x, f (-x) * Real.sin (2 * Real.pi * u * -x) = -(f x * Real.sin (2 * Real.pi * u * x)) := by
      intro x
      rw [he, mul_neg, Real.sin_neg]; ring
    simp only [e2] at h
    rw [integral_neg] at h
    linarith
  rw [z]; simp

theorem contrast_even (L : ℝ → ℝ) (u : ℝ) : contrast L (-u) = contrast L u := by
  unfold contrast
  congr 1; funext x
  rw [show 2 * Real.pi * -u * x = -(2 * Real.pi * u * x) by ring, Real.cos_neg]

theorem contrast_le {L : ℝ → ℝ} (h : LineSpread L) (u : ℝ) : |contrast L u| ≤ 1 := by
  unfold contrast
  calc |∫ x, L x * Real.cos (2 * Real.pi * u * x)| ≤ ∫ x, L x := by
        rw [← Real.norm_eq_abs]
        apply norm_integral_le_of_norm_le h.integrable
        refine Filter.Eventually.of_forall fun x => ?_
        rw [Real.norm_eq_abs, abs_mul, abs_of_nonneg (h.nonneg x)]
        exact mul_le_of_le_one_right (h.nonneg x) (Real.abs_cos_le_one _)
    _ = 1 := h.total

/-- Fourier inversion for a line spread whose MTF has a cutoff. -/
theorem spread_inversion {L : ℝ → ℝ} (h : LineSpread L) (hM : Continuous (contrast L)) {c : ℝ}
    (hc : ∀ u, c ≤ u → contrast L u = 0) :
    Integrable (contrast L) ∧ ∀ x, L x = ∫ u, contrast L u * Real.cos (2 * Real.pi * x * u) := by
  have hi : Integrable (contrast L) := by
    apply hM.integrable_of_hasCompactSupport
    apply HasCompactSupport.of_support_subset_isCompact (isCompact_Icc (a := -c) (b := c))
    intro u hu
    rw [Function.mem_support] at hu
    constructor
    · by_contra hlt
      exact hu (by rw [← contrast_even]; exact hc _ (by linarith))
    · by_contra hlt
      exact hu (hc _ (by linarith))
  refine ⟨hi, fun x => ?_⟩
  have hF : 𝓕 (fun x => (L x : ℂ)) = fun u => (contrast L u : ℂ) := by
    funext u; exact even_fourier h.integrable h.even u
  have hinv := Continuous.fourierInv_fourier_eq (f := fun x => (L x : ℂ)) (by have := h.continuous; fun_prop)
    h.integrable.ofReal (by rw [hF]; exact hi.ofReal)
  rw [hF] at hinv
  have := congrFun hinv x
  rw [Real.fourierInv_eq_fourier_neg, even_fourier hi (contrast_even L)] at this
  have h2 := Complex.ofReal_injective this
  rw [← h2]
  congr 1; funext u
  rw [show 2 * Real.pi * -x * u = -(2 * Real.pi * x * u) by ring, Real.cos_neg]

/-- The integral of a fringe from the edge to `x`. -/
def fringe (x u : ℝ) : ℝ := ∫ t in (0 : ℝ)..x, Real.cos (2 * Real.pi * t * u)

theorem fringe_value (x : ℝ) {u : ℝ} (hu : u ≠ 0) : fringe x u = Real.sin (2 * Real.pi * u * x) / (2 * Real.pi * u) := by
  have hp := Real.pi_pos.ne'
  unfold fringe
  have hd : ∀ t ∈ uIcc 0 x, HasDerivAt (fun t => Real.sin (2 * Real.pi * u * t) / (2 * Real.pi * u))
      (Real.cos (2 * Real.pi * t * u)) t := by
    intro t _
    have h1 : HasDerivAt (fun t => 2 * Real.pi * u * t) (2 * Real.pi * u) t := by
      simpa using (hasDerivAt_id t).const_mul (2 * Real.pi * u)
    have := (h1.sin).div_const (2 * Real.pi * u)
    convert! this using 1
    rw [show 2 * Real.pi * t * u = 2 * Real.pi * u * t by ring]
    field_simp
  rw [intervalIntegral.integral_eq_sub_of_hasDerivAt hd (Continuous.intervalIntegrable (by fun_prop) _ _)]
  simp

theorem fringe_even (x u : ℝ) : fringe x (-u) = fringe x u := by
  unfold fringe
  congr 1; funext t
  rw [mul_neg, Real.cos_neg]

theorem fringe_neg (x u : ℝ) : fringe (-x) u = -fringe x u := by
  rcases eq_or_ne u 0 with rfl | hu
  · simp [fringe]
  · rw [fringe_value _ hu, fringe_value _ hu, mul_neg, Real.sin_neg, neg_div]

theorem fringe_le (x u : ℝ) : |fringe x u| ≤ |x| := by
  unfold fringe
  have := intervalIntegral.norm_integral_le_of_norm_le_const (a := 0) (b := x) (C := 1)
    (f := fun t => Real.cos (2 * Real.pi * t * u)) (fun t _ => Real.abs_cos_le_one _)
  simpa using this

theorem fringe_lipschitz (x u v : ℝ) : |fringe x u - fringe x v| ≤ Real.pi * x ^ 2 * |u - v| := by
  have hpi := Real.pi_pos
  wlog hx : 0 ≤ x generalizing x
  · have := this (-x) (by linarith)
    rw [fringe_neg, fringe_neg, neg_sub_neg, abs_sub_comm] at this
    simpa using this
  unfold fringe
  rw [← intervalIntegral.integral_sub (Continuous.intervalIntegrable (by fun_prop) _ _)
    (Continuous.intervalIntegrable (by fun_prop) _ _)]
  have hb := intervalIntegral.norm_integral_le_of_norm_le (a := 0) (b := x) (μ := volume)
    (f := fun t => Real.cos (2 * Real.pi * t * u) - Real.cos (2 * Real.pi * t * v))
    (g := fun t => 2 * Real.pi * |u - v| * t) hx
    (Filter.Eventually.of_forall fun t ht => by
      have ht0 : 0 < t := ht.1
      have h1 := Real.lipschitzWith_cos.dist_le_mul (2 * Real.pi * t * u) (2 * Real.pi * t * v)
      rw [Real.dist_eq, Real.dist_eq, ← mul_sub, abs_mul, abs_of_pos (show 0 < 2 * Real.pi * t by positivity)] at h1
      rw [Real.norm_eq_abs]
      calc _ ≤ _ := h1
        _ = _ := by rw [NNReal.coe_one]; ring)
    (Continuous.intervalIntegrable (by fun_prop) _ _)
  rw [intervalIntegral.integral_const_mul, integral_id] at hb
  calc _ ≤ _ := hb
    _ = _ := by ring

theorem fringe_continuous (x : ℝ) : Continuous (fringe x) := by
  have : LipschitzWith (Real.pi * x ^ 2).toNNReal (fringe x) := by
    apply LipschitzWith.of_dist_le_mul
    intro u v
    rw [Real.dist_eq, Real.dist_eq, Real.coe_toNNReal _ (by have := Real.pi_pos; positivity)]
    exact fringe_lipschitz x u v
  exact this.continuous

/-- The blurred edge in terms of the MTF. -/
theorem edge_inversion {L : ℝ → ℝ} (h : LineSpread L) (hM : Continuous (contrast L)) {c : ℝ} (h0 : 0 ≤ c)
    (hc : ∀ u, c ≤ u → contrast L u = 0) (x : ℝ) :
    blurredEdge L x = 1 / 2 + 2 * ∫ u in (0 : ℝ)..c, contrast L u * fringe x u := by
  obtain ⟨hi, hinv⟩ := spread_inversion h hM hc
  have half : ∫ t in Iic (0 : ℝ), L t = 1 / 2 := by
    have h1 := integral_comp_neg_Iic (0 : ℝ) L
    simp only [h.even, neg_zero] at h1
    have h2 := intervalIntegral.integral_Iic_add_Ioi (f := L) (b := 0) (μ := volume) h.integrable.integrableOn h.integrable.integrableOn
    rw [h.total] at h2
    linarith
  have split : blurredEdge L x = 1 / 2 + ∫ t in (0 : ℝ)..x, L t := by
    have := intervalIntegral.integral_Iic_sub_Iic (f := L) (a := 0) (b := x) (μ := volume) h.integrable.integrableOn h.integrable.integrableOn
    unfold blurredEdge
    linarith
  rw [split]
  congr 1
  have swap : ∫ t in (0 : ℝ)..x, L t = ∫ u, contrast L u * fringe x u := by
    calc ∫ t in (0 : ℝ)..x, L t = ∫ t in (0 : ℝ)..x, ∫ u, contrast L u * Real.cos (2 * Real.pi * t * u) := by
          congr 1; funext t; exact hinv t
      _ = ∫ u, ∫ t in (0 : ℝ)..x, contrast L u * Real.cos (2 * Real.pi * t * u) := by
          apply intervalIntegral_integral_swap
          have hfin : IsFiniteMeasure (volume.restrict (uIoc 0 x)) :=
            ⟨by rw [Measure.restrict_apply_univ, uIoc, Real.volume_Ioc]; exact ENNReal.ofReal_lt_top⟩
          have hp : Integrable (fun p : ℝ × ℝ => (1 : ℝ) * contrast L p.2) ((volume.restrict (uIoc 0 x)).prod volume) :=
            Integrable.mul_prod (μ := volume.restrict (uIoc 0 x)) (f := fun _ => (1 : ℝ)) (integrable_const _) hi
          have := hp.mul_bdd (c := 1) (g := fun p : ℝ × ℝ => Real.cos (2 * Real.pi * p.1 * p.2)) (by fun_prop)
            (Filter.Eventually.of_forall fun p => Real.abs_cos_le_one _)
          refine this.congr (Filter.Eventually.of_forall fun p => ?_)
          simp [Function.uncurry]
      _ = ∫ u, contrast L u * fringe x u := by
          congr 1; funext u
          rw [intervalIntegral.integral_const_mul]; rfl
  rw [swap]
  have habs : ∀ u, contrast L u * fringe x u = (fun v => contrast L v * fringe x v) |u| := by
    intro u
    rcases abs_choice u with hu | hu
    · simp only [hu]
    · simp only [hu, contrast_even, fringe_even]
  rw [show (∫ u, contrast L u * fringe x u) = ∫ u, (fun v => contrast L v * fringe x v) |u| by congr 1; funext u; exact habs u,
    integral_comp_abs (f := fun v => contrast L v * fringe x v)]
  congr 1
  have hint : IntegrableOn (fun v => contrast L v * fringe x v) (Ioi 0) := by
    have := hi.mul_bdd (c := |x|) (g := fringe x) (fringe_continuous x).aestronglyMeasurable
      (Filter.Eventually.of_forall fun u => fringe_le x u)
    exact this.integrableOn
  rw [← intervalIntegral.integral_interval_add_Ioi hint (hint.mono_set (Ioi_subset_Ioi h0))]
  rw [setIntegral_eq_zero_of_forall_eq_zero (t := Ioi c) (fun u hu => by rw [hc u (le_of_lt hu), zero_mul]), add_zero]

end PyBSM
