import Mathlib.MeasureTheory.Measure.Lebesgue.VolumeOfBalls
import Mathlib.MeasureTheory.Integral.DivergenceTheorem
import Mathlib.Analysis.SpecialFunctions.Trigonometric.InverseDeriv
import Mathlib.MeasureTheory.Measure.Real
import Mathlib.Analysis.Complex.Isometry
import Mathlib.MeasureTheory.Measure.Haar.InnerProductSpace

/-!
# Areas of circular segments and of the overlap of two discs in the plane

The area of a circular segment is computed by integration; the overlap of two discs is the union of
two segments.  All formulas use the clipped `Real.arccos` and `Real.sqrt`, so no case distinction on the
position of the discs is needed.
-/

noncomputable section

open MeasureTheory Set

namespace PyBSM

/-- area of the segment of a disc of radius `r` beyond the chord at signed distance `h` -/
def segArea (r h : ℝ) : ℝ := r ^ 2 * Real.arccos (h / r) - h * Real.sqrt (r ^ 2 - h ^ 2)

theorem segArea_deriv {r x : ℝ} (hr : 0 < r) (h1 : x ≠ -r) (h2 : x ≠ r) :
    HasDerivAt (fun x => -segArea r x) (2 * Real.sqrt (r ^ 2 - x ^ 2)) x := by
  have hne : r ^ 2 - x ^ 2 ≠ 0 := by
    intro h
    have : (r - x) * (r + x) = 0 := by linear_combination h
    rcases mul_eq_zero.mp this with h | h
    · exact h2 (by linarith)
    · exact h1 (by linarith)
  have hs : HasDerivAt (fun x => Real.sqrt (r ^ 2 - x ^ 2)) (-(2 * x) / (2 * Real.sqrt (r ^ 2 - x ^ 2))) x := by
    have h0 : HasDerivAt (fun x : ℝ => r ^ 2 - x ^ 2) (-(2 * x)) x := by
      have := (hasDerivAt_pow 2 x).const_sub (r ^ 2)
      simpa using this
    exact h0.sqrt hne
  have hd : HasDerivAt (fun x : ℝ => x / r) (1 / r) x := (hasDerivAt_id x).div_const r
  have ha : HasDerivAt (fun x => Real.arccos (x / r)) (-(1 / Real.sqrt (1 - (x / r) ^ 2)) * (1 / r)) x := by
    refine (Real.hasDerivAt_arccos ?_ ?_).comp x hd
    · intro h; rw [div_eq_iff hr.ne'] at h; exact h1 (by linarith)
    · intro h; rw [div_eq_iff hr.ne'] at h; exact h2 (by linarith)
  have hall := ((ha.const_mul (r ^ 2)).sub ((hasDerivAt_id x).mul hs)).neg
  have hf : (fun x => -segArea r x)
      = -((fun y => r ^ 2 * Real.arccos (y / r)) - id * fun x => Real.sqrt (r ^ 2 - x ^ 2)) := by
    funext y; rfl
  rw [hf]
  refine hall.congr_deriv ?_
  have hsq : Real.sqrt (1 - (x / r) ^ 2) = Real.sqrt (r ^ 2 - x ^ 2) / r := by
    rw [show 1 - (x / r) ^ 2 = (r ^ 2 - x ^ 2) / r ^ 2 by field_simp, Real.sqrt_div' _ (sq_nonneg r),
      Real.sqrt_sq hr.le]
  rw [hsq]
  rcases lt_or_gt_of_ne hne with h | h
  · rw [Real.sqrt_eq_zero_of_nonpos h.le]; simp
  · have hp := Real.sqrt_pos.mpr h
    have hss := Real.sq_sqrt h.le
    simp only [id]
    field_simp
    rw [hss]; ring

theorem segArea_continuous {r : ℝ} : Continuous (segArea r) := by
  unfold segArea
  have := Real.continuous_arccos
  fun_prop

theorem segArea_of_le {r h : ℝ} (hr : 0 < r) (h1 : r ≤ h) : segArea r h = 0 := by
  unfold segArea
  rw [Real.arccos_of_one_le ((one_le_div hr).mpr h1), Real.sqrt_eq_zero_of_nonpos (by nlinarith)]
  simp

theorem integral_chord {r h : ℝ} (hr : 0 < r) (hh : h ≤ r) :
    ∫ x in h..r, 2 * Real.sqrt (r ^ 2 - x ^ 2) = segArea r h := by
  rw [integral_eq_of_hasDerivAt_off_countable_of_le (fun x => -segArea r x) _ hh
    (s := {-r}) (countable_singleton _) (segArea_continuous.neg.continuousOn) ?_ ?_]
  · rw [segArea_of_le hr le_rfl]; ring
  · rintro x ⟨⟨_, hx2⟩, hx3⟩
    exact segArea_deriv hr (by simpa using hx3) hx2.ne
  · apply Continuous.intervalIntegrable; fun_prop

/-- the part of the disc of radius `r` about the origin with real part at least `h` -/
def segment' (r h : ℝ) : Set ℂ := {z | ‖z‖ ≤ r ∧ h ≤ z.re}

theorem section_volume (r x : ℝ) :
    volume {y : ℝ | x ^ 2 + y ^ 2 ≤ r ^ 2} = ENNReal.ofReal (2 * Real.sqrt (r ^ 2 - x ^ 2)) := by
  rcases le_or_gt 0 (r ^ 2 - x ^ 2) with h | h
  · have : {y : ℝ | x ^ 2 + y ^ 2 ≤ r ^ 2} = Icc (-Real.sqrt (r ^ 2 - x ^ 2)) (Real.sqrt (r ^ 2 - x ^ 2)) := by
      ext y
      rw [mem_ofPred_eq, mem_Icc, ← abs_le, ← Real.sqrt_sq_eq_abs, Real.sqrt_le_sqrt_iff h]
      constructor <;> intro h <;> linarith
    rw [this, Real.volume_Icc]
    congr 1; ring
  · have : {y : ℝ | x ^ 2 + y ^ 2 ≤ r ^ 2} = ∅ := by
      ext y
      simp only [mem_ofPred_eq, mem_empty_iff_false, iff_false, not_le]
      nlinarith [sq_nonneg y]
    rw [this, measure_empty, Real.sqrt_eq_zero_of_nonpos h.le]; simp

theorem norm_le_iff_sq (z : ℂ) {r : ℝ} (hr : 0 ≤ r) : ‖z‖ ≤ r ↔ z.re ^ 2 + z.im ^ 2 ≤ r ^ 2 := by
  rw [← abs_of_nonneg (norm_nonneg z), ← abs_of_nonneg hr, ← sq_le_sq, Complex.sq_norm, Complex.normSq_apply,
    sq_abs]
  constructor <;> intro h <;> nlinarith

theorem measurableSet_segment (r h : ℝ) : MeasurableSet (segment' r h) := by
  apply IsClosed.measurableSet
  exact (isClosed_le continuous_norm continuous_const).inter (isClosed_le continuous_const Complex.continuous_re)

theorem volume_segment {r : ℝ} (hr : 0 < r) (h : ℝ) :
    volume (segment' r h) = ENNReal.ofReal (segArea r h) := by
  have hpre := Complex.volume_preserving_equiv_real_prod.symm.measure_preimage_equiv (segment' r h)
  rw [← hpre]
  have hset : Complex.measurableEquivRealProd.symm ⁻¹' (segment' r h)
      = {p : ℝ × ℝ | h ≤ p.1 ∧ p.1 ^ 2 + p.2 ^ 2 ≤ r ^ 2} := by
    ext p
    simp only [mem_preimage, segment', mem_ofPred_eq, norm_le_iff_sq _ hr.le]
    exact and_comm
  rw [hset]
  have hmeas : MeasurableSet {p : ℝ × ℝ | h ≤ p.1 ∧ p.1 ^ 2 + p.2 ^ 2 ≤ r ^ 2} := by
    apply IsClosed.measurableSet
    exact (isClosed_le continuous_const continuous_fst).inter
      (isClosed_le (f := fun p : ℝ × ℝ => p.1 ^ 2 + p.2 ^ 2) (by fun_prop) continuous_const)
  rw [Measure.volume_eq_prod, Measure.prod_apply hmeas]
  have hsec : ∀ x : ℝ, volume (Prod.mk x ⁻¹' {p : ℝ × ℝ | h ≤ p.1 ∧ p.1 ^ 2 + p.2 ^ 2 ≤ r ^ 2})
      = (Ici h).indicator (fun x => ENNReal.ofReal (2 * Real.sqrt (r ^ 2 - x ^ 2))) x := by
    intro x
    by_cases hx : h ≤ x
    · rw [indicator_of_mem (mem_Ici.mpr hx), ← section_volume r x]
      congr 1
      ext y
      simp [hx]
    · rw [indicator_of_notMem (by simpa using hx)]
      have : Prod.mk x ⁻¹' {p : ℝ × ℝ | h ≤ p.1 ∧ p.1 ^ 2 + p.2 ^ 2 ≤ r ^ 2} = ∅ := by
        ext y
        simp [hx]
      rw [this, measure_empty]
  simp_rw [hsec]
  rw [lintegral_indicator measurableSet_Ici]
  rcases le_or_gt h r with hh | hh
  · have hz : ∀ x ∈ Ici h \ Icc h r, ENNReal.ofReal (2 * Real.sqrt (r ^ 2 - x ^ 2)) = 0 := by
      rintro x ⟨hx1, hx2⟩
      have : r < x := by
        by_contra hc
        exact hx2 ⟨hx1, not_lt.mp hc⟩
      rw [Real.sqrt_eq_zero_of_nonpos (by nlinarith)]; simp
    have : ∫⁻ x in Ici h, ENNReal.ofReal (2 * Real.sqrt (r ^ 2 - x ^ 2))
        = ∫⁻ x in Icc h r, ENNReal.ofReal (2 * Real.sqrt (r ^ 2 - x ^ 2)) := by
      rw [← lintegral_indicator measurableSet_Ici, ← lintegral_indicator measurableSet_Icc]
      congr 1
      funext x
      by_cases hx : x ∈ Icc h r
      · rw [indicator_of_mem hx, indicator_of_mem (mem_Ici.mpr hx.1)]
      · rw [indicator_of_notMem hx]
        by_cases hx' : x ∈ Ici h
        · rw [indicator_of_mem hx', hz x ⟨hx', hx⟩]
        · rw [indicator_of_notMem hx']
    rw [this, ← integral_chord hr hh, intervalIntegral.integral_of_le hh, ← integral_Icc_eq_integral_Ioc,
      ofReal_integral_eq_lintegral_ofReal]
    · apply Continuous.integrableOn_Icc; fun_prop
    · filter_upwards with x
      positivity
  · rw [segArea_of_le hr hh.le, ENNReal.ofReal_zero, setLIntegral_eq_zero_iff' measurableSet_Ici (by fun_prop)]
    filter_upwards with x hx
    rw [Real.sqrt_eq_zero_of_nonpos (by have : r < x := hh.trans_le hx; nlinarith)]; simp

theorem segArea_nonneg {r : ℝ} (hr : 0 < r) (h : ℝ) : 0 ≤ segArea r h := by
  rcases le_or_gt h r with hh | hh
  · rw [← integral_chord hr hh]
    apply intervalIntegral.integral_nonneg hh
    intro x _
    positivity
  · rw [segArea_of_le hr hh.le]

theorem volume_line (c : ℝ) : volume {z : ℂ | z.re = c} = 0 := by
  have hpre := Complex.volume_preserving_equiv_real_prod.symm.measure_preimage_equiv {z : ℂ | z.re = c}
  rw [← hpre]
  have : Complex.measurableEquivRealProd.symm ⁻¹' {z : ℂ | z.re = c} = ({c} : Set ℝ) ×ˢ (univ : Set ℝ) := by
    ext p
    simp [Complex.measurableEquivRealProd]
  rw [this, Measure.volume_eq_prod, Measure.prod_prod, Real.volume_singleton, zero_mul]

/-- The overlap of two discs whose centres lie on the real axis. -/
theorem volume_lens_real {a b d : ℝ} (ha : 0 < a) (hb : 0 < b) (hd : 0 < d) :
    volume (Metric.closedBall (0 : ℂ) a ∩ Metric.closedBall (d : ℂ) b)
      = ENNReal.ofReal (segArea a ((d ^ 2 + a ^ 2 - b ^ 2) / (2 * d))
          + segArea b (d - (d ^ 2 + a ^ 2 - b ^ 2) / (2 * d))) := by
  set x0 := (d ^ 2 + a ^ 2 - b ^ 2) / (2 * d) with hx0
  have hx : 2 * d * x0 = d ^ 2 + a ^ 2 - b ^ 2 := by rw [hx0]; field_simp
  have hset : Metric.closedBall (0 : ℂ) a ∩ Metric.closedBall (d : ℂ) b
      = segment' a x0 ∪ (fun z : ℂ => (d : ℂ) - z) ⁻¹' segment' b (d - x0) := by
    ext z
    have e2 : dist z (d : ℂ) = ‖(d : ℂ) - z‖ := by rw [dist_comm, dist_eq_norm]
    simp only [mem_inter_iff, Metric.mem_closedBall, dist_zero_right, e2, mem_union, segment', mem_preimage,
      mem_ofPred_eq, norm_le_iff_sq _ ha.le, norm_le_iff_sq _ hb.le, Complex.sub_re, Complex.sub_im,
      Complex.ofReal_re, Complex.ofReal_im]
    constructor
    · rintro ⟨h1, h2⟩
      rcases le_total x0 z.re with h | h
      · exact Or.inl ⟨h1, h⟩
      · exact Or.inr ⟨h2, by linarith⟩
    · rintro (⟨h1, h2⟩ | ⟨h1, h2⟩)
      · refine ⟨h1, ?_⟩
        have := mul_le_mul_of_nonneg_left h2 (by linarith : 0 ≤ 2 * d)
        nlinarith
      · refine ⟨?_, h1⟩
        have h3 : z.re ≤ x0 := by linarith
        have := mul_le_mul_of_nonneg_left h3 (by linarith : 0 ≤ 2 * d)
        nlinarith
  have hmp : MeasurePreserving (fun z : ℂ => (d : ℂ) - z) volume volume :=
    Measure.measurePreserving_sub_left volume _
  have hm2 : MeasurableSet ((fun z : ℂ => (d : ℂ) - z) ⁻¹' segment' b (d - x0)) :=
    hmp.measurable (measurableSet_segment _ _)
  have hdis : AEDisjoint volume (segment' a x0) ((fun z : ℂ => (d : ℂ) - z) ⁻¹' segment' b (d - x0)) := by
    refine measure_mono_null ?_ (volume_line x0)
    rintro z ⟨⟨_, h1⟩, ⟨_, h2⟩⟩
    simp only [Complex.sub_re, Complex.ofReal_re] at h2
    exact le_antisymm (by linarith) h1
  rw [hset, measure_union₀ hm2.nullMeasurableSet hdis, hmp.measure_preimage (measurableSet_segment _ _).nullMeasurableSet,
    volume_segment ha, volume_segment hb, ENNReal.ofReal_add (segArea_nonneg ha _) (segArea_nonneg hb _)]

/-- The overlap of two discs in general position: it depends only on the distance of the centres. -/
theorem volume_lens {a b : ℝ} (ha : 0 < a) (hb : 0 < b) {s : ℂ} (hs : s ≠ 0) :
    volume.real (Metric.closedBall (0 : ℂ) a ∩ Metric.closedBall s b)
      = segArea a ((‖s‖ ^ 2 + a ^ 2 - b ^ 2) / (2 * ‖s‖))
          + segArea b (‖s‖ - (‖s‖ ^ 2 + a ^ 2 - b ^ 2) / (2 * ‖s‖)) := by
  have hn : 0 < ‖s‖ := norm_pos_iff.mpr hs
  have hcn : ‖s / (‖s‖ : ℂ)‖ = 1 := by
    rw [norm_div, Complex.norm_real, norm_norm, div_self hn.ne']
  let c : Circle := ⟨s / (‖s‖ : ℂ), mem_sphere_zero_iff_norm.mpr hcn⟩
  have hrot : rotation c (‖s‖ : ℂ) = s := by
    rw [rotation_apply]
    show s / (‖s‖ : ℂ) * (‖s‖ : ℂ) = s
    rw [div_mul_cancel₀]
    exact_mod_cast hn.ne'
  have hmp := (rotation c).measurePreserving
  have hpre : (rotation c) ⁻¹' (Metric.closedBall (0 : ℂ) a ∩ Metric.closedBall s b)
      = Metric.closedBall (0 : ℂ) a ∩ Metric.closedBall (‖s‖ : ℂ) b := by
    rw [preimage_inter, LinearIsometryEquiv.preimage_closedBall, LinearIsometryEquiv.preimage_closedBall,
      map_zero]
    congr 2
    rw [LinearIsometryEquiv.symm_apply_eq]
    exact hrot.symm
  have hmeas : MeasurableSet (Metric.closedBall (0 : ℂ) a ∩ Metric.closedBall s b) :=
    measurableSet_closedBall.inter measurableSet_closedBall
  have hv := hmp.measure_preimage hmeas.nullMeasurableSet
  rw [hpre, volume_lens_real ha hb hn] at hv
  rw [Measure.real, ← hv, ENNReal.toReal_ofReal]
  exact add_nonneg (segArea_nonneg ha _) (segArea_nonneg hb _)

end PyBSM
