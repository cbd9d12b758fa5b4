import Verif.Spec.Wavefront
import Verif.Lemmas.Pupil
import Verif.Lemmas.BesselTaylor
import Mathlib.MeasureTheory.Integral.Bochner.ContinuousLinearMap
import Mathlib.Analysis.Real.Pi.Bounds

/-!
# The contrast of a slightly defocused aperture, and of the code's formula for it
-/

noncomputable section

open MeasureTheory Filter Topology

namespace PyBSM

open Spec

/-- The pupil and its shifted copy. -/
def overlap (D : ℝ) (s : ℂ) : Set ℂ := pupil D 0 ∩ {z | z - s ∈ pupil D 0}

theorem measurable_pupil (D eta : ℝ) : MeasurableSet (pupil D eta) := by
  unfold pupil
  exact (measurableSet_lt measurable_const measurable_norm).inter (measurableSet_le measurable_norm measurable_const)

theorem measurable_overlap (D : ℝ) (s : ℂ) : MeasurableSet (overlap D s) :=
  (measurable_pupil D 0).inter ((measurable_pupil D 0).preimage (measurable_id.sub_const s))

theorem pupil_finite (D : ℝ) : volume (pupil D 0) ≠ ⊤ := by
  apply ne_top_of_le_ne_top (measure_closedBall_lt_top (μ := volume) (x := (0 : ℂ)) (r := D / 2)).ne
  apply measure_mono
  intro z hz
  simpa using hz.2

theorem overlap_finite (D : ℝ) (s : ℂ) : volume (overlap D s) ≠ ⊤ :=
  ne_top_of_le_ne_top (pupil_finite D) (measure_mono Set.inter_subset_left)

/-- The phase difference between the two copies. -/
def phaseDiff (lam D W : ℝ) (s z : ℂ) : ℝ :=
  2 * Real.pi / lam * (W * (‖z‖ / (D / 2)) ^ 2) - 2 * Real.pi / lam * (W * (‖z - s‖ / (D / 2)) ^ 2)

theorem field_product (lam D W : ℝ) (s z : ℂ) :
    defocusedField lam D W z * (starRingEnd ℂ) (defocusedField lam D W (z - s))
      = (overlap D s).indicator (fun z => Complex.exp ((phaseDiff lam D W s z : ℝ) * Complex.I)) z := by
  classical
  unfold defocusedField overlap phaseDiff
  by_cases h1 : z ∈ pupil D 0 <;> by_cases h2 : z - s ∈ pupil D 0
  · rw [Set.indicator_of_mem (show z ∈ pupil D 0 ∩ {z | z - s ∈ pupil D 0} from ⟨h1, h2⟩), if_pos h1, if_pos h2,
      ← Complex.exp_conj, ← Complex.exp_add]
    congr 1
    rw [map_mul, Complex.conj_I, Complex.conj_ofReal]
    push_cast
    ring
  · rw [Set.indicator_of_notMem (fun h => h2 h.2), if_neg h2]; simp
  · rw [Set.indicator_of_notMem (fun h => h1 h.1), if_neg h1]; simp
  · rw [Set.indicator_of_notMem (fun h => h1 h.1), if_neg h1]; simp

theorem field_power (lam D W : ℝ) : ∫ z, ‖defocusedField lam D W z‖ ^ 2 = autocorrelation (pupil D 0) 0 := by
  classical
  have e : ∀ z, ‖defocusedField lam D W z‖ ^ 2 = (pupil D 0).indicator (fun _ => (1 : ℝ)) z := by
    intro z
    unfold defocusedField
    by_cases h : z ∈ pupil D 0
    · rw [if_pos h, Set.indicator_of_mem h, Complex.norm_exp_ofReal_mul_I]; norm_num
    · rw [if_neg h, Set.indicator_of_notMem h]; norm_num
  simp only [e]
  rw [integral_indicator (measurable_pupil D 0)]
  unfold autocorrelation
  simp

theorem phaseDiff_bound {lam D : ℝ} (hl : 0 < lam) (hD : 0 < D) (W : ℝ) {s z : ℂ} (hz : z ∈ overlap D s) :
    |phaseDiff lam D W s z| ≤ 2 * Real.pi / lam * |W| := by
  have hpi := Real.pi_pos
  obtain ⟨⟨-, h1⟩, ⟨-, h2⟩⟩ := hz
  have q : ∀ y : ℝ, 0 ≤ y → y ≤ D / 2 → 0 ≤ (y / (D / 2)) ^ 2 ∧ (y / (D / 2)) ^ 2 ≤ 1 := by
    intro y h0 h1
    refine ⟨by positivity, ?_⟩
    have h : y / (D / 2) ≤ 1 := by rw [div_le_one (by positivity)]; exact h1
    have h' : 0 ≤ y / (D / 2) := by positivity
    nlinarith
  obtain ⟨a0, a1⟩ := q ‖z‖ (norm_nonneg z) h1
  obtain ⟨b0, b1⟩ := q ‖z - s‖ (norm_nonneg _) h2
  have e : phaseDiff lam D W s z = 2 * Real.pi / lam * (W * ((‖z‖ / (D / 2)) ^ 2 - (‖z - s‖ / (D / 2)) ^ 2)) := by
    unfold phaseDiff; ring
  rw [e, abs_mul, abs_mul, abs_of_pos (by positivity : 0 < 2 * Real.pi / lam)]
  have : |(‖z‖ / (D / 2)) ^ 2 - (‖z - s‖ / (D / 2)) ^ 2| ≤ 1 := by rw [abs_le]; constructor <;> linarith
  gcongr
  nlinarith [abs_nonneg W]

theorem phase_integrable (lam D W : ℝ) (s : ℂ) :
    IntegrableOn (fun z => Complex.exp ((phaseDiff lam D W s z : ℝ) * Complex.I)) (overlap D s) := by
  apply Measure.integrableOn_of_bounded (M := 1) (overlap_finite D s)
  · apply Continuous.aestronglyMeasurable
    unfold phaseDiff
    fun_prop
  · filter_upwards with z
    rw [Complex.norm_exp_ofReal_mul_I]

/-- The true contrast of a defocused aperture lies between the diffraction MTF and that less a quadratic loss. -/
theorem fieldOTF_bounds {lam D : ℝ} (hl : 0 < lam) (hD : 0 < D) (W u v : ℝ) :
    ‖fieldOTF lam (defocusedField lam D W) u v‖ ≤ diffractionMTF lam D 0 u v
    ∧ diffractionMTF lam D 0 u v * (1 - (2 * Real.pi / lam * |W|) ^ 2 / 2)
      ≤ ‖fieldOTF lam (defocusedField lam D W) u v‖ := by
  have hpi := Real.pi_pos
  have hA : 0 < autocorrelation (pupil D 0) 0 := by
    rw [autocorrelation_zero hD le_rfl one_pos]; positivity
  set s : ℂ := lam * (u + v * Complex.I) with hs
  have hint : (∫ z, defocusedField lam D W z * (starRingEnd ℂ) (defocusedField lam D W (z - s)))
      = ∫ z in overlap D s, Complex.exp ((phaseDiff lam D W s z : ℝ) * Complex.I) := by
    simp only [field_product]
    rw [integral_indicator (measurable_overlap D s)]
  have hnorm : ‖fieldOTF lam (defocusedField lam D W) u v‖
      = ‖∫ z in overlap D s, Complex.exp ((phaseDiff lam D W s z : ℝ) * Complex.I)‖ / autocorrelation (pupil D 0) 0 := by
    unfold fieldOTF
    rw [field_power, norm_div, ← hs, hint, Complex.norm_real, Real.norm_eq_abs, abs_of_pos hA]
  have hvol : autocorrelation (pupil D 0) s = volume.real (overlap D s) := rfl
  have hM : diffractionMTF lam D 0 u v = volume.real (overlap D s) / autocorrelation (pupil D 0) 0 := by
    unfold diffractionMTF; rw [← hs, hvol]
  rw [hnorm, hM]
  constructor
  · gcongr
    calc _ ≤ ∫ z in overlap D s, ‖Complex.exp ((phaseDiff lam D W s z : ℝ) * Complex.I)‖ := norm_integral_le_integral_norm _
      _ = volume.real (overlap D s) := by simp only [Complex.norm_exp_ofReal_mul_I]; simp
  · rw [div_mul_eq_mul_div]
    gcongr
    have hre : (∫ z in overlap D s, Complex.exp ((phaseDiff lam D W s z : ℝ) * Complex.I)).re
        = ∫ z in overlap D s, Real.cos (phaseDiff lam D W s z) := by
      have := integral_re (𝕜 := ℂ) (phase_integrable lam D W s)
      simp only [RCLike.re_eq_complex_re, Complex.exp_ofReal_mul_I_re] at this
      exact this.symm
    refine le_trans ?_ (Complex.re_le_norm _)
    rw [hre]
    have hcos : IntegrableOn (fun z => Real.cos (phaseDiff lam D W s z)) (overlap D s) := by
      have := (phase_integrable lam D W s).re
      simp only [RCLike.re_eq_complex_re, Complex.exp_ofReal_mul_I_re] at this
      exact this
    have hconst : IntegrableOn (fun _ : ℂ => 1 - (2 * Real.pi / lam * |W|) ^ 2 / 2) (overlap D s) :=
      integrableOn_const (overlap_finite D s)
    have := setIntegral_mono_on hconst hcos (measurable_overlap D s) (fun z hz => ?_)
    · rw [setIntegral_const, smul_eq_mul] at this
      exact this
    · have hb := phaseDiff_bound hl hD W hz
      have hc := Real.one_sub_sq_div_two_le_cos (x := phaseDiff lam D W s z)
      have : phaseDiff lam D W s z ^ 2 ≤ (2 * Real.pi / lam * |W|) ^ 2 := by
        rw [← sq_abs]; gcongr
      linarith

/-! ## The code's formula, to third order, at half the cutoff -/

theorem defocusNum_expansion : Eq4 (defocusNum 1 (Real.pi / 3)) (fun a =>
    (Real.pi / 3 - Real.sqrt 3 / 4) * a
      - (13 * (Real.pi / 3) / 96 + (Real.pi / 3) ^ 3 / 12 - Real.sqrt 3 / 96) * a ^ 3) := by
  set b := Real.pi / 3 with hb
  have hsin : Real.sin b = Real.sqrt 3 / 2 := Real.sin_pi_div_three
  have hcos : Real.cos b = 1 / 2 := Real.cos_pi_div_three
  have J := besselJ_poly
  have d : ∀ m n : ℕ, Eq4 (fun a => besselJ m a - besselJ n a) (fun a => besselPoly m a - besselPoly n a) :=
    fun m n => (J m).sub (J n)
  -- the six sines of vanishing arguments
  have z : ∀ (c : ℝ) (m n : ℕ), 4 ≤ m → 4 ≤ n → Eq4 (fun a => Real.sin (c * (besselJ m a - besselJ n a))) fun _ => 0 := by
    intro c m n hm hn
    have h1 := ((d m n).const_mul c).sin
    have e : (fun a => Real.sin (c * (besselPoly m a - besselPoly n a))) = fun _ => 0 := by
      funext a
      have p : ∀ k, 4 ≤ k → besselPoly k a = 0 := by
        intro k hk
        unfold besselPoly
        rw [if_neg (by omega), if_neg (by omega), if_neg (by omega), if_neg (by omega), if_neg (by omega), if_neg (by omega)]
        ring
      rw [p m hm, p n hn]; simp
    rw [e] at h1
    exact h1
  have s1 : Eq4 (fun a => Real.sin (2 * b * (besselJ 1 a - besselJ 3 a))) (fun a => b * a - (b / 6 + b ^ 3 / 6) * a ^ 3) := by
    refine ((d 1 3).const_mul (2 * b)).sin.trans ?_
    have e : (fun a => Real.sin (2 * b * (besselPoly 1 a - besselPoly 3 a))) = fun a => Real.sin (a * (b - b / 6 * a ^ 2)) := by
      funext a; congr 1; unfold besselPoly; norm_num; ring
    rw [e]
    refine (Eq4.sin_cubic (q := fun a => b - b / 6 * a ^ 2) (by fun_prop)).trans ?_
    refine Eq4.of_factor (q := fun a => a * (b ^ 3 / 12 - a ^ 2 * b ^ 3 / 72 + a ^ 4 * b ^ 3 / 1296)) (by fun_prop) fun a => ?_
    ring
  have s3 : Eq4 (fun a => Real.sin (4 * b * (besselJ 3 a - besselJ 5 a))) (fun a => b / 12 * a ^ 3) := by
    refine ((d 3 5).const_mul (4 * b)).sin.trans ?_
    have e : (fun a => Real.sin (4 * b * (besselPoly 3 a - besselPoly 5 a))) = fun a => Real.sin (a * (b / 12 * a ^ 2)) := by
      funext a; congr 1; unfold besselPoly; norm_num; ring
    rw [e]
    refine (Eq4.sin_cubic (q := fun a => b / 12 * a ^ 2) (by fun_prop)).trans ?_
    refine Eq4.of_factor (q := fun a => -(a ^ 5 * b ^ 3 / 12 ^ 3 / 6)) (by fun_prop) fun a => ?_
    ring
  have s2 : Eq4 (fun a => Real.sin (3 * b * (besselJ 2 a - besselJ 4 a))) (fun a => 3 * b / 8 * a ^ 2) := by
    refine ((d 2 4).const_mul (3 * b)).sin.trans ?_
    have e : (fun a => Real.sin (3 * b * (besselPoly 2 a - besselPoly 4 a))) = fun a => Real.sin (a * (3 * b / 8 * a)) := by
      funext a; congr 1; unfold besselPoly; norm_num; ring
    rw [e]
    refine (Eq4.sin_cubic (q := fun a => 3 * b / 8 * a) (by fun_prop)).trans ?_
    refine Eq4.of_factor (q := fun a => -(a ^ 2 * (3 * b / 8) ^ 3 / 6)) (by fun_prop) fun a => ?_
    ring
  have s0 : Eq4 (fun a => Real.sin (b * (besselJ 0 a - besselJ 2 a)))
      (fun a => Real.sqrt 3 / 2 - 3 * b / 16 * a ^ 2) := by
    refine ((d 0 2).const_mul b).sin.trans ?_
    have e : (fun a => Real.sin (b * (besselPoly 0 a - besselPoly 2 a)))
        = fun a => Real.sqrt 3 / 2 * Real.cos (a * (3 * b / 8 * a)) - 1 / 2 * Real.sin (a * (3 * b / 8 * a)) := by
      funext a
      rw [← hsin, ← hcos, ← Real.sin_sub]
      congr 1; unfold besselPoly; norm_num; ring
    rw [e]
    have h1 := (Eq4.cos_square (q := fun a => 3 * b / 8 * a) (by fun_prop)).const_mul (Real.sqrt 3 / 2)
    have h2 := (Eq4.sin_cubic (q := fun a => 3 * b / 8 * a) (by fun_prop)).const_mul (1 / 2)
    refine (h1.sub h2).trans ?_
    refine Eq4.of_factor (q := fun a => -(Real.sqrt 3 / 2 * ((3 * b / 8) ^ 2 / 2)) + a ^ 2 * (3 * b / 8) ^ 3 / 12)
      (by fun_prop) fun a => ?_
    ring
  have c1 : Eq4 (fun a => Real.cos (a * 0.5 * 1)) (fun a => 1 - a ^ 2 / 8) := by
    have e : (fun a : ℝ => Real.cos (a * 0.5 * 1)) = fun a => Real.cos (a * (1 / 2)) := by
      funext a; congr 1; norm_num
    rw [e]
    refine (Eq4.cos_square (q := fun _ => 1 / 2) (by fun_prop)).trans ?_
    refine Eq4.of_factor (q := fun _ => 0) (by fun_prop) fun a => ?_
    ring
  have c2 : Eq4 (fun a => Real.sin (a * 0.5 * 1)) (fun a => a / 2 - a ^ 3 / 48) := by
    have e : (fun a : ℝ => Real.sin (a * 0.5 * 1)) = fun a => Real.sin (a * (1 / 2)) := by
      funext a; congr 1; norm_num
    rw [e]
    refine (Eq4.sin_cubic (q := fun _ => 1 / 2) (by fun_prop)).trans ?_
    refine Eq4.of_factor (q := fun _ => 0) (by fun_prop) fun a => ?_
    ring
  have j1 : Eq4 (fun a => b * besselJ 1 a) (fun a => b * (a / 2 - a ^ 3 / 16)) := by
    refine (J 1).const_mul b |>.trans ?_
    refine Eq4.of_factor (q := fun _ => 0) (by fun_prop) fun a => ?_
    unfold besselPoly; norm_num; ring
  have hA := ((j1.add (s1.const_mul (1 / 2))).sub (s3.const_mul (1 / 4))).add
    ((z (6 * b) 5 7 (by norm_num) (by norm_num)).const_mul (1 / 6))
  have hB := ((s0.sub (s2.const_mul (1 / 3))).add ((z (5 * b) 4 6 (by norm_num) (by norm_num)).const_mul (1 / 5))).sub
    ((z (7 * b) 6 8 (by norm_num) (by norm_num)).const_mul (1 / 7))
  have hCA := c1.mul hA (Continuous.continuousAt (by fun_prop)) (Continuous.continuousAt (by fun_prop))
  have hSB := c2.mul hB (Continuous.continuousAt (by fun_prop)) (Continuous.continuousAt (by fun_prop))
  refine (hCA.sub hSB).trans ?_
  refine Eq4.of_factor (q := fun a => a * ((b / 16 + 1 / 2 * (b / 6 + b ^ 3 / 6) + b / 48) / 8 - (3 * b / 16 + b / 8) / 48))
    (by fun_prop) fun a => ?_
  ring

/-- Near zero the numerator falls off faster than `(1 - a^2/4)` times its slope. -/
theorem defocusNum_drop : ∀ᶠ a in 𝓝[≠] (0 : ℝ), defocusNum 1 (Real.pi / 3) a / a
    < (Real.pi / 3 - Real.sqrt 3 / 4) * (1 - a ^ 2 / 4) := by
  have hpi := Real.pi_gt_three
  have h3 : Real.sqrt 3 ^ 2 = 3 := Real.sq_sqrt (by norm_num)
  have h30 : 0 ≤ Real.sqrt 3 := Real.sqrt_nonneg 3
  have h3l : 1.7 < Real.sqrt 3 := by nlinarith
  have h3u : Real.sqrt 3 < 1.74 := by nlinarith
  have hpu := Real.pi_lt_d2
  obtain ⟨K, hK⟩ := Asymptotics.IsBigO.bound defocusNum_expansion
  set b := Real.pi / 3 with hb
  have hb1 : 1 < b := by rw [hb]; linarith
  have hb2 : b < 1.05 := by rw [hb]; linarith
  have hgap : (b - Real.sqrt 3 / 4) / 4 + 1 / 50 < 13 * b / 96 + b ^ 3 / 12 - Real.sqrt 3 / 96 := by
    nlinarith [pow_pos (by linarith : 0 < b) 2, mul_pos (by linarith : 0 < b) (by linarith : 0 < b - 1)]
  set C := 13 * b / 96 + b ^ 3 / 12 - Real.sqrt 3 / 96 with hC
  have hsmall : ∀ᶠ a in 𝓝 (0 : ℝ), |a| * |K| < 1 / 50 := by
    have : Tendsto (fun a : ℝ => |a| * |K|) (𝓝 0) (𝓝 (|0| * |K|)) := (by fun_prop : Continuous fun a : ℝ => |a| * |K|).tendsto 0
    rw [abs_zero, zero_mul] at this
    exact this.eventually (gt_mem_nhds (by norm_num))
  filter_upwards [nhdsWithin_le_nhds hK, nhdsWithin_le_nhds hsmall, self_mem_nhdsWithin] with a h1 h2 h0
  have ha : a ≠ 0 := h0
  have hap : 0 < |a| := abs_pos.mpr ha
  set N := defocusNum 1 b a
  rw [Real.norm_eq_abs, Real.norm_eq_abs] at h1
  have e : N / a = (b - Real.sqrt 3 / 4) - C * a ^ 2 + (N - ((b - Real.sqrt 3 / 4) * a - C * a ^ 3)) / a := by
    field_simp; ring
  rw [e]
  have hq : |(N - ((b - Real.sqrt 3 / 4) * a - C * a ^ 3)) / a| ≤ |K| * |a| * a ^ 2 := by
    rw [abs_div, div_le_iff₀ hap]
    calc _ ≤ K * |a ^ 4| := h1
      _ ≤ |K| * |a ^ 4| := by gcongr; exact le_abs_self K
      _ = |K| * |a| * a ^ 2 * |a| := by
          rw [abs_pow, show |a| ^ 4 = |a| * |a| ^ 2 * |a| by ring, sq_abs]; ring
  have hle := (abs_le.mp hq).2
  have ha2 : 0 < a ^ 2 := by positivity
  have : |K| * |a| * a ^ 2 < 1 / 50 * a ^ 2 := by nlinarith
  nlinarith

end PyBSM
