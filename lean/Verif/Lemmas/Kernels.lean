import Verif.Spec.Kernels
import Verif.Lemmas.OtfElt
import Mathlib.MeasureTheory.Measure.CharacteristicFunction.Basic
import Mathlib.Analysis.SpecialFunctions.Integrals.Basic

/-!
# Transfer functions of blur kernels
-/

noncomputable section

open MeasureTheory

namespace PyBSM

open Spec

theorem transferOf_charFun (μ : Measure ℝ) (u : ℝ) : transferOf μ u = charFun μ (-(2 * Real.pi * u)) := by
  unfold transferOf
  rw [charFun_apply_real]
  congr 1
  funext x
  congr 1
  push_cast
  ring

theorem charFun_unit (t : ℝ) :
    charFun (volume.restrict (Set.Icc (-1 / 2 : ℝ) (1 / 2))) t = (Real.sinc (t / 2) : ℂ) := by
  rw [charFun_apply_real, integral_Icc_eq_integral_Ioc, ← intervalIntegral.integral_of_le (by norm_num)]
  by_cases ht : t = 0
  · subst ht
    simp
    norm_num
  · have hc : (t * Complex.I : ℂ) ≠ 0 := by simp [ht]
    have h := integral_exp_mul_complex (a := (-1 / 2 : ℝ)) (b := 1 / 2) hc
    have e : ∀ x : ℝ, Complex.exp (t * x * Complex.I) = Complex.exp (t * Complex.I * x) := by
      intro x; congr 1; ring
    simp only [e]
    rw [h, Real.sinc_of_ne_zero (by simpa using ht)]
    push_cast
    rw [Complex.sin]
    have h1 : (t * Complex.I : ℂ) * (1 / 2) = (t / 2 : ℂ) * Complex.I := by ring
    have h2 : (t * Complex.I : ℂ) * (-1 / 2) = -(t / 2 : ℂ) * Complex.I := by ring
    rw [h1, h2]
    have ht' : (t : ℂ) ≠ 0 := by exact_mod_cast ht
    have hI := Complex.I_ne_zero
    field_simp
    rw [Complex.I_sq]
    ring

theorem transferOf_box (a u : ℝ) : transferOf (box a) u = (Real.sinc (Real.pi * (a * u)) : ℂ) := by
  rw [transferOf_charFun]
  unfold box
  rw [charFun_map_mul, charFun_unit, show a * -(2 * Real.pi * u) / 2 = -(Real.pi * (a * u)) by ring, Real.sinc_neg]

theorem transferOf_gauss (s u : ℝ) :
    transferOf (gauss s) u = (Real.exp (-(2 * Real.pi ^ 2 * (s * u) ^ 2)) : ℂ) := by
  rw [transferOf_charFun]
  unfold gauss
  rw [ProbabilityTheory.charFun_gaussianReal]
  push_cast
  congr 1
  simp only [Real.coe_toNNReal _ (sq_nonneg s), Complex.ofReal_zero, mul_zero, zero_mul, zero_sub]
  push_cast
  ring

theorem transferOf_moved (d : ℝ) (μ : Measure ℝ) (u : ℝ) :
    transferOf (moved d μ) u = transferOf μ u * Complex.exp (-(2 * Real.pi * u * d * Complex.I)) := by
  rw [transferOf_charFun, transferOf_charFun]
  unfold moved
  rw [charFun_map_add_const]
  congr 2
  simp only [Real.inner_apply]
  push_cast
  ring

instance (a : ℝ) : IsProbabilityMeasure (box a) := by
  unfold box
  have : IsProbabilityMeasure (volume.restrict (Set.Icc (-1 / 2 : ℝ) (1 / 2))) := by
    constructor
    rw [Measure.restrict_apply_univ, Real.volume_Icc]
    norm_num
  exact Measure.isProbabilityMeasure_map (by fun_prop)

instance (s : ℝ) : IsProbabilityMeasure (gauss s) := by unfold gauss; infer_instance

instance (d : ℝ) (μ : Measure ℝ) [IsProbabilityMeasure μ] : IsProbabilityMeasure (moved d μ) := by
  unfold moved; exact Measure.isProbabilityMeasure_map (by fun_prop)

instance (c : NNReal) (p : ℝ) : IsProbabilityMeasure (trail c p) := by
  unfold trail; exact Measure.isProbabilityMeasure_map (by fun_prop)

theorem copies_probability {n : ℕ} (hn : n ≠ 0) (p : ℝ) (μ : Measure ℝ) [IsProbabilityMeasure μ] :
    IsProbabilityMeasure (copies n p μ) := by
  constructor
  unfold copies
  have h : ∀ k ∈ Finset.range n, ((n : ENNReal)⁻¹ • μ.map (· + p * k)) Set.univ = (n : ENNReal)⁻¹ := by
    intro k _
    have : IsProbabilityMeasure (μ.map (· + p * (k : ℝ))) := Measure.isProbabilityMeasure_map (by fun_prop)
    simp
  rw [Measure.finsetSum_apply, Finset.sum_congr rfl h]
  simp only [Finset.sum_const, Finset.card_range, nsmul_eq_mul]
  exact ENNReal.mul_inv_cancel (by exact_mod_cast hn) (by simp)

theorem transferOf_copies {n : ℕ} (hn : n ≠ 0) (p : ℝ) (μ : Measure ℝ) [IsProbabilityMeasure μ] (u : ℝ) :
    transferOf (copies n p μ) u
      = transferOf μ u * (∑ k ∈ Finset.range n, Complex.exp (-(2 * Real.pi * u * (p * k) * Complex.I))) / n := by
  have hk : ∀ k : ℕ, transferOf (μ.map (· + p * (k : ℝ))) u
      = transferOf μ u * Complex.exp (-(2 * Real.pi * u * (p * k) * Complex.I)) := by
    intro k
    have := transferOf_moved (p * k) μ u
    unfold moved at this
    rw [this]
    push_cast
    rfl
  have hint : ∀ (ν : Measure ℝ) [IsProbabilityMeasure ν],
      Integrable (fun x : ℝ => Complex.exp (-(2 * Real.pi * u * x * Complex.I))) ν := by
    intro ν _
    apply Integrable.of_bound (C := 1) (by fun_prop)
    filter_upwards with x
    rw [Complex.norm_exp]
    simp
  unfold copies
  unfold transferOf at hk ⊢
  rw [integral_finsetSum_measure]
  · simp only [integral_smul_measure, hk]
    rw [Finset.mul_sum, Finset.sum_div]
    refine Finset.sum_congr rfl fun k _ => ?_
    rw [ENNReal.toReal_inv, ENNReal.toReal_natCast, Complex.real_smul]
    push_cast
    rw [div_eq_mul_inv]
    ring
  · intro k _
    have : IsProbabilityMeasure (μ.map (· + p * (k : ℝ))) := Measure.isProbabilityMeasure_map (by fun_prop)
    exact (hint _).smul_measure (by simp [hn])

theorem transferOf_trail (c : NNReal) (p u : ℝ) :
    transferOf (trail c p) u
      = Complex.exp (c * (Complex.exp (-(2 * Real.pi * (p * u) * Complex.I)) - 1)) := by
  rw [transferOf_charFun]
  unfold trail
  rw [charFun_map_mul_comp (by fun_prop)]
  rw [ProbabilityTheory.charFun_map_cast_poissonMeasure]
  congr 4
  push_cast
  ring_nf

/-- The shifts of `n` copies placed symmetrically about the origin add up to a sum of cosines. -/
theorem sum_exp_symmetric (n : ℕ) (x : ℝ) :
    ∑ k ∈ Finset.range n, Complex.exp (-((2 * k - ((n : ℝ) - 1) : ℝ) * x * Complex.I))
      = ((∑ k ∈ Finset.range n, Real.cos ((2 * k - ((n : ℝ) - 1)) * x) : ℝ) : ℂ) := by
  have h1 : ∀ k : ℕ, Complex.exp (-((2 * k - ((n : ℝ) - 1) : ℝ) * x * Complex.I))
      = ((Real.cos ((2 * k - ((n : ℝ) - 1)) * x) : ℝ) : ℂ) - ((Real.sin ((2 * k - ((n : ℝ) - 1)) * x) : ℝ) : ℂ) * Complex.I := by
    intro k
    rw [show -(((2 * k - ((n : ℝ) - 1) : ℝ) : ℂ) * x * Complex.I)
      = ((-((2 * k - ((n : ℝ) - 1)) * x) : ℝ) : ℂ) * Complex.I by push_cast; ring,
      Complex.exp_mul_I, ← Complex.ofReal_cos, ← Complex.ofReal_sin, Real.cos_neg, Real.sin_neg]
    push_cast
    ring
  have h2 : ∑ k ∈ Finset.range n, Real.sin ((2 * (k : ℝ) - ((n : ℝ) - 1)) * x) = 0 := by
    have hr := Finset.sum_range_reflect (fun k : ℕ => Real.sin ((2 * (k : ℝ) - ((n : ℝ) - 1)) * x)) n
    have hneg : ∀ k ∈ Finset.range n, Real.sin ((2 * ((n - 1 - k : ℕ) : ℝ) - ((n : ℝ) - 1)) * x)
        = -Real.sin ((2 * (k : ℝ) - ((n : ℝ) - 1)) * x) := by
      intro k hk
      have hk' := Finset.mem_range.mp hk
      have : ((n - 1 - k : ℕ) : ℝ) = (n : ℝ) - 1 - k := by
        rw [Nat.cast_sub (by omega), Nat.cast_sub (by omega)]; simp
      rw [this, ← Real.sin_neg]
      congr 1; ring
    rw [Finset.sum_congr rfl hneg, Finset.sum_neg_distrib] at hr
    linarith
  simp only [h1]
  rw [Finset.sum_sub_distrib, ← Finset.sum_mul, ← Complex.ofReal_sum, ← Complex.ofReal_sum, h2]
  simp

end PyBSM
