import Verif.Lemmas.Kernels
import Mathlib.MeasureTheory.Group.Convolution

/-!
# C87: component OTFs are the Fourier transforms of the blurs they stand for
-/

noncomputable section

open MeasureTheory

namespace PyBSM

open Spec

/-- **C87** (detector): light collected evenly over a detector of `w_x` by `w_y` behind a focal length `f`. -/
theorem C87_detector (u v wx wy : ℝ) {f : ℝ} (hf : f ≠ 0) :
    ∃ h : ℝ, detectorOTF (.fin u) (.fin v) (.fin wx) (.fin wy) (.fin f) = .fin h
      ∧ (h : ℂ) = transferOf (box (wx / f)) u * transferOf (box (wy / f)) v := by
  refine ⟨_, detectorOTF_fin u v wx wy hf, ?_⟩
  rw [transferOf_box, transferOf_box]
  push_cast
  rw [show wx / f * u = wx * u / f by ring, show wy / f * v = wy * v / f by ring]

/-- **C87** (aggregated detectors): the light of `n` detectors side by side at pitch `p`, centred on the
optical axis, in each direction. -/
theorem C87_aggregation (u v wx wy px py : ℝ) {f : ℝ} (hf : f ≠ 0) {n : ℕ} (hn : n ≠ 0) :
    ∃ h : ℝ, detectorOTFWithAggregation (.fin u) (.fin v) (.fin wx) (.fin wy) (.fin px) (.fin py) (.fin f) n
        = .ok (.fin h)
      ∧ (h : ℂ) = transferOf (moved (-((n - 1) / 2 * (px / f))) (copies n (px / f) (box (wx / f)))) u
          * transferOf (moved (-((n - 1) / 2 * (py / f))) (copies n (py / f) (box (wy / f)))) v := by
  have hn' : (n : ℝ) ≠ 0 := by exact_mod_cast hn
  have key : ∀ w p z : ℝ, transferOf (moved (-(((n : ℝ) - 1) / 2 * (p / f))) (copies n (p / f) (box (w / f)))) z
      = ((Real.sinc (Real.pi * (w * z / f))
          * (∑ i ∈ Finset.range n, Real.cos ((2 * i - (n - 1)) * (Real.pi * (p * z / f)))) / n : ℝ) : ℂ) := by
    intro w p z
    rw [transferOf_moved, transferOf_copies hn, transferOf_box]
    have hs := sum_exp_symmetric n (Real.pi * (p * z / f))
    have e : (∑ k ∈ Finset.range n, Complex.exp (-(2 * Real.pi * z * (((p / f : ℝ) : ℂ) * k) * Complex.I)))
          * Complex.exp (-(2 * Real.pi * z * ((-(((n : ℝ) - 1) / 2 * (p / f)) : ℝ) : ℂ) * Complex.I))
        = ((∑ k ∈ Finset.range n, Real.cos ((2 * k - ((n : ℝ) - 1)) * (Real.pi * (p * z / f))) : ℝ) : ℂ) := by
      rw [← hs, Finset.sum_mul]
      refine Finset.sum_congr rfl fun k _ => ?_
      rw [← Complex.exp_add]
      congr 1
      push_cast
      ring
    rw [show w / f * z = w * z / f by ring]
    push_cast at e ⊢
    rw [← e]
    ring
  rw [key, key, ← Complex.ofReal_mul]
  refine ⟨_, ?_, rfl⟩
  unfold detectorOTFWithAggregation
  rw [if_neg hn, aggSum_fin n px u hf, aggSum_fin n py v hf]
  xr_simp
  rw [XR.fin_div _ (pow_ne_zero 2 hn'), XR.fin_div _ hf, XR.fin_div _ hf]
  xr_simp
  congr 2
  ring

/-- **C87** (drift): the line of sight moves evenly over `a_x` by `a_y` during the exposure. -/
theorem C87_drift (u v ax ay : ℝ) :
    ∃ h : ℝ, driftOTF (.fin u) (.fin v) (.fin ax) (.fin ay) = .fin h
      ∧ (h : ℂ) = transferOf (box ax) u * transferOf (box ay) v := by
  refine ⟨_, driftOTF_fin u v ax ay, ?_⟩
  rw [transferOf_box, transferOf_box]
  push_cast
  rfl

/-- **C87** (jitter): the line of sight has a Gaussian error of root-mean-square `s_x` by `s_y`. -/
theorem C87_jitter (u v sx sy : ℝ) :
    ∃ h : ℝ, jitterOTF (.fin u) (.fin v) (.fin sx) (.fin sy) = .fin h
      ∧ (h : ℂ) = transferOf (gauss sx) u * transferOf (gauss sy) v := by
  refine ⟨_, jitterOTF_fin u v sx sy, ?_⟩
  rw [transferOf_gauss, transferOf_gauss, ← Complex.ofReal_mul, ← Real.exp_add]
  congr 2
  ring

/-- **C87** (Gaussian blur): the blur size `b` of `gaussian_OTF` is `sqrt(2 pi)` standard deviations. -/
theorem C87_gaussian (u v : ℝ) {bx bY : Scal} {a b : ℝ} (hx : bx.val = .fin a) (hy : bY.val = .fin b) (ha : a ≠ 0)
    (hb : b ≠ 0) :
    ∃ h : ℝ, gaussianOTF (.fin u) (.fin v) bx bY = .ok (.fin h)
      ∧ (h : ℂ) = transferOf (gauss (a / Real.sqrt (2 * Real.pi))) u
          * transferOf (gauss (b / Real.sqrt (2 * Real.pi))) v := by
  refine ⟨_, gaussianOTF_fin u v hx hy ha hb, ?_⟩
  rw [transferOf_gauss, transferOf_gauss, ← Complex.ofReal_mul, ← Real.exp_add]
  congr 2
  have h2 : Real.sqrt (2 * Real.pi) ^ 2 = 2 * Real.pi := Real.sq_sqrt (by positivity)
  simp only [mul_pow, div_pow, h2]
  field_simp
  ring

/-- **C87** (defocus): the blur spots `w_x`, `w_y` of `defocus_OTF` are `2 sqrt 2` standard deviations wide. -/
theorem C87_defocus (u v wx wy : ℝ) :
    ∃ h : ℝ, defocusOTF (.fin u) (.fin v) (.fin wx) (.fin wy) = .fin h
      ∧ (h : ℂ) = transferOf (gauss (wx / (2 * Real.sqrt 2))) u * transferOf (gauss (wy / (2 * Real.sqrt 2))) v := by
  refine ⟨_, defocusOTF_fin u v wx wy, ?_⟩
  rw [transferOf_gauss, transferOf_gauss, ← Complex.ofReal_mul, ← Real.exp_add]
  congr 2
  have h2 : Real.sqrt 2 ^ 2 = 2 := Real.sq_sqrt (by norm_num)
  simp only [mul_pow, div_pow, h2]
  ring

/-- **C87** (time delay and integration): `m` exposures of a detector, each displaced from the one before by the
mismatch between the image motion and the clock. -/
theorem C87_tdi (x w : ℝ) {nTdi phases : ℝ} (beta f : ℝ) {m : ℕ} (hm : nTdi * phases = m) (hpos : 0 < m) :
    tdiOTF x w nTdi phases beta f
      = transferOf (copies m (w / (f * beta) * (beta - 1)) (box (w / (f * beta)))) x := by
  rw [transferOf_copies hpos.ne', transferOf_box]
  unfold tdiOTF
  simp only
  rw [hm, Nat.ceil_natCast, foldl_add_sum, show w / (f * beta) * x = w * x / (f * beta) by ring]
  have e : ∀ k : ℕ, Complex.exp (-2 * Complex.I * Real.pi * ((w * x / (f * beta) : ℝ) : ℂ) * (beta - 1) * k)
      = Complex.exp (-(2 * Real.pi * x * (((w / (f * beta) * (beta - 1) : ℝ) : ℂ) * k) * Complex.I)) := by
    intro k
    congr 1
    push_cast
    ring
  simp only [e]
  push_cast
  rfl

/-- **C87** (charge transfer): in each direction a Poisson number of the electrons' transfers is deferred by one
pixel, on average `phases * transfers * (1 - efficiency)`; the OTF is the contrast of the resulting trail. -/
theorem C87_cte (u v px py : ℝ) {nx ny ph e f : ℝ} (hf : f ≠ 0) {cx cy : NNReal} (hx : cx = ph * nx * (1 - e))
    (hy : cy = ph * ny * (1 - e)) :
    ∃ h : ℝ, cteOTF (.fin u) (.fin v) (.fin px) (.fin py) (.fin nx) (.fin ny) (.fin ph) (.fin e) (.fin f) = .fin h
      ∧ h = ‖transferOf (trail cx (px / f)) u‖ * ‖transferOf (trail cy (py / f)) v‖ := by
  refine ⟨_, cteOTF_fin u v px py nx ny ph e hf, ?_⟩
  have key : ∀ (c : NNReal) (p z : ℝ), ‖transferOf (trail c (p / f)) z‖
      = Real.exp (-(c * (1 - Real.cos (2 * Real.pi * (p * z / f))))) := by
    intro c p z
    rw [transferOf_trail, Complex.norm_exp]
    congr 1
    have e1 : (-(2 * Real.pi * (((p / f : ℝ) : ℂ) * z) * Complex.I) : ℂ)
        = ((-(2 * Real.pi * (p * z / f)) : ℝ) : ℂ) * Complex.I := by push_cast; ring
    rw [e1]
    have e2 : (((c : ℝ) : ℂ) * (Complex.exp (((-(2 * Real.pi * (p * z / f)) : ℝ) : ℂ) * Complex.I) - 1)).re
        = c * (Real.cos (2 * Real.pi * (p * z / f)) - 1) := by
      rw [Complex.re_ofReal_mul, Complex.sub_re, Complex.exp_ofReal_mul_I_re, Complex.one_re, Real.cos_neg]
    rw [show ((c : ℂ)) = (((c : ℝ) : ℂ)) from rfl, e2]
    ring
  rw [key, key, ← Real.exp_add, hx, hy]
  congr 1
  ring

/-- **C87** (these are blurs): each kernel is a distribution of light of total 1, so that its transfer function is 1
at zero frequency and at most 1 in magnitude. -/
theorem C87_kernels (μ : Measure ℝ) [IsProbabilityMeasure μ] :
    transferOf μ 0 = 1 ∧ ∀ u, ‖transferOf μ u‖ ≤ 1 := by
  constructor
  · rw [transferOf_charFun]; simp
  · intro u
    rw [transferOf_charFun]
    exact (norm_charFun_le _).trans (by simp)

/-- **C87** (blurs one after the other): the product of two OTFs, as `common_OTFs` forms it, is the OTF of the
convolution of the two blurs. -/
theorem C87_convolution (μ ν : Measure ℝ) [IsFiniteMeasure μ] [IsFiniteMeasure ν] (u : ℝ) :
    transferOf (μ ∗ ν) u = transferOf μ u * transferOf ν u := by
  simp only [transferOf_charFun, charFun_conv]

/-- The kernels named above are distributions of total 1. -/
example (a s : ℝ) (c : NNReal) (p d : ℝ) : IsProbabilityMeasure (box a) ∧ IsProbabilityMeasure (gauss s)
    ∧ IsProbabilityMeasure (trail c p) ∧ IsProbabilityMeasure (copies 3 p (box a))
    ∧ IsProbabilityMeasure (moved d (box a)) :=
  ⟨inferInstance, inferInstance, inferInstance, copies_probability (by norm_num) _ _, inferInstance⟩

/-- A detector blur is not trivial: it removes the fringe whose period is the detector's width. -/
example : transferOf (box 2) (1 / 2) = 0 := by
  rw [transferOf_box, show Real.pi * (2 * (1 / 2)) = Real.pi by ring, Real.sinc_of_ne_zero Real.pi_pos.ne']
  simp

/-- An imperfect charge transfer: three phases, 10 transfers of efficiency 0.9. -/
example : (⟨3, by norm_num⟩ : NNReal) = (3 : ℝ) * 10 * (1 - 0.9) := by norm_num

example : (2 : ℝ) * 3 = (6 : ℕ) ∧ 0 < 6 := by norm_num

end PyBSM
