import Verif.Lemmas.OtfElt

/-!
# C31 - C36: detector, carrier and motion blurs
-/

noncomputable section

open Classical

namespace PyBSM

open Spec

theorem one_sub_cos_nonneg (x : ℝ) : 0 ≤ 1 - Real.cos x := by linarith [Real.cos_le_one x]

/-! ## C31 -/

/-- **C31** (1 at zero frequency, and everywhere for perfect transfer). -/
theorem C31_unity (px py nx ny ph : ℝ) {f : ℝ} (hf : f ≠ 0) :
    (∀ e : ℝ, cteOTF (.fin 0) (.fin 0) (.fin px) (.fin py) (.fin nx) (.fin ny) (.fin ph) (.fin e)
      (.fin f) = .fin 1)
    ∧ ∀ u v : ℝ, cteOTF (.fin u) (.fin v) (.fin px) (.fin py) (.fin nx) (.fin ny) (.fin ph) (.fin 1)
      (.fin f) = .fin 1 := by
  constructor
  · intro e; rw [cteOTF_fin _ _ _ _ _ _ _ _ hf]; simp
  · intro u v; rw [cteOTF_fin _ _ _ _ _ _ _ _ hf]; simp

/-- **C31** (range). -/
theorem C31_range (u v px py : ℝ) {nx ny ph e f : ℝ} (hf : f ≠ 0) (hx : 0 ≤ nx) (hy : 0 ≤ ny)
    (hp : 0 ≤ ph) (he : e ≤ 1) :
    ∃ h : ℝ, cteOTF (.fin u) (.fin v) (.fin px) (.fin py) (.fin nx) (.fin ny) (.fin ph) (.fin e)
      (.fin f) = .fin h ∧ 0 < h ∧ h ≤ 1 := by
  refine ⟨_, cteOTF_fin _ _ _ _ _ _ _ _ hf, Real.exp_pos _, ?_⟩
  rw [Real.exp_le_one_iff, neg_nonpos]
  have h1 := one_sub_cos_nonneg (2 * Real.pi * (px * u / f))
  have h2 := one_sub_cos_nonneg (2 * Real.pi * (py * v / f))
  have h3 : 0 ≤ 1 - e := by linarith
  positivity

/-- **C31** (more transfers, less contrast). -/
theorem C31_transfers (u v px py : ℝ) {nx ny nx' ny' ph e f : ℝ} (hf : f ≠ 0) (hx : nx ≤ nx')
    (hy : ny ≤ ny') (hp : 0 ≤ ph) (he : e ≤ 1) :
    ∃ h h' : ℝ, cteOTF (.fin u) (.fin v) (.fin px) (.fin py) (.fin nx) (.fin ny) (.fin ph) (.fin e)
        (.fin f) = .fin h
      ∧ cteOTF (.fin u) (.fin v) (.fin px) (.fin py) (.fin nx') (.fin ny') (.fin ph) (.fin e)
        (.fin f) = .fin h' ∧ h' ≤ h := by
  refine ⟨_, _, cteOTF_fin _ _ _ _ _ _ _ _ hf, cteOTF_fin _ _ _ _ _ _ _ _ hf, ?_⟩
  rw [Real.exp_le_exp, neg_le_neg_iff]
  have h1 := one_sub_cos_nonneg (2 * Real.pi * (px * u / f))
  have h2 := one_sub_cos_nonneg (2 * Real.pi * (py * v / f))
  have h3 : 0 ≤ 1 - e := by linarith
  apply mul_le_mul_of_nonneg_left _ (by positivity)
  have := mul_le_mul_of_nonneg_right hx h1
  have := mul_le_mul_of_nonneg_right hy h2
  linarith

/-- **C31** (strictly between: at the Nyquist frequency an imperfect transfer does lose contrast). -/
theorem C31_nyquist {px py nx ny ph e f : ℝ} (hf : f ≠ 0) (hpx : px ≠ 0) :
    cteOTF (.fin (f / (2 * px))) (.fin 0) (.fin px) (.fin py) (.fin nx) (.fin ny) (.fin ph) (.fin e)
      (.fin f) = .fin (Real.exp (-(2 * ph * nx * (1 - e)))) := by
  rw [cteOTF_fin _ _ _ _ _ _ _ _ hf]
  have : 2 * Real.pi * (px * (f / (2 * px)) / f) = Real.pi := by field_simp
  rw [this, Real.cos_pi]
  simp only [mul_zero, zero_div, Real.cos_zero, sub_self, add_zero]
  congr 3; ring

/-- **C31** (periodic with the sampling frequency `f / p`). -/
theorem C31_periodic (u v : ℝ) {px py : ℝ} (nx ny ph e : ℝ) {f : ℝ} (hf : f ≠ 0) (hx : px ≠ 0)
    (hy : py ≠ 0) (k l : ℤ) :
    cteOTF (.fin (u + k * (f / px))) (.fin (v + l * (f / py))) (.fin px) (.fin py) (.fin nx) (.fin ny)
        (.fin ph) (.fin e) (.fin f)
      = cteOTF (.fin u) (.fin v) (.fin px) (.fin py) (.fin nx) (.fin ny) (.fin ph) (.fin e) (.fin f) := by
  rw [cteOTF_fin _ _ _ _ _ _ _ _ hf, cteOTF_fin _ _ _ _ _ _ _ _ hf]
  have e1 : 2 * Real.pi * (px * (u + k * (f / px)) / f) = 2 * Real.pi * (px * u / f) + k * (2 * Real.pi) := by
    field_simp
  have e2 : 2 * Real.pi * (py * (v + l * (f / py)) / f) = 2 * Real.pi * (py * v / f) + l * (2 * Real.pi) := by
    field_simp
  rw [e1, e2, Real.cos_add_int_mul_two_pi, Real.cos_add_int_mul_two_pi]

/-! ## C32 -/

/-- **C32** (value, hence separable). -/
theorem C32_value (u v wx wy : ℝ) {f : ℝ} (hf : f ≠ 0) :
    detectorOTF (.fin u) (.fin v) (.fin wx) (.fin wy) (.fin f)
      = .fin (Real.sinc (Real.pi * (wx * u / f)) * Real.sinc (Real.pi * (wy * v / f))) :=
  detectorOTF_fin u v wx wy hf

/-- **C32** (even in both frequencies, 1 at zero, at most 1 in magnitude). -/
theorem C32_even_bounded (u v wx wy : ℝ) {f : ℝ} (hf : f ≠ 0) :
    detectorOTF (.fin (-u)) (.fin v) (.fin wx) (.fin wy) (.fin f)
        = detectorOTF (.fin u) (.fin v) (.fin wx) (.fin wy) (.fin f)
    ∧ detectorOTF (.fin u) (.fin (-v)) (.fin wx) (.fin wy) (.fin f)
        = detectorOTF (.fin u) (.fin v) (.fin wx) (.fin wy) (.fin f)
    ∧ detectorOTF (.fin 0) (.fin 0) (.fin wx) (.fin wy) (.fin f) = .fin 1
    ∧ ∃ h : ℝ, detectorOTF (.fin u) (.fin v) (.fin wx) (.fin wy) (.fin f) = .fin h ∧ |h| ≤ 1 := by
  simp only [detectorOTF_fin _ _ _ _ hf]
  refine ⟨?_, ?_, by simp, _, rfl, ?_⟩
  · rw [show Real.pi * (wx * -u / f) = -(Real.pi * (wx * u / f)) by ring, Real.sinc_neg]
  · rw [show Real.pi * (wy * -v / f) = -(Real.pi * (wy * v / f)) by ring, Real.sinc_neg]
  · rw [abs_mul]
    exact mul_le_one₀ (Real.abs_sinc_le_one _) (abs_nonneg _) (Real.abs_sinc_le_one _)

/-- **C32** (zeros at multiples of `f / w`, in either direction). -/
theorem C32_zeros (v : ℝ) {wx : ℝ} (wy : ℝ) {f : ℝ} (hf : f ≠ 0) (hw : wx ≠ 0) {k : ℤ} (hk : k ≠ 0) :
    detectorOTF (.fin (k * (f / wx))) (.fin v) (.fin wx) (.fin wy) (.fin f) = .fin 0
    ∧ detectorOTF (.fin v) (.fin (k * (f / wx))) (.fin wy) (.fin wx) (.fin f) = .fin 0 := by
  have e : Real.pi * (wx * (k * (f / wx)) / f) = k * Real.pi := by field_simp
  have hk' : (k : ℝ) ≠ 0 := Int.cast_ne_zero.mpr hk
  have h0 : Real.sinc (k * Real.pi) = 0 := by
    rw [Real.sinc_of_ne_zero (mul_ne_zero hk' Real.pi_ne_zero), Real.sin_int_mul_pi, zero_div]
  simp only [detectorOTF_fin _ _ _ _ hf, e, h0, zero_mul, mul_zero, and_self]

/-! ## C33 -/

theorem agg_fin (u v wx wy px py : ℝ) {f : ℝ} (hf : f ≠ 0) {n : ℕ} (hn : n ≠ 0) :
    detectorOTFWithAggregation (.fin u) (.fin v) (.fin wx) (.fin wy) (.fin px) (.fin py) (.fin f) n
      = .ok (.fin ((∑ i ∈ Finset.range n, Real.cos ((2 * i - (n - 1)) * (Real.pi * (px * u / f)))) / n
          * ((∑ i ∈ Finset.range n, Real.cos ((2 * i - (n - 1)) * (Real.pi * (py * v / f)))) / n)
          * (Real.sinc (Real.pi * (wx * u / f)) * Real.sinc (Real.pi * (wy * v / f))))) := by
  unfold detectorOTFWithAggregation
  have hn' : (n : ℝ) ≠ 0 := Nat.cast_ne_zero.mpr hn
  rw [if_neg hn, aggSum_fin n px u hf, aggSum_fin n py v hf]
  xr_simp
  rw [XR.fin_div _ hf, XR.fin_div _ hf, XR.fin_div _ (pow_ne_zero 2 hn')]
  xr_simp
  congr 2
  generalize (∑ i ∈ Finset.range n, Real.cos ((2 * (i : ℝ) - (n - 1)) * (Real.pi * (px * u / f)))) = A
  generalize (∑ i ∈ Finset.range n, Real.cos ((2 * (i : ℝ) - (n - 1)) * (Real.pi * (py * v / f)))) = B
  field_simp

/-- **C33** (a single detector). -/
theorem C33_single (u v wx wy px py : ℝ) {f : ℝ} (hf : f ≠ 0) :
    detectorOTFWithAggregation (.fin u) (.fin v) (.fin wx) (.fin wy) (.fin px) (.fin py) (.fin f) 1
      = .ok (detectorOTF (.fin u) (.fin v) (.fin wx) (.fin wy) (.fin f)) := by
  rw [agg_fin _ _ _ _ _ _ hf one_ne_zero, detectorOTF_fin _ _ _ _ hf]
  simp

theorem agg_sinc (n : ℕ) (hn : n ≠ 0) (x : ℝ) :
    (∑ i ∈ Finset.range n, Real.cos ((2 * i - (n - 1)) * x)) / n * Real.sinc x = Real.sinc (n * x) := by
  have hn' : (n : ℝ) ≠ 0 := Nat.cast_ne_zero.mpr hn
  by_cases hx : x = 0
  · subst hx; simp [hn']
  · rw [Real.sinc_of_ne_zero hx, Real.sinc_of_ne_zero (mul_ne_zero hn' hx), ← sin_mul_sum_cos]
    generalize (∑ i ∈ Finset.range n, Real.cos ((2 * (i : ℝ) - (n - 1)) * x)) = A
    field_simp

/-- **C33** (fill factor one: `n` detectors behave like one detector `n` times as large). -/
theorem C33_one_big_detector (u v px py : ℝ) {f : ℝ} (hf : f ≠ 0) {n : ℕ} (hn : n ≠ 0) :
    detectorOTFWithAggregation (.fin u) (.fin v) (.fin px) (.fin py) (.fin px) (.fin py) (.fin f) n
      = .ok (detectorOTF (.fin u) (.fin v) (.fin (n * px)) (.fin (n * py)) (.fin f)) := by
  rw [agg_fin _ _ _ _ _ _ hf hn, detectorOTF_fin _ _ _ _ hf]
  have e1 := agg_sinc n hn (Real.pi * (px * u / f))
  have e2 := agg_sinc n hn (Real.pi * (py * v / f))
  rw [show Real.pi * (n * px * u / f) = n * (Real.pi * (px * u / f)) by ring,
    show Real.pi * (n * py * v / f) = n * (Real.pi * (py * v / f)) by ring, ← e1, ← e2]
  congr 2; ring

theorem agg_bound (n : ℕ) (hn : n ≠ 0) (x : ℝ) :
    |(∑ i ∈ Finset.range n, Real.cos ((2 * i - (n - 1)) * x)) / n| ≤ 1 := by
  have hn' : (0 : ℝ) < n := Nat.cast_pos.mpr (Nat.pos_of_ne_zero hn)
  rw [abs_div, abs_of_pos hn', div_le_one hn']
  refine (Finset.abs_sum_le_sum_abs _ _).trans ?_
  refine (Finset.sum_le_sum (g := fun _ => (1 : ℝ)) fun i _ => Real.abs_cos_le_one _).trans ?_
  simp

/-- **C33** (bounded by 1, and 1 at zero frequency, for any fill factor). -/
theorem C33_bounded (u v wx wy px py : ℝ) {f : ℝ} (hf : f ≠ 0) {n : ℕ} (hn : n ≠ 0) :
    (∃ h : ℝ, detectorOTFWithAggregation (.fin u) (.fin v) (.fin wx) (.fin wy) (.fin px) (.fin py)
      (.fin f) n = .ok (.fin h) ∧ |h| ≤ 1)
    ∧ detectorOTFWithAggregation (.fin 0) (.fin 0) (.fin wx) (.fin wy) (.fin px) (.fin py) (.fin f) n
      = .ok (.fin 1) := by
  have hn' : (n : ℝ) ≠ 0 := Nat.cast_ne_zero.mpr hn
  constructor
  · refine ⟨_, agg_fin _ _ _ _ _ _ hf hn, ?_⟩
    rw [abs_mul, abs_mul, abs_mul]
    exact mul_le_one₀ (mul_le_one₀ (agg_bound n hn _) (abs_nonneg _) (agg_bound n hn _))
      (by positivity) (mul_le_one₀ (Real.abs_sinc_le_one _) (abs_nonneg _) (Real.abs_sinc_le_one _))
  · rw [agg_fin _ _ _ _ _ _ hf hn]
    simp [hn']

/-- **C33** (no detectors). -/
theorem C33_zero_detectors (u v wx wy px py f : XR) :
    detectorOTFWithAggregation u v wx wy px py f 0 = .error .zeroDivisionError := by
  simp [detectorOTFWithAggregation]

/-! ## C34 -/

/-- diffusion length at angular frequency `w` -/
def alRho (l0 w : ℝ) : ℝ := Real.sqrt (1 / (1 / l0 ^ 2 + w ^ 2))

theorem alRho_zero {l0 : ℝ} (h : 0 < l0) : alRho l0 0 = l0 := by
  unfold alRho
  rw [show (1 : ℝ) / (1 / l0 ^ 2 + 0 ^ 2) = l0 ^ 2 by field_simp; ring, Real.sqrt_sq h.le]

theorem alRho_pos {l0 : ℝ} (h : 0 < l0) (w : ℝ) : 0 < alRho l0 w := by
  unfold alRho; apply Real.sqrt_pos.mpr; positivity

theorem alRho_anti {l0 w w' : ℝ} (h : 0 < l0) (hw : |w| < |w'|) : alRho l0 w' < alRho l0 w := by
  unfold alRho
  apply Real.sqrt_lt_sqrt (by positivity)
  apply div_lt_div_of_pos_left one_pos (by positivity)
  have := sq_lt_sq.mpr hw
  linarith

theorem diffusion_fin (u v : ℝ) {alpha ald l f : ℝ} {al0 : Scal} (ha : 0 < alpha) (hl : al0.val = .fin l)
    (hl0 : 0 < l) (hf : f ≠ 0) (hd : 0 ≤ ald) :
    diffusionOTF (.fin u) (.fin v) (.fin alpha) (.fin ald) al0 (.fin f)
      = .ok (.fin ((1 - Real.exp (-(alpha * ald)) / (1 + alpha * alRho l (2 * Real.pi
            * Real.sqrt (u ^ 2 + v ^ 2) / f)))
          / (1 - Real.exp (-(alpha * ald)) / (1 + alpha * l)))) := by
  unfold diffusionOTF
  have h2 : (al0 ^ 2).val = .fin (l ^ 2) := by rw [Scal.val_pow, hl, XR.fin_pow]
  obtain ⟨q, h3, h4⟩ := Scal.div_fin (a := .py 1) (x := 1) rfl h2 (by positivity)
  rw [h3, ok_bind, radial_fin, h4, hl]
  xr_simp
  rw [XR.fin_div _ hf]
  xr_simp
  rw [XR.fin_div _ (by positivity), XR.fin_sqrt (by positivity)]
  have hp := alRho_pos hl0 (2 * Real.pi * Real.sqrt (u ^ 2 + v ^ 2) / f)
  unfold alRho at hp ⊢
  rw [diffusionParams_fin _ _ _ (by positivity), diffusionParams_fin _ _ _ (by positivity),
    XR.fin_div]
  have : Real.exp (-(alpha * ald)) ≤ 1 := Real.exp_le_one_iff.mpr (by
    have : 0 ≤ alpha * ald := by positivity
    linarith)
  have h1 : 1 < 1 + alpha * l := by nlinarith [mul_pos ha hl0]
  have : Real.exp (-(alpha * ald)) / (1 + alpha * l) < 1 := by
    rw [div_lt_one (by linarith)]; linarith
  linarith

theorem diffusion_num_pos {alpha ald l : ℝ} (ha : 0 < alpha) (hl0 : 0 < l) (hd : 0 ≤ ald) :
    0 < 1 - Real.exp (-(alpha * ald)) / (1 + alpha * l) := by
  have : Real.exp (-(alpha * ald)) ≤ 1 := Real.exp_le_one_iff.mpr (by
    have : 0 ≤ alpha * ald := by positivity
    linarith)
  have h1 : 1 < 1 + alpha * l := by nlinarith [mul_pos ha hl0]
  have : Real.exp (-(alpha * ald)) / (1 + alpha * l) < 1 := by
    rw [div_lt_one (by linarith)]; linarith
  linarith

theorem diffusion_num_mono {alpha ald l l' : ℝ} (ha : 0 < alpha) (hl0 : 0 < l) (h : l < l') :
    1 - Real.exp (-(alpha * ald)) / (1 + alpha * l) < 1 - Real.exp (-(alpha * ald)) / (1 + alpha * l') := by
  have := div_lt_div_of_pos_left (Real.exp_pos (-(alpha * ald)))
    (show 0 < 1 + alpha * l by positivity) (show 1 + alpha * l < 1 + alpha * l' by nlinarith)
  linarith

/-- **C34** (1 at zero frequency; in (0, 1]; strictly decreasing in radial frequency). -/
theorem C34_diffusion {alpha ald l f : ℝ} {al0 : Scal} (ha : 0 < alpha) (hl : al0.val = .fin l)
    (hl0 : 0 < l) (hf : f ≠ 0) (hd : 0 ≤ ald) :
    diffusionOTF (.fin 0) (.fin 0) (.fin alpha) (.fin ald) al0 (.fin f) = .ok (.fin 1)
    ∧ (∀ u v : ℝ, ∃ h : ℝ, diffusionOTF (.fin u) (.fin v) (.fin alpha) (.fin ald) al0 (.fin f)
        = .ok (.fin h) ∧ 0 < h ∧ h ≤ 1)
    ∧ ∀ u v u' v' : ℝ, u ^ 2 + v ^ 2 < u' ^ 2 + v' ^ 2 →
        ∃ h h' : ℝ, diffusionOTF (.fin u) (.fin v) (.fin alpha) (.fin ald) al0 (.fin f) = .ok (.fin h)
          ∧ diffusionOTF (.fin u') (.fin v') (.fin alpha) (.fin ald) al0 (.fin f) = .ok (.fin h')
          ∧ h' < h := by
  have hden := diffusion_num_pos (ald := ald) ha hl0 hd
  have hz : diffusionOTF (.fin 0) (.fin 0) (.fin alpha) (.fin ald) al0 (.fin f) = .ok (.fin 1) := by
    rw [diffusion_fin _ _ ha hl hl0 hf hd]
    simp only [ne_eq, OfNat.ofNat_ne_zero, not_false_eq_true, zero_pow, add_zero, Real.sqrt_zero,
      mul_zero, zero_div, alRho_zero hl0]
    rw [div_self hden.ne']
  have hmono : ∀ u v u' v' : ℝ, u ^ 2 + v ^ 2 < u' ^ 2 + v' ^ 2 →
      ∃ h h' : ℝ, diffusionOTF (.fin u) (.fin v) (.fin alpha) (.fin ald) al0 (.fin f) = .ok (.fin h)
          ∧ diffusionOTF (.fin u') (.fin v') (.fin alpha) (.fin ald) al0 (.fin f) = .ok (.fin h')
          ∧ h' < h := by
    intro u v u' v' hlt
    refine ⟨_, _, diffusion_fin _ _ ha hl hl0 hf hd, diffusion_fin _ _ ha hl hl0 hf hd, ?_⟩
    apply div_lt_div_of_pos_right _ hden
    apply diffusion_num_mono ha (alRho_pos hl0 _)
    apply alRho_anti hl0
    have hs := Real.sqrt_lt_sqrt (by positivity) hlt
    have hp := Real.pi_pos
    rw [abs_div, abs_div, abs_of_nonneg (show 0 ≤ 2 * Real.pi * √(u ^ 2 + v ^ 2) by positivity),
      abs_of_nonneg (show 0 ≤ 2 * Real.pi * √(u' ^ 2 + v' ^ 2) by positivity)]
    apply div_lt_div_of_pos_right _ (abs_pos.mpr hf)
    exact mul_lt_mul_of_pos_left hs (show 0 < 2 * Real.pi by positivity)
  refine ⟨hz, ?_, hmono⟩
  intro u v
  refine ⟨_, diffusion_fin _ _ ha hl hl0 hf hd,
    div_pos (diffusion_num_pos ha (alRho_pos hl0 _) hd) hden, ?_⟩
  rcases (show (0 : ℝ) ≤ u ^ 2 + v ^ 2 by positivity).eq_or_lt with h | h
  · rw [← h, Real.sqrt_zero, mul_zero, zero_div, alRho_zero hl0, div_self hden.ne']
  · obtain ⟨a, b, e1, e2, hlt⟩ := hmono 0 0 u v (by simpa using h)
    rw [hz, Except.ok.injEq, XR.fin_inj] at e1
    rw [diffusion_fin _ _ ha hl hl0 hf hd, Except.ok.injEq, XR.fin_inj] at e2
    rw [e2, e1]; exact hlt.le

/-- **C34** (depends on the frequencies only through the radial frequency, whatever the material). -/
theorem C34_radial {u v u' v' : ℝ} (alpha ald f : XR) (al0 : Scal) (h : u ^ 2 + v ^ 2 = u' ^ 2 + v' ^ 2) :
    diffusionOTF (.fin u) (.fin v) alpha ald al0 f = diffusionOTF (.fin u') (.fin v') alpha ald al0 f := by
  unfold diffusionOTF
  rw [radial_fin, radial_fin, h]

/-- **C34** (zero diffusion length). -/
theorem C34_zero_length (u v alpha ald f : XR) :
    diffusionOTF u v alpha ald (.py 0) f = .error .zeroDivisionError := by
  unfold diffusionOTF
  have : Scal.div (.py 1) ((Scal.py 0) ^ 2) = .error .zeroDivisionError := by
    rw [Scal.div_error_iff]
    refine ⟨rfl, trivial, trivial, ?_⟩
    show (0 : ℝ) ^ 2 = 0
    norm_num
  rw [this]; rfl

example : ∃ h h' : ℝ, diffusionOTF (.fin 0) (.fin 100) (.fin 1e5) (.fin 1e-6) (.py (.fin 1e-4)) (.fin 1)
    = .ok (.fin h) ∧ diffusionOTF (.fin 200) (.fin 100) (.fin 1e5) (.fin 1e-6) (.py (.fin 1e-4)) (.fin 1)
    = .ok (.fin h') ∧ h' < h :=
  (C34_diffusion (al0 := .py (.fin 1e-4)) (l := 1e-4) (by norm_num) rfl (by norm_num) (by norm_num)
    (by norm_num)).2.2 _ _ _ _ (by norm_num)

/-! ## C35 -/

/-- **C35** (in (0, 1], 1 at zero frequency). -/
theorem C35_range (u v x y : ℝ) {bx bY : Scal} {a b : ℝ} (hx : bx.val = .fin a) (hy : bY.val = .fin b)
    (ha : a ≠ 0) (hb : b ≠ 0) :
    (∃ j g d : ℝ, jitterOTF (.fin u) (.fin v) (.fin x) (.fin y) = .fin j
      ∧ gaussianOTF (.fin u) (.fin v) bx bY = .ok (.fin g)
      ∧ defocusOTF (.fin u) (.fin v) (.fin x) (.fin y) = .fin d
      ∧ (0 < j ∧ j ≤ 1) ∧ (0 < g ∧ g ≤ 1) ∧ (0 < d ∧ d ≤ 1))
    ∧ jitterOTF (.fin 0) (.fin 0) (.fin x) (.fin y) = .fin 1
    ∧ gaussianOTF (.fin 0) (.fin 0) bx bY = .ok (.fin 1)
    ∧ defocusOTF (.fin 0) (.fin 0) (.fin x) (.fin y) = .fin 1 := by
  refine ⟨⟨_, _, _, jitterOTF_fin _ _ _ _, gaussianOTF_fin _ _ hx hy ha hb, defocusOTF_fin _ _ _ _,
    ⟨Real.exp_pos _, ?_⟩, ⟨Real.exp_pos _, ?_⟩, ⟨Real.exp_pos _, ?_⟩⟩, ?_, ?_, ?_⟩
  · rw [Real.exp_le_one_iff, neg_nonpos]; positivity
  · rw [Real.exp_le_one_iff, neg_nonpos]; have := Real.pi_pos; positivity
  · rw [Real.exp_le_one_iff, neg_nonpos]; positivity
  · rw [jitterOTF_fin]; simp
  · rw [gaussianOTF_fin _ _ hx hy ha hb]; simp
  · rw [defocusOTF_fin]; simp

theorem sq_abs_mono {x u u' : ℝ} (h : |u| ≤ |u'|) : (x * u) ^ 2 ≤ (x * u') ^ 2 := by
  rw [mul_pow, mul_pow]
  exact mul_le_mul_of_nonneg_left (sq_le_sq.mpr h) (sq_nonneg x)

/-- **C35** (non-increasing in each |frequency|, hence even). -/
theorem C35_decreasing {u v u' v' : ℝ} (x y : ℝ) {bx bY : Scal} {a b : ℝ} (hx : bx.val = .fin a)
    (hy : bY.val = .fin b) (ha : a ≠ 0) (hb : b ≠ 0) (hu : |u| ≤ |u'|) (hv : |v| ≤ |v'|) :
    ∃ j g d j' g' d' : ℝ, jitterOTF (.fin u) (.fin v) (.fin x) (.fin y) = .fin j
      ∧ gaussianOTF (.fin u) (.fin v) bx bY = .ok (.fin g)
      ∧ defocusOTF (.fin u) (.fin v) (.fin x) (.fin y) = .fin d
      ∧ jitterOTF (.fin u') (.fin v') (.fin x) (.fin y) = .fin j'
      ∧ gaussianOTF (.fin u') (.fin v') bx bY = .ok (.fin g')
      ∧ defocusOTF (.fin u') (.fin v') (.fin x) (.fin y) = .fin d'
      ∧ j' ≤ j ∧ g' ≤ g ∧ d' ≤ d := by
  refine ⟨_, _, _, _, _, _, jitterOTF_fin _ _ _ _, gaussianOTF_fin _ _ hx hy ha hb,
    defocusOTF_fin _ _ _ _, jitterOTF_fin _ _ _ _, gaussianOTF_fin _ _ hx hy ha hb,
    defocusOTF_fin _ _ _ _, ?_, ?_, ?_⟩
  all_goals
    rw [Real.exp_le_exp, neg_le_neg_iff]
    apply mul_le_mul_of_nonneg_left _ (by have := Real.pi_pos; positivity)
    exact add_le_add (sq_abs_mono hu) (sq_abs_mono hv)

/-- **C35** (two jitters compose to the root-sum-square jitter). -/
theorem C35_compose (u v x y x' y' : ℝ) :
    jitterOTF (.fin u) (.fin v) (.fin x) (.fin y) * jitterOTF (.fin u) (.fin v) (.fin x') (.fin y')
      = jitterOTF (.fin u) (.fin v) (.fin (Real.sqrt (x ^ 2 + x' ^ 2)))
          (.fin (Real.sqrt (y ^ 2 + y' ^ 2))) := by
  rw [jitterOTF_fin, jitterOTF_fin, jitterOTF_fin, XR.fin_mul, ← Real.exp_add, XR.fin_inj]
  congr 1
  have h1 : Real.sqrt (x ^ 2 + x' ^ 2) ^ 2 = x ^ 2 + x' ^ 2 := Real.sq_sqrt (by positivity)
  have h2 : Real.sqrt (y ^ 2 + y' ^ 2) ^ 2 = y ^ 2 + y' ^ 2 := Real.sq_sqrt (by positivity)
  rw [mul_pow (Real.sqrt _), mul_pow (Real.sqrt _), h1, h2]
  ring

/-- **C35** (the blur size: `exp(-pi)`, about 0.043, at frequency `1 / blur`). -/
theorem C35_blur_size {bx bY : Scal} {a b : ℝ} (hx : bx.val = .fin a) (hy : bY.val = .fin b)
    (ha : a ≠ 0) (hb : b ≠ 0) :
    gaussianOTF (.fin (1 / a)) (.fin 0) bx bY = .ok (.fin (Real.exp (-Real.pi)))
    ∧ gaussianOTF (.fin 0) (.fin (1 / b)) bx bY = .ok (.fin (Real.exp (-Real.pi))) := by
  rw [gaussianOTF_fin _ _ hx hy ha hb, gaussianOTF_fin _ _ hx hy ha hb, mul_one_div_cancel ha,
    mul_one_div_cancel hb]
  simp

/-- **C35** (defocus as jitter; the code's `D` argument plays no role). -/
theorem C35_defocus_is_jitter (u v wx wy : ℝ) :
    defocusOTF (.fin u) (.fin v) (.fin wx) (.fin wy)
      = jitterOTF (.fin u) (.fin v) (.fin (wx / (2 * Real.sqrt 2))) (.fin (wy / (2 * Real.sqrt 2))) := by
  rw [defocusOTF_fin, jitterOTF_fin, XR.fin_inj]
  congr 1
  have h : Real.sqrt 2 ^ 2 = 2 := Real.sq_sqrt (by norm_num)
  rw [mul_pow (wx / _), mul_pow (wy / _), div_pow, div_pow, mul_pow 2, h]
  ring

/-- **C35** (a zero Python blur size raises). -/
theorem C35_zero_blur (u v : XR) (bY : Scal) :
    gaussianOTF u v (.py 0) bY = .error .zeroDivisionError := by
  unfold gaussianOTF
  have : Scal.div (.py 1) (Scal.py 0) = .error .zeroDivisionError := by
    rw [Scal.div_error_iff]
    exact ⟨rfl, trivial, trivial, rfl⟩
  rw [this]; rfl

/-! ## C36 -/

/-- **C36** (drift). -/
theorem C36_drift (u v ax ay : ℝ) :
    driftOTF (.fin (-u)) (.fin v) (.fin ax) (.fin ay) = driftOTF (.fin u) (.fin v) (.fin ax) (.fin ay)
    ∧ driftOTF (.fin u) (.fin (-v)) (.fin ax) (.fin ay) = driftOTF (.fin u) (.fin v) (.fin ax) (.fin ay)
    ∧ driftOTF (.fin 0) (.fin 0) (.fin ax) (.fin ay) = .fin 1
    ∧ driftOTF (.fin u) (.fin v) (.fin 0) (.fin 0) = .fin 1
    ∧ ∃ h : ℝ, driftOTF (.fin u) (.fin v) (.fin ax) (.fin ay) = .fin h
        ∧ h = Real.sinc (Real.pi * (ax * u)) * Real.sinc (Real.pi * (ay * v)) ∧ |h| ≤ 1 := by
  simp only [driftOTF_fin]
  refine ⟨?_, ?_, by simp, by simp, _, rfl, rfl, ?_⟩
  · rw [show Real.pi * (ax * -u) = -(Real.pi * (ax * u)) by ring, Real.sinc_neg]
  · rw [show Real.pi * (ay * -v) = -(Real.pi * (ay * v)) by ring, Real.sinc_neg]
  · rw [abs_mul]
    exact mul_le_one₀ (Real.abs_sinc_le_one _) (abs_nonneg _) (Real.abs_sinc_le_one _)

theorem tdi_eq (x w nTdi phases beta f : ℝ) {m : ℕ} (hm : nTdi * phases = m) :
    tdiOTF x w nTdi phases beta f
      = (Real.sinc (Real.pi * (w * x / (f * beta))) : ℂ)
        * (∑ k ∈ Finset.range m,
            Complex.exp (-2 * Complex.I * Real.pi * ((w * x / (f * beta) : ℝ) : ℂ) * (beta - 1) * k)) / m := by
  unfold tdiOTF
  simp only
  rw [hm, Nat.ceil_natCast, foldl_add_sum]
  norm_cast

theorem exp_norm_one (a b : ℝ) (k : ℕ) :
    ‖Complex.exp (-2 * Complex.I * Real.pi * (a : ℂ) * (b - 1) * k)‖ = 1 := by
  have : (-2 * Complex.I * Real.pi * (a : ℂ) * (b - 1) * k)
      = ((-2 * Real.pi * a * (b - 1) * k : ℝ) : ℂ) * Complex.I := by
    push_cast; ring
  rw [this, Complex.norm_exp_ofReal_mul_I]

/-- **C36** (TDI): for any positive whole number `m` of stages times phases, the OTF is 1 at zero
frequency, at most 1 in magnitude at every frequency, and a plain sinc when the clock matches the
image motion (`beta = 1`). -/
theorem C36_tdi (x w : ℝ) {nTdi phases : ℝ} (beta f : ℝ) {m : ℕ} (hm : nTdi * phases = m) (hpos : 0 < m) :
    tdiOTF 0 w nTdi phases beta f = 1
    ∧ ‖tdiOTF x w nTdi phases beta f‖ ≤ 1
    ∧ tdiOTF x w nTdi phases 1 f = (Real.sinc (Real.pi * (w * x / f)) : ℂ) := by
  have hm' : (0 : ℝ) < m := Nat.cast_pos.mpr hpos
  have hmc : (m : ℂ) ≠ 0 := Nat.cast_ne_zero.mpr hpos.ne'
  refine ⟨?_, ?_, ?_⟩
  · rw [tdi_eq _ _ _ _ _ _ hm]
    simp [hmc]
  · rw [tdi_eq _ _ _ _ _ _ hm, norm_div, norm_mul, Complex.norm_natCast, div_le_one hm',
      Complex.norm_real, Real.norm_eq_abs]
    calc |Real.sinc (Real.pi * (w * x / (f * beta)))| * _ ≤ 1 * (m : ℝ) := by
          apply mul_le_mul (Real.abs_sinc_le_one _) _ (norm_nonneg _) zero_le_one
          refine (norm_sum_le _ _).trans ?_
          simp only [exp_norm_one, Finset.sum_const, Finset.card_range, nsmul_eq_mul, mul_one, le_refl]
      _ = m := one_mul _
  · rw [tdi_eq _ _ _ _ _ _ hm]
    simp [hmc]

/-- **C36** (one stage, one phase: the detector's sinc at the scaled frequency, whatever the mismatch). -/
theorem C36_tdi_single (x w beta f : ℝ) :
    tdiOTF x w 1 1 beta f = (Real.sinc (Real.pi * (w * x / (f * beta))) : ℂ) := by
  rw [tdi_eq x w 1 1 beta f (m := 1) (by norm_num)]
  simp

example : (4 : ℝ) * 3 = ((12 : ℕ) : ℝ) ∧ 0 < (12 : ℕ) := by norm_num

end PyBSM
