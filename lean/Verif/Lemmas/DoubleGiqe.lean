import Verif.Spec.DoubleGiqe
import Verif.Model.DoubleGiqe
import Verif.Lemmas.Double
import Verif.Lemmas.Giqe
import Mathlib.Analysis.SpecialFunctions.Log.Deriv
import Mathlib.Analysis.SpecialFunctions.Trigonometric.Bounds
import Mathlib.Analysis.Complex.ExponentialBounds

/-!
# Error calculus for the image quality equations
-/

noncomputable section

open Classical

namespace PyBSM

open Spec

/-- `x'` is `x` with an error of at most `k` units of `10^-15 m`, where `m` bounds the size of `x`. -/
def Apx (k x' x m : ℝ) : Prop := |x' - x| ≤ k * 1e-15 * m ∧ |x| ≤ m

theorem Apx.size {k x' x m : ℝ} (h : Apx k x' x m) : 0 ≤ m := (abs_nonneg x).trans h.2

theorem Apx.of {x m : ℝ} (h : |x| ≤ m) : Apx 0 x x m := ⟨by simp, h⟩

theorem Apx.mono {k k' x' x m : ℝ} (h : Apx k x' x m) (hk : k ≤ k') : Apx k' x' x m := by
  refine ⟨h.1.trans ?_, h.2⟩
  have := h.size
  gcongr

theorem Apx.round {fl : ℝ → ℝ} (hfl : RoundsToNearest fl) {k x' x m : ℝ} (h : Apx k x' x m) (hk : k ≤ 1000) :
    Apx (k + 1) (fl x') x m := by
  refine ⟨?_, h.2⟩
  have hm := h.size
  have h1 := hfl.error x'
  have h2 : |x'| ≤ |x' - x| + |x| := by
    have := abs_add_le (x' - x) x
    simpa using this
  have h3 : |fl x' - x| ≤ |fl x' - x'| + |x' - x| := abs_sub_le _ _ _
  have h4 := h.1
  have h5 := h.2
  have h6 : k * 1e-15 * m ≤ 1000 * 1e-15 * m := by gcongr
  linarith

theorem Apx.const {fl : ℝ → ℝ} (hfl : RoundsToNearest fl) {x : ℝ} (hx : 0 ≤ x) : Apx 1 (fl x) x x := by
  have := (Apx.of (abs_of_nonneg hx).le).round hfl (by norm_num)
  simpa using this

theorem Apx.add {k k' x' x m y' y n : ℝ} (h : Apx k x' x m) (h' : Apx k' y' y n) :
    Apx (max k k') (x' + y') (x + y) (m + n) := by
  have a1 := h.mono (le_max_left k k')
  have a2 := h'.mono (le_max_right k k')
  refine ⟨?_, (abs_add_le _ _).trans (add_le_add a1.2 a2.2)⟩
  have : x' + y' - (x + y) = (x' - x) + (y' - y) := by ring
  rw [this, mul_add]
  exact (abs_add_le _ _).trans (add_le_add a1.1 a2.1)

theorem Apx.neg {k x' x m : ℝ} (h : Apx k x' x m) : Apx k (-x') (-x) m := by
  refine ⟨?_, by rw [abs_neg]; exact h.2⟩
  rw [show -x' - -x = -(x' - x) by ring, abs_neg]
  exact h.1

theorem Apx.sub {k k' x' x m y' y n : ℝ} (h : Apx k x' x m) (h' : Apx k' y' y n) :
    Apx (max k k') (x' - y') (x - y) (m + n) := by
  rw [sub_eq_add_neg, sub_eq_add_neg]
  exact h.add h'.neg

theorem Apx.mul {k k' x' x m y' y n : ℝ} (h : Apx k x' x m) (h' : Apx k' y' y n) (hk : k ≤ 1000) (hk' : k' ≤ 1000) :
    Apx (k + k' + 1) (x' * y') (x * y) (m * n) := by
  have hm := h.size
  have hn := h'.size
  refine ⟨?_, by rw [abs_mul]; exact mul_le_mul h.2 h'.2 (abs_nonneg _) hm⟩
  have e : x' * y' - x * y = (x' - x) * y + x * (y' - y) + (x' - x) * (y' - y) := by ring
  have b1 : |x' - x| ≤ 1000 * 1e-15 * m := h.1.trans (by gcongr)
  have b2 : |y' - y| ≤ 1000 * 1e-15 * n := h'.1.trans (by gcongr)
  have c1 : |(x' - x) * y| ≤ k * 1e-15 * m * n := by
    rw [abs_mul]; exact mul_le_mul h.1 h'.2 (abs_nonneg _) ((abs_nonneg _).trans h.1)
  have c2 : |x * (y' - y)| ≤ m * (k' * 1e-15 * n) := by
    rw [abs_mul]; exact mul_le_mul h.2 h'.1 (abs_nonneg _) hm
  have c3 : |(x' - x) * (y' - y)| ≤ (1000 * 1e-15 * m) * (1000 * 1e-15 * n) := by
    rw [abs_mul]; exact mul_le_mul b1 b2 (abs_nonneg _) ((abs_nonneg _).trans b1)
  have c4 : 0 ≤ m * n := mul_nonneg hm hn
  rw [e]
  have t1 := abs_add_le ((x' - x) * y + x * (y' - y)) ((x' - x) * (y' - y))
  have t2 := abs_add_le ((x' - x) * y) (x * (y' - y))
  nlinarith

theorem Apx.div {k x' x m s : ℝ} (h : Apx k x' x m) (hs : s ≠ 0) : Apx k (x' / s) (x / s) (m / |s|) := by
  have hp : 0 < |s| := abs_pos.mpr hs
  constructor
  · rw [← sub_div, abs_div, mul_div_assoc', div_le_div_iff_of_pos_right hp]
    exact h.1
  · rw [abs_div, div_le_div_iff_of_pos_right hp]
    exact h.2

/-! ### Factors -/

theorem Spec.WithinFactor.refl {x : ℝ} (hx : 0 < x) : WithinFactor 0 x x := ⟨hx, hx, by simp⟩

theorem Spec.WithinFactor.symm {δ r x : ℝ} (h : WithinFactor δ r x) : WithinFactor δ x r := ⟨h.2.1, h.1, by rw [abs_sub_comm]; exact h.2.2⟩

theorem Spec.WithinFactor.nonneg {δ r x : ℝ} (h : WithinFactor δ r x) : 0 ≤ δ := (abs_nonneg _).trans h.2.2

theorem Spec.WithinFactor.mono {δ δ' r x : ℝ} (h : WithinFactor δ r x) (hd : δ ≤ δ') : WithinFactor δ' r x := ⟨h.1, h.2.1, h.2.2.trans hd⟩

theorem Spec.WithinFactor.trans {δ δ' r x y : ℝ} (h : WithinFactor δ r x) (h' : WithinFactor δ' x y) : WithinFactor (δ + δ') r y :=
  ⟨h.1, h'.2.1, (abs_sub_le _ _ _).trans (add_le_add h.2.2 h'.2.2)⟩

theorem Spec.WithinFactor.mul {δ δ' r x s y : ℝ} (h : WithinFactor δ r x) (h' : WithinFactor δ' s y) : WithinFactor (δ + δ') (r * s) (x * y) := by
  refine ⟨mul_pos h.1 h'.1, mul_pos h.2.1 h'.2.1, ?_⟩
  rw [Real.log_mul h.1.ne' h'.1.ne', Real.log_mul h.2.1.ne' h'.2.1.ne']
  rw [show Real.log r + Real.log s - (Real.log x + Real.log y) = (Real.log r - Real.log x) + (Real.log s - Real.log y) by ring]
  exact (abs_add_le _ _).trans (add_le_add h.2.2 h'.2.2)

theorem Spec.WithinFactor.div {δ δ' r x s y : ℝ} (h : WithinFactor δ r x) (h' : WithinFactor δ' s y) : WithinFactor (δ + δ') (r / s) (x / y) := by
  refine ⟨div_pos h.1 h'.1, div_pos h.2.1 h'.2.1, ?_⟩
  rw [Real.log_div h.1.ne' h'.1.ne', Real.log_div h.2.1.ne' h'.2.1.ne']
  rw [show Real.log r - Real.log s - (Real.log x - Real.log y) = (Real.log r - Real.log x) - (Real.log s - Real.log y) by ring]
  exact (abs_sub _ _).trans (add_le_add h.2.2 h'.2.2)

theorem Spec.WithinFactor.rpow {δ r x p : ℝ} (h : WithinFactor δ r x) (hp : 0 ≤ p) : WithinFactor (p * δ) (r ^ p) (x ^ p) := by
  refine ⟨Real.rpow_pos_of_pos h.1 _, Real.rpow_pos_of_pos h.2.1 _, ?_⟩
  rw [Real.log_rpow h.1, Real.log_rpow h.2.1, ← mul_sub, abs_mul, abs_of_nonneg hp]
  exact mul_le_mul_of_nonneg_left h.2.2 hp

theorem Spec.WithinFactor.max {δ r x s y : ℝ} (h : WithinFactor δ r x) (h' : WithinFactor δ s y) : WithinFactor δ (Max.max r s) (Max.max x y) := by
  have m1 : Real.log (Max.max r s) = Max.max (Real.log r) (Real.log s) := by
    rcases le_total r s with c | c
    · rw [max_eq_right c, max_eq_right (Real.log_le_log h.1 c)]
    · rw [max_eq_left c, max_eq_left (Real.log_le_log h'.1 c)]
  have m2 : Real.log (Max.max x y) = Max.max (Real.log x) (Real.log y) := by
    rcases le_total x y with c | c
    · rw [max_eq_right c, max_eq_right (Real.log_le_log h.2.1 c)]
    · rw [max_eq_left c, max_eq_left (Real.log_le_log h'.2.1 c)]
  refine ⟨lt_max_of_lt_left h.1, lt_max_of_lt_left h.2.1, ?_⟩
  rw [m1, m2]
  exact (abs_max_sub_max_le_max _ _ _ _).trans (max_le h.2.2 h'.2.2)

theorem Spec.WithinFactor.min {δ r x s y : ℝ} (h : WithinFactor δ r x) (h' : WithinFactor δ s y) : WithinFactor δ (Min.min r s) (Min.min x y) := by
  have m1 : Real.log (Min.min r s) = Min.min (Real.log r) (Real.log s) := by
    rcases le_total r s with c | c
    · rw [min_eq_left c, min_eq_left (Real.log_le_log h.1 c)]
    · rw [min_eq_right c, min_eq_right (Real.log_le_log h'.1 c)]
  have m2 : Real.log (Min.min x y) = Min.min (Real.log x) (Real.log y) := by
    rcases le_total x y with c | c
    · rw [min_eq_left c, min_eq_left (Real.log_le_log h.2.1 c)]
    · rw [min_eq_right c, min_eq_right (Real.log_le_log h'.2.1 c)]
  refine ⟨lt_min h.1 h'.1, lt_min h.2.1 h'.2.1, ?_⟩
  rw [m1, m2]
  exact (abs_min_sub_min_le_max _ _ _ _).trans (max_le h.2.2 h'.2.2)

/-- A small relative error is a small factor. -/
theorem within_of_rel {ε r x : ℝ} (hx : 0 < x) (he : ε ≤ 1 / 2) (h : |r - x| ≤ ε * x) : WithinFactor (2 * ε) r x := by
  obtain ⟨h1, h2⟩ := abs_le.mp h
  have he0 : 0 ≤ ε := by
    by_contra hc
    have := (abs_nonneg _).trans h
    nlinarith
  have hr : 0 < r := by nlinarith
  refine ⟨hr, hx, ?_⟩
  rw [← Real.log_div hr.ne' hx.ne']
  have hq : 0 < r / x := div_pos hr hx
  have q1 : r / x ≤ 1 + ε := by rw [div_le_iff₀ hx]; linarith
  have q2 : 1 - ε ≤ r / x := by rw [le_div_iff₀ hx]; linarith
  rw [abs_le]
  constructor
  · have e1 := Real.one_sub_inv_le_log_of_pos hq
    have e2 : (r / x)⁻¹ ≤ (1 - ε)⁻¹ := inv_anti₀ (by linarith) q2
    have e3 : (1 - ε)⁻¹ ≤ 1 + 2 * ε := by
      rw [inv_le_iff_one_le_mul₀ (by linarith)]
      nlinarith
    linarith
  · have := Real.log_le_sub_one_of_pos hq
    linarith

theorem Spec.WithinFactor.error {δ r x : ℝ} (h : WithinFactor δ r x) (hd : δ ≤ 0.02) : |r - x| ≤ 1.02 * δ * x := by
  have h0 := h.nonneg
  obtain ⟨h1, h2⟩ := abs_le.mp h.2.2
  have e1 : r = x * Real.exp (Real.log r - Real.log x) := by
    rw [Real.exp_sub, Real.exp_log h.1, Real.exp_log h.2.1]
    field_simp [h.2.1.ne']
  have e2 : Real.exp (Real.log r - Real.log x) ≤ Real.exp δ := Real.exp_le_exp.mpr h2
  have e3 : Real.exp (-δ) ≤ Real.exp (Real.log r - Real.log x) := Real.exp_le_exp.mpr h1
  have e4 : Real.exp δ ≤ 1 + 1.02 * δ := by
    have := Real.abs_exp_sub_one_sub_id_le (x := δ) (by rw [abs_of_nonneg h0]; linarith)
    have := (abs_le.mp this).2
    nlinarith
  have e5 := Real.add_one_le_exp (-δ)
  generalize Real.exp (Real.log r - Real.log x) = E at *
  rw [e1, abs_le]
  have hx := h.2.1
  constructor <;> nlinarith

theorem fl_within {fl : ℝ → ℝ} (hfl : RoundsToNearest fl) {x : ℝ} (hx : 0 < x) : WithinFactor 1e-15 (fl x) x := by
  refine (within_of_rel (ε := 1.2e-16) hx (by norm_num) ?_).mono (by norm_num)
  have := hfl.error x
  rwa [abs_of_pos hx] at this

theorem Spec.WithinFactor.round {fl : ℝ → ℝ} (hfl : RoundsToNearest fl) {δ r x : ℝ} (h : WithinFactor δ r x) :
    WithinFactor (δ + 1e-15) (fl r) x := ((fl_within hfl h.1).trans h).mono (by linarith)

theorem log_ten : 2.302 ≤ Real.log 10 := by
  have h1 : Real.log (2 ^ 93) ≤ Real.log (10 ^ 28) := Real.log_le_log (by norm_num) (by norm_num)
  rw [Real.log_pow, Real.log_pow] at h1
  have := Real.log_two_gt_d9
  push_cast at h1
  linarith

theorem log_ten_le : Real.log 10 ≤ 2.304 := by
  have h1 : Real.log (10 ^ 3) ≤ Real.log (2 ^ 10) := Real.log_le_log (by norm_num) (by norm_num)
  have h2 : Real.log (10 ^ 65) ≤ Real.log (2 ^ 216) := Real.log_le_log (by norm_num) (by norm_num)
  rw [Real.log_pow, Real.log_pow] at h2
  have := Real.log_two_lt_d9
  push_cast at h2
  linarith

theorem lg_eq (x : ℝ) : lg x = Real.log x / Real.log 10 := by unfold lg Real.logb; rfl

theorem Spec.WithinFactor.lg {δ r x : ℝ} (h : WithinFactor δ r x) : |Spec.lg r - Spec.lg x| ≤ 0.4345 * δ := by
  have h10 := log_ten
  have hp : 0 < Real.log 10 := by linarith
  rw [lg_eq, lg_eq, ← sub_div, abs_div, abs_of_pos hp, div_le_iff₀ hp]
  have := h.nonneg
  have := h.2.2
  nlinarith

theorem Apx.lg {lgD : ℝ → ℝ} (hl : ∀ x, 0 < x → |lgD x - Spec.lg x| ≤ 1e-15 * |Spec.lg x|) {k r x : ℝ}
    (h : WithinFactor (k * 1e-15) r x) (hk : k ≤ 1000) : Apx (k / 2 + 1) (lgD r) (Spec.lg x) (1 + |Spec.lg x|) := by
  have h0 := h.nonneg
  refine ⟨?_, by linarith⟩
  have h1 := hl r h.1
  have h2 := h.lg
  have h3 : |Spec.lg r| ≤ |Spec.lg r - Spec.lg x| + |Spec.lg x| := by
    have := abs_add_le (Spec.lg r - Spec.lg x) (Spec.lg x)
    simpa using this
  have h4 := abs_sub_le (lgD r) (Spec.lg r) (Spec.lg x)
  have h5 := abs_nonneg (Spec.lg x)
  have hk0 : 0 ≤ k := by linarith
  have h6 : 0 ≤ k * |Spec.lg x| := mul_nonneg hk0 h5
  linarith

/-! ### The sine -/

/-- On the first quadrant the sine does not magnify relative errors. -/
theorem Spec.WithinFactor.sin {δ e' e : ℝ} (h : WithinFactor δ e' e) (h1 : e' ≤ Real.pi / 2) (h2 : e ≤ Real.pi / 2) :
    WithinFactor δ (Real.sin e') (Real.sin e) := by
  have key : ∀ a b : ℝ, 0 < a → a ≤ b → b ≤ Real.pi / 2 →
      0 ≤ Real.log (Real.sin b) - Real.log (Real.sin a) ∧
        Real.log (Real.sin b) - Real.log (Real.sin a) ≤ Real.log b - Real.log a := by
    intro a b ha hab hb
    have hpi := Real.pi_pos
    have hb0 : 0 < b := lt_of_lt_of_le ha hab
    have sa := sin_pos_elev ha (hab.trans hb)
    have sb := sin_pos_elev hb0 hb
    refine ⟨sub_nonneg.mpr (Real.log_le_log sa (Real.sin_le_sin_of_le_of_le_pi_div_two (by linarith) hb hab)), ?_⟩
    -- concavity: `sin a ≥ (a / b) sin b`
    have hc := (strictConcaveOn_sin_Icc.concaveOn).2 (show (0 : ℝ) ∈ Set.Icc 0 Real.pi by constructor <;> linarith)
      (show b ∈ Set.Icc 0 Real.pi by constructor <;> linarith)
      (show 0 ≤ 1 - a / b by rw [sub_nonneg, div_le_one hb0]; exact hab) (show 0 ≤ a / b by positivity) (by ring)
    simp only [smul_eq_mul, mul_zero, Real.sin_zero, zero_add] at hc
    rw [div_mul_cancel₀ _ hb0.ne'] at hc
    have := Real.log_le_log (by positivity) hc
    rw [Real.log_mul (by positivity) sb.ne', Real.log_div ha.ne' hb0.ne'] at this
    linarith
  refine ⟨sin_pos_elev h.1 h1, sin_pos_elev h.2.1 h2, ?_⟩
  have hd := h.2.2
  rcases le_total e e' with c | c
  · obtain ⟨k1, k2⟩ := key e e' h.2.1 c h1
    rw [abs_of_nonneg k1]
    exact k2.trans ((le_abs_self _).trans hd)
  · obtain ⟨k1, k2⟩ := key e' e h.1 c h2
    rw [abs_sub_comm, abs_of_nonneg k1]
    rw [abs_sub_comm] at hd
    exact k2.trans ((le_abs_self _).trans hd)

/-! ### The exponential saturation of GIQE 5 -/

theorem mul_exp_neg_le (a : ℝ) : a * Real.exp (-a) ≤ 0.368 := by
  have h1 := Real.add_one_le_exp (a - 1)
  have h2 : Real.exp (-a) * Real.exp (a - 1) = Real.exp (-1) := by rw [← Real.exp_add]; ring_nf
  have h3 := Real.exp_neg_one_lt_d9
  have h4 := Real.exp_pos (-a)
  nlinarith

theorem Spec.WithinFactor.exp_neg {δ a' a : ℝ} (h : WithinFactor δ a' a) (hd : δ ≤ 0.02) :
    |Real.exp (-a') - Real.exp (-a)| ≤ 0.38 * δ := by
  have key : ∀ x y : ℝ, WithinFactor δ y x → x ≤ y → |Real.exp (-y) - Real.exp (-x)| ≤ 0.38 * δ := by
    intro x y h hxy
    have e := h.error hd
    rw [abs_of_nonneg (by linarith)] at e
    have h1 : Real.exp (-y) ≤ Real.exp (-x) := Real.exp_le_exp.mpr (by linarith)
    rw [abs_sub_comm, abs_of_nonneg (by linarith)]
    have h2 := Real.add_one_le_exp (-(y - x))
    have h3 : Real.exp (-y) = Real.exp (-x) * Real.exp (-(y - x)) := by rw [← Real.exp_add]; ring_nf
    have h4 := Real.exp_pos (-x)
    have h5 := mul_exp_neg_le x
    have h0 := h.nonneg
    have h6 : Real.exp (-x) - Real.exp (-y) ≤ Real.exp (-x) * (y - x) := by rw [h3]; nlinarith
    have h7 : Real.exp (-x) * (y - x) ≤ Real.exp (-x) * (1.02 * δ * x) := mul_le_mul_of_nonneg_left e h4.le
    nlinarith
  rcases le_total a a' with c | c
  · exact key a a' h c
  · rw [abs_sub_comm]; exact key a' a h.symm c

end PyBSM
