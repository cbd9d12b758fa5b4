import Verif.Lemmas.Bessel

/-!
# Third-order expansion of the Bessel functions and of the defocused-aperture OTF at zero
-/

noncomputable section

open intervalIntegral Filter Topology

namespace PyBSM

/-! ## Equality up to fourth order -/

/-- Equal up to `O(a^4)` near zero. -/
def Eq4 (f g : ℝ → ℝ) : Prop := (fun a => f a - g a) =O[𝓝 0] fun a => a ^ 4

theorem Eq4.refl (f : ℝ → ℝ) : Eq4 f f := by
  unfold Eq4; simp only [sub_self]; exact Asymptotics.isBigO_zero _ _

theorem Eq4.trans {f g h : ℝ → ℝ} (h1 : Eq4 f g) (h2 : Eq4 g h) : Eq4 f h := by
  refine (Asymptotics.IsBigO.add h1 h2).congr_left fun a => ?_
  ring

theorem Eq4.add {f g f' g' : ℝ → ℝ} (h1 : Eq4 f g) (h2 : Eq4 f' g') :
    Eq4 (fun a => f a + f' a) (fun a => g a + g' a) := by
  refine (Asymptotics.IsBigO.add h1 h2).congr_left fun a => ?_
  ring

theorem Eq4.sub {f g f' g' : ℝ → ℝ} (h1 : Eq4 f g) (h2 : Eq4 f' g') :
    Eq4 (fun a => f a - f' a) (fun a => g a - g' a) := by
  refine (Asymptotics.IsBigO.sub h1 h2).congr_left fun a => ?_
  ring

theorem Eq4.const_mul {f g : ℝ → ℝ} (c : ℝ) (h : Eq4 f g) : Eq4 (fun a => c * f a) (fun a => c * g a) := by
  refine (Asymptotics.IsBigO.const_mul_left h c).congr_left fun a => ?_
  ring

theorem Eq4.mul {f g f' g' : ℝ → ℝ} (h1 : Eq4 f g) (h2 : Eq4 f' g') (hf' : ContinuousAt g' 0)
    (hf : ContinuousAt f 0) : Eq4 (fun a => f a * f' a) (fun a => g a * g' a) := by
  have b1 : f =O[𝓝 0] fun _ => (1 : ℝ) := hf.isBigO_one ℝ
  have b2 : g' =O[𝓝 0] fun _ => (1 : ℝ) := hf'.isBigO_one ℝ
  have e1 : (fun a => f a * (f' a - g' a)) =O[𝓝 0] fun a => a ^ 4 :=
    (b1.mul h2).trans_eventuallyEq (by filter_upwards with a; ring)
  have e2 : (fun a => (f a - g a) * g' a) =O[𝓝 0] fun a => a ^ 4 :=
    (Asymptotics.IsBigO.mul h1 b2).trans_eventuallyEq (by filter_upwards with a; ring)
  refine (e1.add e2).congr_left fun a => ?_
  ring

theorem Eq4.sin {f g : ℝ → ℝ} (h : Eq4 f g) : Eq4 (fun a => Real.sin (f a)) (fun a => Real.sin (g a)) := by
  refine Asymptotics.IsBigO.trans ?_ h
  apply Asymptotics.IsBigO.of_bound 1
  filter_upwards with a
  rw [one_mul, Real.norm_eq_abs, Real.norm_eq_abs, Real.sin_sub_sin, abs_mul, abs_mul]
  have h1 := Real.abs_sin_le_abs (x := (f a - g a) / 2)
  have h2 := Real.abs_cos_le_one ((f a + g a) / 2)
  rw [abs_div] at h1
  have h3 := abs_nonneg (Real.sin ((f a - g a) / 2))
  have h4 := abs_nonneg (Real.cos ((f a + g a) / 2))
  have h5 : |(2 : ℝ)| = 2 := by norm_num
  rw [h5] at h1 ⊢
  nlinarith

/-- A multiple of `a^4` is zero up to fourth order. -/
theorem Eq4.of_factor {f g q : ℝ → ℝ} (hq : Continuous q) (h : ∀ a, f a - g a = a ^ 4 * q a) : Eq4 f g := by
  unfold Eq4
  have b : q =O[𝓝 0] fun _ => (1 : ℝ) := hq.continuousAt.isBigO_one ℝ
  have := (Asymptotics.isBigO_refl (fun a : ℝ => a ^ 4) (𝓝 0)).mul b
  refine (this.congr_left fun a => (h a).symm).trans_eventuallyEq ?_
  filter_upwards with a; ring

theorem small_of_factor {q : ℝ → ℝ} (hq : Continuous q) (c : ℝ) (hc : 0 < c) : ∀ᶠ a in 𝓝 (0 : ℝ), |a * q a| ≤ c := by
  have : Tendsto (fun a => a * q a) (𝓝 0) (𝓝 (0 * q 0)) := (continuous_id.mul hq).tendsto 0
  rw [zero_mul] at this
  have h := this.eventually (Metric.ball_mem_nhds 0 hc)
  filter_upwards [h] with a ha
  rw [dist_zero_right, Real.norm_eq_abs] at ha
  exact ha.le

theorem factor_pow {q : ℝ → ℝ} (hq : Continuous q) (k : ℕ) (hk : 4 ≤ k) :
    (fun a => |a * q a| ^ k) =O[𝓝 0] fun a => a ^ 4 := by
  obtain ⟨j, rfl⟩ := Nat.exists_eq_add_of_le hk
  have b : (fun a => |q a| ^ (4 + j) * |a| ^ j) =O[𝓝 0] fun _ => (1 : ℝ) :=
    (by fun_prop : Continuous fun a => |q a| ^ (4 + j) * |a| ^ j).continuousAt.isBigO_one ℝ
  have := (Asymptotics.isBigO_refl (fun a : ℝ => a ^ 4) (𝓝 0)).mul b
  refine (this.congr_left fun a => ?_).trans_eventuallyEq ?_
  · rw [abs_mul, mul_pow, pow_add |a|]
    have : a ^ 4 = |a| ^ 4 := by rw [← abs_pow, abs_of_nonneg (by positivity)]
    rw [this]; ring
  · filter_upwards with a; ring

theorem Eq4.sin_cubic {q : ℝ → ℝ} (hq : Continuous q) :
    Eq4 (fun a => Real.sin (a * q a)) (fun a => a * q a - (a * q a) ^ 3 / 6) := by
  refine Asymptotics.IsBigO.trans ?_ (factor_pow hq 5 (by norm_num))
  apply Asymptotics.IsBigO.of_bound 1
  filter_upwards [small_of_factor hq 1 one_pos] with a ha
  have := Real.sin_bound ha
  rw [Real.norm_eq_abs, Real.norm_eq_abs, abs_of_nonneg (by positivity : 0 ≤ |a * q a| ^ 5)]
  have h0 : 0 ≤ |a * q a| ^ 5 := by positivity
  linarith

theorem Eq4.cos_square {q : ℝ → ℝ} (hq : Continuous q) :
    Eq4 (fun a => Real.cos (a * q a)) (fun a => 1 - (a * q a) ^ 2 / 2) := by
  refine Asymptotics.IsBigO.trans ?_ (factor_pow hq 4 le_rfl)
  apply Asymptotics.IsBigO.of_bound 1
  filter_upwards [small_of_factor hq 1 one_pos] with a ha
  have := Real.cos_bound ha
  rw [Real.norm_eq_abs, Real.norm_eq_abs, abs_of_nonneg (by positivity : 0 ≤ |a * q a| ^ 4)]
  have h0 : 0 ≤ |a * q a| ^ 4 := by positivity
  linarith

/-! ## Moments of the Bessel integrand -/

theorem integral_cos_int (m : ℤ) : ∫ t in (0 : ℝ)..Real.pi, Real.cos (m * t) = if m = 0 then Real.pi else 0 := by
  split_ifs with h
  · subst h; simp
  · have hm : (m : ℝ) ≠ 0 := by exact_mod_cast h
    rw [intervalIntegral.integral_comp_mul_left (fun x => Real.cos x) hm, integral_cos]
    simp [Real.sin_int_mul_pi]

theorem cos_ii (c : ℝ) (m : ℤ) : IntervalIntegrable (fun t : ℝ => c * Real.cos (m * t)) MeasureTheory.volume 0 Real.pi :=
  (by fun_prop : Continuous fun t : ℝ => c * Real.cos (m * t)).intervalIntegrable _ _

theorem moment_one (n : ℕ) : ∫ t in (0 : ℝ)..Real.pi, Real.sin t * Real.sin (n * t) = if n = 1 then Real.pi / 2 else 0 := by
  have e : ∀ t : ℝ, Real.sin t * Real.sin (n * t)
      = 1 / 2 * Real.cos (((n : ℤ) - 1 : ℤ) * t) - 1 / 2 * Real.cos (((n : ℤ) + 1 : ℤ) * t) := by
    intro t
    push_cast
    rw [sub_mul, add_mul, one_mul, Real.cos_sub, Real.cos_add]; ring
  simp only [e]
  rw [integral_sub (cos_ii _ _) (cos_ii _ _), integral_const_mul, integral_const_mul, integral_cos_int, integral_cos_int]
  have h1 : ((n : ℤ) - 1 = 0) ↔ n = 1 := by omega
  have h2 : ¬ ((n : ℤ) + 1 = 0) := by omega
  simp only [h1, h2, if_false]
  split_ifs <;> ring

theorem moment_two (n : ℕ) : ∫ t in (0 : ℝ)..Real.pi, Real.sin t ^ 2 * Real.cos (n * t)
    = if n = 0 then Real.pi / 2 else if n = 2 then -(Real.pi / 4) else 0 := by
  have e : ∀ t : ℝ, Real.sin t ^ 2 * Real.cos (n * t)
      = 1 / 2 * Real.cos (((n : ℤ) : ℤ) * t) - 1 / 4 * Real.cos (((n : ℤ) + 2 : ℤ) * t)
        - 1 / 4 * Real.cos (((n : ℤ) - 2 : ℤ) * t) := by
    intro t
    push_cast
    rw [sub_mul, add_mul, Real.cos_sub, Real.cos_add, Real.cos_two_mul, Real.sin_sq]; ring
  simp only [e]
  rw [integral_sub ((cos_ii _ _).sub (cos_ii _ _)) (cos_ii _ _), integral_sub (cos_ii _ _) (cos_ii _ _),
    integral_const_mul, integral_const_mul, integral_const_mul, integral_cos_int, integral_cos_int, integral_cos_int]
  have h1 : ((n : ℤ) = 0) ↔ n = 0 := by omega
  have h2 : ¬ ((n : ℤ) + 2 = 0) := by omega
  have h3 : ((n : ℤ) - 2 = 0) ↔ n = 2 := by omega
  simp only [h1, h2, h3, if_false]
  split_ifs with a b
  · omega
  · ring
  · ring
  · ring

theorem moment_three (n : ℕ) : ∫ t in (0 : ℝ)..Real.pi, Real.sin t ^ 3 * Real.sin (n * t)
    = if n = 1 then 3 * Real.pi / 8 else if n = 3 then -(Real.pi / 8) else 0 := by
  have e : ∀ t : ℝ, Real.sin t ^ 3 * Real.sin (n * t)
      = 3 / 8 * Real.cos (((n : ℤ) - 1 : ℤ) * t) - 3 / 8 * Real.cos (((n : ℤ) + 1 : ℤ) * t)
        - (1 / 8 * Real.cos (((n : ℤ) - 3 : ℤ) * t) - 1 / 8 * Real.cos (((n : ℤ) + 3 : ℤ) * t)) := by
    intro t
    push_cast
    simp only [sub_mul, add_mul, one_mul, Real.cos_sub, Real.cos_add]
    rw [Real.sin_three_mul]
    ring
  simp only [e]
  rw [integral_sub ((cos_ii _ _).sub (cos_ii _ _)) ((cos_ii _ _).sub (cos_ii _ _)), integral_sub (cos_ii _ _) (cos_ii _ _),
    integral_sub (cos_ii _ _) (cos_ii _ _), integral_const_mul, integral_const_mul, integral_const_mul, integral_const_mul,
    integral_cos_int, integral_cos_int, integral_cos_int, integral_cos_int]
  have h1 : ((n : ℤ) - 1 = 0) ↔ n = 1 := by omega
  have h2 : ¬ ((n : ℤ) + 1 = 0) := by omega
  have h3 : ((n : ℤ) - 3 = 0) ↔ n = 3 := by omega
  have h4 : ¬ ((n : ℤ) + 3 = 0) := by omega
  simp only [h1, h2, h3, h4, if_false]
  split_ifs with a b
  · omega
  · ring
  · ring
  · ring

/-- The third-order Taylor polynomial of `J_n`. -/
def besselPoly (n : ℕ) (a : ℝ) : ℝ :=
  (if n = 0 then 1 else 0) + a * (if n = 1 then 1 / 2 else 0)
    - a ^ 2 / 2 * (if n = 0 then 1 / 2 else if n = 2 then -(1 / 4) else 0)
    - a ^ 3 / 6 * (if n = 1 then 3 / 8 else if n = 3 then -(1 / 8) else 0)

theorem cos_taylor4 (c h : ℝ) (hh : |h| ≤ 1) :
    |Real.cos (c - h) - (Real.cos c + h * Real.sin c - h ^ 2 / 2 * Real.cos c - h ^ 3 / 6 * Real.sin c)| ≤ |h| ^ 4 := by
  have h1 := Real.cos_bound hh
  have h2 := Real.sin_bound hh
  have h3 : |h| ^ 5 ≤ |h| ^ 4 := pow_le_pow_of_le_one (abs_nonneg h) hh (by norm_num)
  have e : Real.cos (c - h) - (Real.cos c + h * Real.sin c - h ^ 2 / 2 * Real.cos c - h ^ 3 / 6 * Real.sin c)
      = Real.cos c * (Real.cos h - (1 - h ^ 2 / 2)) + Real.sin c * (Real.sin h - (h - h ^ 3 / 6)) := by
    rw [Real.cos_sub]; ring
  rw [e]
  calc _ ≤ |Real.cos c * (Real.cos h - (1 - h ^ 2 / 2))| + |Real.sin c * (Real.sin h - (h - h ^ 3 / 6))| := abs_add_le _ _
    _ = |Real.cos c| * |Real.cos h - (1 - h ^ 2 / 2)| + |Real.sin c| * |Real.sin h - (h - h ^ 3 / 6)| := by
        rw [abs_mul, abs_mul]
    _ ≤ 1 * (|h| ^ 4 * (5 / 96)) + 1 * (|h| ^ 5 / 100) := by
        gcongr
        · exact Real.abs_cos_le_one c
        · exact Real.abs_sin_le_one c
    _ ≤ _ := by nlinarith [pow_nonneg (abs_nonneg h) 4]

theorem besselJ_poly (n : ℕ) : Eq4 (besselJ n) (besselPoly n) := by
  apply Asymptotics.IsBigO.of_bound 1
  have hpi := Real.pi_pos
  filter_upwards [Metric.closedBall_mem_nhds (0 : ℝ) one_pos] with x hx
  rw [Metric.mem_closedBall, dist_zero_right, Real.norm_eq_abs] at hx
  rw [one_mul, Real.norm_eq_abs, Real.norm_eq_abs, abs_of_nonneg (by positivity : 0 ≤ x ^ 4)]
  have c0 : IntervalIntegrable (fun t => Real.cos (n * t - x * Real.sin t)) MeasureTheory.volume 0 Real.pi :=
    (by fun_prop : Continuous fun t => Real.cos (n * t - x * Real.sin t)).intervalIntegrable _ _
  have c1 : IntervalIntegrable (fun t : ℝ => Real.cos (n * t)) MeasureTheory.volume 0 Real.pi :=
    (by fun_prop : Continuous fun t : ℝ => Real.cos (n * t)).intervalIntegrable _ _
  have c2 : IntervalIntegrable (fun t => x * (Real.sin t * Real.sin (n * t))) MeasureTheory.volume 0 Real.pi :=
    (by fun_prop : Continuous fun t : ℝ => x * (Real.sin t * Real.sin (n * t))).intervalIntegrable _ _
  have c3 : IntervalIntegrable (fun t => x ^ 2 / 2 * (Real.sin t ^ 2 * Real.cos (n * t))) MeasureTheory.volume 0 Real.pi :=
    (by fun_prop : Continuous fun t : ℝ => x ^ 2 / 2 * (Real.sin t ^ 2 * Real.cos (n * t))).intervalIntegrable _ _
  have c4 : IntervalIntegrable (fun t => x ^ 3 / 6 * (Real.sin t ^ 3 * Real.sin (n * t))) MeasureTheory.volume 0 Real.pi :=
    (by fun_prop : Continuous fun t : ℝ => x ^ 3 / 6 * (Real.sin t ^ 3 * Real.sin (n * t))).intervalIntegrable _ _
  have m0 : ∫ t in (0 : ℝ)..Real.pi, Real.cos (n * t) = if n = 0 then Real.pi else 0 := by
    have := integral_cos_int (n : ℤ)
    simpa using this
  have e : besselJ n x - besselPoly n x = (1 / Real.pi) *
      ∫ t in (0 : ℝ)..Real.pi, (Real.cos (n * t - x * Real.sin t) - (Real.cos (n * t) + x * (Real.sin t * Real.sin (n * t))
        - x ^ 2 / 2 * (Real.sin t ^ 2 * Real.cos (n * t)) - x ^ 3 / 6 * (Real.sin t ^ 3 * Real.sin (n * t)))) := by
    rw [integral_sub c0 (((c1.add c2).sub c3).sub c4), integral_sub ((c1.add c2).sub c3) c4, integral_sub (c1.add c2) c3,
      integral_add c1 c2, integral_const_mul, integral_const_mul, integral_const_mul, m0, moment_one, moment_two, moment_three]
    unfold besselJ besselPoly
    have hp := hpi.ne'
    rw [mul_sub]
    congr 1
    split_ifs <;> field_simp <;> ring
  rw [e, abs_mul, abs_of_pos (by positivity : 0 < 1 / Real.pi)]
  have hb : ‖∫ t in (0 : ℝ)..Real.pi, (Real.cos (n * t - x * Real.sin t) - (Real.cos (n * t) + x * (Real.sin t * Real.sin (n * t))
        - x ^ 2 / 2 * (Real.sin t ^ 2 * Real.cos (n * t)) - x ^ 3 / 6 * (Real.sin t ^ 3 * Real.sin (n * t))))‖
      ≤ x ^ 4 * |Real.pi - 0| := by
    apply intervalIntegral.norm_integral_le_of_norm_le_const
    intro t _
    rw [Real.norm_eq_abs]
    have hs := Real.abs_sin_le_one t
    have hle : |x * Real.sin t| ≤ |x| := by
      rw [abs_mul]; nlinarith [abs_nonneg x]
    have := cos_taylor4 (n * t) (x * Real.sin t) (hle.trans hx)
    have e2 : Real.cos (n * t) + x * (Real.sin t * Real.sin (n * t)) - x ^ 2 / 2 * (Real.sin t ^ 2 * Real.cos (n * t))
          - x ^ 3 / 6 * (Real.sin t ^ 3 * Real.sin (n * t))
        = Real.cos (n * t) + x * Real.sin t * Real.sin (n * t) - (x * Real.sin t) ^ 2 / 2 * Real.cos (n * t)
          - (x * Real.sin t) ^ 3 / 6 * Real.sin (n * t) := by ring
    rw [e2]
    refine this.trans ?_
    calc |x * Real.sin t| ^ 4 ≤ |x| ^ 4 := by gcongr
      _ = x ^ 4 := by rw [← abs_pow, abs_of_nonneg (by positivity)]
  rw [Real.norm_eq_abs, sub_zero, abs_of_pos hpi] at hb
  calc 1 / Real.pi * _ ≤ 1 / Real.pi * (x ^ 4 * Real.pi) := by gcongr
    _ = x ^ 4 := by field_simp

end PyBSM
