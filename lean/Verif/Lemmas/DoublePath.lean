import Verif.Model.DoubleTurbulence
import Verif.Props.DoubleGeometry
import Verif.Spec.Turbulence

/-!
# Rounding errors along the line of sight
-/

noncomputable section

open Classical

namespace PyBSM

open Spec

variable {fl cosD acosD : ℝ → ℝ}

/-- What the program knows of slant range and nadir angle off nadir: the square of the slant range `b` to 0.172 m², and a
number `x` whose arc cosine is the nadir angle. -/
theorem nadir_facts (hfl : RoundsToNearest fl) (hc : IsCosine cosD) {h g : ℝ} (h0 : 2 ≤ h)
    (h1 : h ≤ 1000000) (g0 : 1 ≤ g) (g1 : g ≤ 1000000) :
    ∃ b x, slantRangeD fl cosD 0 h g = .fin b ∧ IsDouble b ∧ 0 < b ∧ 0.982 * Real.sqrt (sq2 0 h g) ≤ b
      ∧ |b - Real.sqrt (sq2 0 h g)| ≤ 0.087 / Real.sqrt (sq2 0 h g)
      ∧ |b ^ 2 - sq2 0 h g| ≤ 0.172 ∧ 4.99 ≤ sq2 0 h g ∧ sq2 0 h g ≤ 2.161e12
      ∧ nadirAngleD fl acosD 0 h (.fin b) = .fin (acosD x) ∧ 0 ≤ x ∧ x ≤ 1
      ∧ |2 * (6378164 + h) * b * x - ((6378164 + h) ^ 2 + sq2 0 h g - 6378164 ^ 2)| ≤ 0.216 := by
  obtain ⟨q0, q1, c0, s0⟩ := arc_bounds h0 h1 g0 g1
  have c1 := Real.cos_le_one (g / 6378164)
  have hQ : sq2 0 h g = 6378164 ^ 2 + (6378164 + h) ^ 2 - 2 * (6378164 + h) * 6378164 * Real.cos (g / 6378164) := by
    unfold sq2; norm_num [R]
  generalize sq2 0 h g = Q at *
  have hg2 : 1 ≤ g ^ 2 := one_le_pow₀ g0
  have hg2' : g ^ 2 ≤ 1e12 := (pow_le_pow_left₀ (by linarith) g1 2).trans (by norm_num)
  have hh2 : 4 ≤ h ^ 2 := le_trans (by norm_num) (pow_le_pow_left₀ (by norm_num) h0 2)
  have hh2' : h ^ 2 ≤ 1e12 := (pow_le_pow_left₀ (by linarith) h1 2).trans (by norm_num)
  have hQ' : Q = h ^ 2 + 2 * (6378164 + h) * 6378164 * (1 - Real.cos (g / 6378164)) := by rw [hQ]; ring
  have hQl : h ^ 2 + 0.99 ≤ Q := by rw [hQ']; linarith
  have hQu : Q ≤ 2.161e12 := by rw [hQ']; linarith
  have hQ0 : 0 < Q := by linarith
  have hdd := Real.sq_sqrt hQ0.le
  have hdl : 2.21 ≤ Real.sqrt Q := by
    rw [Real.le_sqrt' (by norm_num)]
    have : (2.21 : ℝ) ^ 2 ≤ 4.9 := by norm_num
    linarith
  have hrad := sensor_radius hfl h0 h1
  have hur := under_root hfl (a0 := 6378164 + h) (by linarith) (by linarith) hrad c0 c1 (cosine_argument hfl hc g0 g1)
  rw [← hQ] at hur
  obtain ⟨r0, r1, r2⟩ := root_error hfl (by linarith) (by linarith) hur
  have ht : fl (6378164 + 0) = 6378164 := by
    have := fl_target hfl
    rwa [show rEarth = 6378164 by norm_num [rEarth]] at this
  have hslD : slantRangeD fl cosD 0 h g = .fin (fl (Real.sqrt (fl (fl (6378164 ^ 2 + fl (fl (6378164 + h) ^ 2))
      - fl (fl (fl (2 * fl (6378164 + h)) * 6378164) * cosD (fl (g / 6378164))))))) := by
    unfold slantRangeD
    simp only [show rEarth = 6378164 by norm_num [rEarth], ht, fl_target_sq hfl]
    rw [if_neg (not_lt.mpr r0)]
  have hdouble : IsDouble (fl (Real.sqrt (fl (fl (6378164 ^ 2 + fl (fl (6378164 + h) ^ 2))
      - fl (fl (fl (2 * fl (6378164 + h)) * 6378164) * cosD (fl (g / 6378164))))))) := (hfl _).1
  generalize fl (Real.sqrt (fl (fl (6378164 ^ 2 + fl (fl (6378164 + h) ^ 2))
      - fl (fl (fl (2 * fl (6378164 + h)) * 6378164) * cosD (fl (g / 6378164)))))) = b at *
  obtain ⟨p1, p2⟩ := nadir_parts hfl (a0 := 6378164 + h) (by linarith) (by linarith) hrad (by linarith) (by linarith) r1 r2
  obtain ⟨o1, o2, o3⟩ := nadir_order h0 h1 r1 r2 hQl hQu p1 p2
  have hx : cosNadirD fl 0 h b = fl (-fl (fl (6378164 ^ 2 - fl (fl (6378164 + h) ^ 2)) - fl (b ^ 2))
      / fl (fl (2 * fl (6378164 + h)) * b)) := by
    unfold cosNadirD
    simp only [show rEarth = 6378164 by norm_num [rEarth], ht, fl_target_sq hfl, neg_one_mul]
    rw [hfl.self (hfl _).1.neg]
  have hDD : fl (fl (2 * fl (rEarth + h)) * b) = fl (fl (2 * fl (6378164 + h)) * b) := by
    rw [show rEarth = 6378164 by norm_num [rEarth]]
  generalize fl (fl (2 * fl (6378164 + h)) * b) = D at *
  generalize -fl (fl (6378164 ^ 2 - fl (fl (6378164 + h) ^ 2)) - fl (b ^ 2)) = N at *
  have hf1 : fl 1 = 1 := fl_dyadic hfl 1 0 (by norm_num) (by norm_num)
  have hq0 : 0 ≤ N / D := div_nonneg o1 o3.le
  have hq1 : N / D ≤ 1 := (div_le_one o3).mpr o2
  have hx0 : 0 ≤ fl (N / D) := by rw [← hfl.zero]; exact hfl.mono hq0
  have hx1 : fl (N / D) ≤ 1 := by
    have := hfl.mono hq1
    rwa [hf1] at this
  have hrd := root_diff r1 hdl (by rw [hdd]; exact r2)
  refine ⟨b, fl (N / D), hslD, hdouble, r1, hrd.1, hrd.2.2, r2, by linarith, hQu, ?_, hx0, hx1, ?_⟩
  · unfold nadirAngleD
    simp only [hDD, if_neg o3.ne', hx]
    rw [if_pos (by rw [abs_of_nonneg hx0]; exact hx1)]
  · have e1 := hfl.error_le (x := N / D) (M := 1) (by rw [abs_of_nonneg hq0]; exact hq1)
    have hb1 : b ≤ 1.4701e6 := by
      obtain ⟨r3, r4⟩ := abs_le.mp r2
      by_contra hcon
      have : (1.4701e6 : ℝ) ^ 2 ≤ b ^ 2 := pow_le_pow_left₀ (by norm_num) (by linarith) 2
      norm_num at this
      linarith
    have hab0 : 0 < 2 * (6378164 + h) * b := by positivity
    have hab : 2 * (6378164 + h) * b ≤ 2 * 7378164 * 1.4701e6 :=
      mul_le_mul (by linarith) hb1 r1.le (by norm_num)
    have e2 : |2 * (6378164 + h) * b * (fl (N / D) - N / D)| ≤ 0.003 := by
      rw [abs_mul, abs_of_pos hab0]
      exact (mul_le_mul hab e1 (abs_nonneg _) (by norm_num)).trans (by norm_num)
    have e3 : |2 * (6378164 + h) * b * (N / D) - N| ≤ 0.0095 := by
      have : 2 * (6378164 + h) * b * (N / D) - N = -(D - 2 * (6378164 + h) * b) * (N / D) := by
        field_simp
        ring
      rw [this, abs_mul, abs_neg, abs_of_nonneg hq0]
      refine (mul_le_mul p2 hq1 hq0 (by positivity)).trans ?_
      linarith
    have p1' := abs_le.mp p1
    have e2' := abs_le.mp e2
    have e3' := abs_le.mp e3
    rw [mul_sub] at e2'
    rw [abs_le]; constructor <;> linarith

/-- Positions along the path. -/
theorem position_near (hfl : RoundsToNearest fl) {b : ℝ} (hd : IsDouble b) (hb : 0 ≤ b) {j : ℕ} (hj : j ≤ 9999) :
    |linspaceD fl 0 b 10000 j - (j : ℝ) / 9999 * b| ≤ 4e-16 * ((j : ℝ) / 9999 * b) := by
  unfold linspaceD
  by_cases h : j + 1 = 10000
  · rw [if_pos h]
    have : (j : ℝ) = 9999 := by
      have : j = 9999 := by omega
      rw [this]; norm_num
    rw [this, div_self (by norm_num), one_mul, sub_self, abs_zero]
    linarith
  · rw [if_neg h, sub_zero, hfl.self hd, add_zero, hfl.self (hfl _).1, show ((10000 : ℕ) : ℝ) - 1 = 9999 by norm_num]
    have e1 := hfl.error (b / 9999)
    rw [abs_of_nonneg (by positivity : 0 ≤ b / 9999)] at e1
    have hj0 : (0 : ℝ) ≤ j := Nat.cast_nonneg j
    have e2 := hfl.error (j * fl (b / 9999))
    have e3 : |(j : ℝ) * fl (b / 9999) - (j : ℝ) / 9999 * b| ≤ 1.2e-16 * ((j : ℝ) / 9999 * b) := by
      rw [show (j : ℝ) * fl (b / 9999) - (j : ℝ) / 9999 * b = j * (fl (b / 9999) - b / 9999) by ring, abs_mul, abs_of_nonneg hj0]
      calc _ ≤ (j : ℝ) * (1.2e-16 * (b / 9999)) := mul_le_mul_of_nonneg_left e1 hj0
        _ = _ := by ring
    have hp : 0 ≤ (j : ℝ) / 9999 * b := by positivity
    generalize (j : ℝ) / 9999 * b = P at *
    generalize (j : ℝ) * fl (b / 9999) = X at *
    have e4 : |X| ≤ 2 * P := by
      obtain ⟨a1, a2⟩ := abs_le.mp e3
      rw [abs_le]; constructor <;> linarith
    have := abs_sub_le (fl X) X P
    linarith

/-- The cosine of the computed nadir angle. -/
theorem cos_acos_near (hc : IsCosine cosD) (ha : IsArccos acosD) {x : ℝ} (hx0 : 0 ≤ x) (hx1 : x ≤ 1) :
    |cosD (acosD x) - x| ≤ 2.4e-15 := by
  have h1 := hc.accurate (acosD x)
  have h2 := ha.accurate x (by rw [abs_of_nonneg hx0]; exact hx1)
  have h3 : Real.arccos x ≤ 1.5708 := by
    have := Real.arccos_le_pi_div_two.mpr hx0
    linarith [Real.pi_lt_d6]
  have h4 := Real.abs_cos_sub_cos_le (acosD x) (Real.arccos x)
  rw [Real.cos_arccos (by linarith) hx1] at h4
  have h5 : (2 : ℝ) ^ (-50 : ℤ) * |Real.cos (acosD x)| ≤ 8.9e-16 :=
    (mul_le_mul_of_nonneg_left (Real.abs_cos_le_one _) (by positivity)).trans (by norm_num)
  have h6 : (2 : ℝ) ^ (-50 : ℤ) * Real.arccos x ≤ 1.4e-15 := (mul_le_mul_of_nonneg_left h3 (by positivity)).trans (by norm_num)
  have h7 := abs_sub_le (cosD (acosD x)) (Real.cos (acosD x)) x
  have h8 := h1.trans h5
  have h9 := h2.trans h6
  linarith

/-- What is under the square root of the height at one point of the path is known to half a square metre. -/
theorem path_root (hfl : RoundsToNearest fl) {a0 a b C Q β τ : ℝ} (ha0 : 6378166 ≤ a0) (ha0' : a0 ≤ 7378164)
    (ha : |a - a0| ≤ 9e-10) (hb0 : 0 < b) (hb1 : b ≤ 1.4701e6) (hQ : |b ^ 2 - Q| ≤ 0.172)
    (hC : |2 * a0 * b * C - (a0 ^ 2 + Q - 6378164 ^ 2)| ≤ 0.27) (hC0 : |C| ≤ 1.01)
    (t0 : 0 ≤ τ) (t1 : τ ≤ 1) (hβ : |β - τ * b| ≤ 4e-16 * (τ * b)) :
    |fl (fl (fl (a ^ 2) + fl (β ^ 2)) - fl (fl (fl (2 * a) * β) * C))
      - (a0 ^ 2 + τ ^ 2 * Q - τ * (a0 ^ 2 + Q - 6378164 ^ 2))| ≤ 0.53 := by
  have hs := abs_le.mp (sensor_sq hfl ha0 ha0' ha)
  have hm := abs_le.mp (double_radius hfl ha0 ha0' ha)
  have hsq : a0 ^ 2 ≤ 7378164 ^ 2 := pow_le_pow_left₀ (by linarith) ha0' 2
  have hsq0 : 0 ≤ a0 ^ 2 := sq_nonneg _
  generalize fl (a ^ 2) = s at *
  generalize fl (2 * a) = m at *
  have hP0 : 0 ≤ τ * b := by positivity
  have hP1 : τ * b ≤ 1.4701e6 := by nlinarith
  -- the square of the position
  have hPP : (τ * b) ^ 2 ≤ 1.4701e6 ^ 2 := pow_le_pow_left₀ hP0 hP1 2
  have hββ : |β ^ 2 - (τ * b) ^ 2| ≤ 0.002 := by
    have e : β ^ 2 - (τ * b) ^ 2 = (β - τ * b) * (β + τ * b) := by ring
    obtain ⟨β1, β2⟩ := abs_le.mp hβ
    rw [e, abs_mul]
    calc _ ≤ (4e-16 * 1.4701e6) * 3e6 := mul_le_mul (hβ.trans (by linarith)) (by rw [abs_le]; constructor <;> linarith) (abs_nonneg _) (by norm_num)
      _ ≤ _ := by norm_num
  have hββ' := abs_le.mp hββ
  have hτQ : |τ ^ 2 * b ^ 2 - τ ^ 2 * Q| ≤ 0.172 := by
    rw [← mul_sub, abs_mul, abs_of_nonneg (sq_nonneg τ)]
    calc _ ≤ 1 * |b ^ 2 - Q| := mul_le_mul_of_nonneg_right (by nlinarith) (abs_nonneg _)
      _ ≤ _ := by linarith
  have hτQ' := abs_le.mp hτQ
  -- the product
  have hprod : |m * β * C - τ * (a0 ^ 2 + Q - 6378164 ^ 2)| ≤ 0.3 ∧ |m * β| ≤ 2.171e13 ∧ |m * β * C| ≤ 2.2e13 := by
    have e1 : |m * β - 2 * a0 * (τ * b)| ≤ 0.015 := by
      have e : m * β - 2 * a0 * (τ * b) = (m - 2 * a0) * β + 2 * a0 * (β - τ * b) := by ring
      obtain ⟨β1, β2⟩ := abs_le.mp hβ
      have f1 : |(m - 2 * a0) * β| ≤ 3.6e-9 * 1.471e6 := by
        rw [abs_mul]
        exact mul_le_mul (abs_le.mpr hm) (by rw [abs_le]; constructor <;> linarith) (abs_nonneg _) (by norm_num)
      have f2 : |2 * a0 * (β - τ * b)| ≤ 2 * 7378164 * (4e-16 * 1.4701e6) := by
        rw [abs_mul, abs_of_nonneg (by linarith)]
        exact mul_le_mul (by linarith) (hβ.trans (by linarith)) (abs_nonneg _) (by norm_num)
      rw [e]
      exact (abs_add_le _ _).trans ((add_le_add f1 f2).trans (by norm_num))
    have e2 : 2 * a0 * (τ * b) ≤ 2 * 7378164 * 1.4701e6 := mul_le_mul (by linarith) hP1 hP0 (by norm_num)
    have e20 : 0 ≤ 2 * a0 * (τ * b) := mul_nonneg (by linarith) hP0
    have e3 : |m * β * C - τ * (2 * a0 * b * C)| ≤ 0.0152 := by
      rw [show m * β * C - τ * (2 * a0 * b * C) = (m * β - 2 * a0 * (τ * b)) * C by ring, abs_mul]
      exact (mul_le_mul e1 hC0 (abs_nonneg _) (by norm_num)).trans (by norm_num)
    have e4 : |τ * (2 * a0 * b * C) - τ * (a0 ^ 2 + Q - 6378164 ^ 2)| ≤ 0.27 := by
      rw [← mul_sub, abs_mul, abs_of_nonneg t0]
      calc _ ≤ 1 * |2 * a0 * b * C - (a0 ^ 2 + Q - 6378164 ^ 2)| := mul_le_mul_of_nonneg_right t1 (abs_nonneg _)
        _ ≤ _ := by linarith
    have e5 := abs_sub_le (m * β * C) (τ * (2 * a0 * b * C)) (τ * (a0 ^ 2 + Q - 6378164 ^ 2))
    have e6 : |m * β| ≤ 2.171e13 := by
      obtain ⟨k1, k2⟩ := abs_le.mp e1
      rw [abs_le]; constructor <;> linarith
    refine ⟨e5.trans ((add_le_add e3 e4).trans (by norm_num)), e6, ?_⟩
    rw [abs_mul]
    exact (mul_le_mul e6 hC0 (abs_nonneg _) (by norm_num)).trans (by norm_num)
  obtain ⟨k1, k2, k3⟩ := hprod
  have k1' := abs_le.mp k1
  have k3' := abs_le.mp k3
  have hu := hfl.error_le k2
  have hu' : |fl (m * β) * C - m * β * C| ≤ 0.003 := by
    rw [← sub_mul, abs_mul]
    exact (mul_le_mul hu hC0 (abs_nonneg _) (by norm_num)).trans (by norm_num)
  have hu'' := abs_le.mp hu'
  generalize fl (m * β) = w at *
  generalize m * β * C = K at *
  have hw := abs_le.mp (hfl.error_le (x := w * C) (M := 2.3e13) (by rw [abs_le]; constructor <;> linarith))
  generalize fl (w * C) = W at *
  rw [mul_pow] at hββ' hPP
  have hτb : 0 ≤ τ ^ 2 * b ^ 2 := by positivity
  generalize τ ^ 2 * b ^ 2 = B at *
  have hB := abs_le.mp (hfl.error_le (x := β ^ 2) (M := 2.17e12) (by rw [abs_le]; constructor <;> linarith))
  generalize fl (β ^ 2) = B' at *
  have hS := abs_le.mp (hfl.error_le (x := s + B') (M := 5.7e13) (by rw [abs_le]; constructor <;> linarith))
  generalize fl (s + B') = S at *
  have hT := abs_le.mp (hfl.error_le (x := S - W) (M := 8.1e13) (by rw [abs_le]; constructor <;> linarith))
  rw [abs_le]; constructor <;> linarith

/-- The square of the distance of a point of the path from the centre of the Earth. -/
theorem pathHeight_eq (h g t : ℝ) : pathHeight h g t
    = Real.sqrt ((6378164 + h) ^ 2 + (1 - t) ^ 2 * sq2 0 h g - (1 - t) * ((6378164 + h) ^ 2 + sq2 0 h g - 6378164 ^ 2)) - 6378164 := by
  have hR : R = 6378164 := rfl
  unfold pathHeight heightOf pdist
  rw [hR]
  congr 2
  have := Real.sin_sq_add_cos_sq (g / 6378164)
  simp only [between, pointAt, zero_div, Real.sin_zero, Real.cos_zero, Prod.fst_add, Prod.fst_zero, Prod.snd_zero,
          Prod.snd_add, Prod.smul_fst, Prod.smul_snd, Prod.fst_sub, Prod.snd_sub, smul_eq_mul, sq2, hR]
  linear_combination ((1 - t) ^ 2 * 6378164 ^ 2) * this

/-- Computed heights along the path. -/
theorem height_near (hfl : RoundsToNearest fl) (hc : IsCosine cosD) (ha : IsArccos acosD) {h b x Q : ℝ} (h0 : 2 ≤ h)
    (h1 : h ≤ 1000000) (hd : IsDouble b) (hb0 : 0 < b) (hbQ : |b ^ 2 - Q| ≤ 0.172) (hQ1 : Q ≤ 2.161e12) (hQ0 : 0 ≤ Q)
    (x0 : 0 ≤ x) (x1 : x ≤ 1)
    (hx : |2 * (6378164 + h) * b * x - ((6378164 + h) ^ 2 + Q - 6378164 ^ 2)| ≤ 0.216) {i : ℕ} (hi : i < 10000) :
    ∃ y, pathHeightD fl cosD h b (.fin (acosD x)) i = .fin y
      ∧ |y - (Real.sqrt ((6378164 + h) ^ 2 + (1 - (i : ℝ) / 9999) ^ 2 * Q
          - (1 - (i : ℝ) / 9999) * ((6378164 + h) ^ 2 + Q - 6378164 ^ 2)) - 6378164)| ≤ 5e-8
      ∧ -78200 ≤ Real.sqrt ((6378164 + h) ^ 2 + (1 - (i : ℝ) / 9999) ^ 2 * Q
          - (1 - (i : ℝ) / 9999) * ((6378164 + h) ^ 2 + Q - 6378164 ^ 2)) - 6378164
      ∧ Real.sqrt ((6378164 + h) ^ 2 + (1 - (i : ℝ) / 9999) ^ 2 * Q
          - (1 - (i : ℝ) / 9999) * ((6378164 + h) ^ 2 + Q - 6378164 ^ 2)) - 6378164 ≤ 1000000 := by
  have hb1 : b ≤ 1.4701e6 := by
    obtain ⟨r3, r4⟩ := abs_le.mp hbQ
    by_contra hcon
    have : (1.4701e6 : ℝ) ^ 2 ≤ b ^ 2 := pow_le_pow_left₀ (by norm_num) (by linarith) 2
    norm_num at this
    linarith
  have hC := cos_acos_near hc ha x0 x1
  generalize hCC : cosD (acosD x) = C at *
  obtain ⟨C1, C2⟩ := abs_le.mp hC
  have hab0 : 0 < 2 * (6378164 + h) * b := by positivity
  have hab : 2 * (6378164 + h) * b ≤ 2 * 7378164 * 1.4701e6 := mul_le_mul (by linarith) hb1 hb0.le (by norm_num)
  have hC' : |2 * (6378164 + h) * b * C - ((6378164 + h) ^ 2 + Q - 6378164 ^ 2)| ≤ 0.27 := by
    have e : |2 * (6378164 + h) * b * C - 2 * (6378164 + h) * b * x| ≤ 0.053 := by
      rw [← mul_sub, abs_mul, abs_of_pos hab0]
      exact (mul_le_mul hab hC (abs_nonneg _) (by norm_num)).trans (by norm_num)
    have := abs_sub_le (2 * (6378164 + h) * b * C) (2 * (6378164 + h) * b * x) ((6378164 + h) ^ 2 + Q - 6378164 ^ 2)
    exact this.trans ((add_le_add e hx).trans (by norm_num))
  obtain ⟨j, hj⟩ : ∃ j, j = 9999 - i := ⟨_, rfl⟩
  have hjr : (j : ℝ) / 9999 = 1 - (i : ℝ) / 9999 := by
    rw [hj, Nat.cast_sub (by omega)]
    push_cast
    ring
  have t0 : 0 ≤ (j : ℝ) / 9999 := by positivity
  have t1 : (j : ℝ) / 9999 ≤ 1 := by
    rw [hjr]
    have : 0 ≤ (i : ℝ) / 9999 := by positivity
    linarith
  have hβ := position_near hfl hd hb0.le (j := j) (by omega)
  have hroot := path_root hfl (a0 := 6378164 + h) (by linarith) (by linarith) (sensor_radius hfl h0 h1) hb0 hb1 hbQ hC'
    (by rw [abs_le]; constructor <;> linarith) t0 t1 hβ
  rw [hjr] at t0 t1 hroot
  have hT0 : 4e13 ≤ (6378164 + h) ^ 2 + (1 - (i : ℝ) / 9999) ^ 2 * Q
      - (1 - (i : ℝ) / 9999) * ((6378164 + h) ^ 2 + Q - 6378164 ^ 2) := by
    generalize 1 - (i : ℝ) / 9999 = τ at *
    have e : (6378164 + h) ^ 2 + τ ^ 2 * Q - τ * ((6378164 + h) ^ 2 + Q - 6378164 ^ 2)
        = 6378164 ^ 2 + (1 - τ) * (2 * 6378164 * h + h ^ 2) - τ * (1 - τ) * Q := by ring
    have e1 : τ * (1 - τ) ≤ 1 / 4 := by nlinarith [sq_nonneg (τ - 1 / 2)]
    have e2 : τ * (1 - τ) * Q ≤ 1 / 4 * 2.161e12 := mul_le_mul e1 hQ1 hQ0 (by norm_num)
    have e3 : 0 ≤ (1 - τ) * (2 * 6378164 * h + h ^ 2) := mul_nonneg (by linarith) (by positivity)
    rw [e]
    linarith
  have hT1 : (6378164 + h) ^ 2 + (1 - (i : ℝ) / 9999) ^ 2 * Q
      - (1 - (i : ℝ) / 9999) * ((6378164 + h) ^ 2 + Q - 6378164 ^ 2) ≤ 7378164 ^ 2 := by
    generalize 1 - (i : ℝ) / 9999 = τ at *
    have e : (6378164 + h) ^ 2 + τ ^ 2 * Q - τ * ((6378164 + h) ^ 2 + Q - 6378164 ^ 2)
        = (6378164 + h) ^ 2 - τ * (2 * 6378164 * h + h ^ 2) - τ * (1 - τ) * Q := by ring
    have e1 : 0 ≤ τ * (2 * 6378164 * h + h ^ 2) := by positivity
    have e2 : 0 ≤ τ * (1 - τ) * Q := mul_nonneg (mul_nonneg t0 (by linarith)) hQ0
    have e3 : (6378164 + h) ^ 2 ≤ 7378164 ^ 2 := pow_le_pow_left₀ (by linarith) (by linarith) 2
    rw [e]
    linarith
  unfold pathHeightD
  simp only [show rEarth = 6378164 by norm_num [rEarth], ← hj, hCC]
  generalize (6378164 + h) ^ 2 + (1 - (i : ℝ) / 9999) ^ 2 * Q
      - (1 - (i : ℝ) / 9999) * ((6378164 + h) ^ 2 + Q - 6378164 ^ 2) = T at *
  generalize fl (fl (fl (fl (6378164 + h) ^ 2) + fl (linspaceD fl 0 b 10000 j ^ 2))
    - fl (fl (fl (2 * fl (6378164 + h)) * linspaceD fl 0 b 10000 j) * C)) = q at *
  obtain ⟨q1, q2⟩ := abs_le.mp hroot
  rw [if_neg (by linarith)]
  refine ⟨_, rfl, ?_, ?_⟩
  · have hs0 : (6.3e6 : ℝ) ≤ Real.sqrt T := by
      rw [Real.le_sqrt' (by norm_num)]
      linarith [show (6.3e6 : ℝ) ^ 2 ≤ 4e13 by norm_num]
    have hs1 : Real.sqrt T ≤ 7378164 := by rw [Real.sqrt_le_left (by norm_num)]; exact hT1
    have hq0 : (6.3e6 : ℝ) ≤ Real.sqrt q := by
      rw [Real.le_sqrt' (by norm_num)]
      linarith [show (6.3e6 : ℝ) ^ 2 ≤ 3.99e13 by norm_num]
    have eT := Real.sq_sqrt (show 0 ≤ T by linarith)
    have eq := Real.sq_sqrt (show 0 ≤ q by linarith)
    generalize Real.sqrt T = S at *
    generalize Real.sqrt q = s at *
    have hdiff : |s - S| ≤ 4.3e-8 := by
      have e : |s - S| * (s + S) ≤ 0.53 := by
        rw [show |s - S| * (s + S) = |q - T| by
          rw [← eT, ← eq, show s ^ 2 - S ^ 2 = (s - S) * (s + S) by ring, abs_mul, abs_of_nonneg (by linarith : 0 ≤ s + S)]]
        exact hroot
      have e1 : |s - S| * 1.26e7 ≤ |s - S| * (s + S) := mul_le_mul_of_nonneg_left (by linarith) (abs_nonneg _)
      linarith
    obtain ⟨d1, d2⟩ := abs_le.mp hdiff
    have f1 := abs_le.mp (hfl.error_le (x := s) (M := 7378165) (by rw [abs_le]; constructor <;> linarith))
    generalize fl s = s' at *
    have f2 := abs_le.mp (hfl.error_le (x := s' - 6378164) (M := 1000002) (by rw [abs_le]; constructor <;> linarith))
    rw [abs_le]; constructor <;> linarith
  · have hs0 : (6.3e6 : ℝ) ≤ Real.sqrt T := by
      rw [Real.le_sqrt' (by norm_num)]
      linarith [show (6.3e6 : ℝ) ^ 2 ≤ 4e13 by norm_num]
    have hs1 : Real.sqrt T ≤ 7378164 := by rw [Real.sqrt_le_left (by norm_num)]; exact hT1
    constructor <;> linarith

end PyBSM
