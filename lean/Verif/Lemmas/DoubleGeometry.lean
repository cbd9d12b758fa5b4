import Verif.Lemmas.Double
import Mathlib.Analysis.SpecialFunctions.Trigonometric.Bounds
import Mathlib.Analysis.SpecialFunctions.Trigonometric.Inverse

/-!
# Error budget of the viewing geometry (C106)

The radius of the earth is written out, 6378164 m. Altitudes lie between 2 m and 1000 km, ground ranges between 1 m and
1000 km.
-/

noncomputable section

namespace PyBSM

variable {fl : ℝ → ℝ}

theorem RoundsToNearest.error_le (hfl : RoundsToNearest fl) {x M : ℝ} (h : |x| ≤ M) : |fl x - x| ≤ 1.2e-16 * M :=
  (hfl.error x).trans (mul_le_mul_of_nonneg_left h (by norm_num))

/-- The slant range squared exceeds the altitude squared by about the ground range squared. -/
theorem arc_bounds {h g : ℝ} (h0 : 2 ≤ h) (h1 : h ≤ 1000000) (g0 : 1 ≤ g) (g1 : g ≤ 1000000) :
    0.99 * g ^ 2 ≤ 2 * (6378164 + h) * 6378164 * (1 - Real.cos (g / 6378164))
      ∧ 2 * (6378164 + h) * 6378164 * (1 - Real.cos (g / 6378164)) ≤ 1.16 * g ^ 2
      ∧ 0 ≤ Real.cos (g / 6378164) ∧ 0.99 * g ≤ 6378164 * Real.sin (g / 6378164) := by
  obtain ⟨x, hx⟩ : ∃ x, x = g / 6378164 := ⟨_, rfl⟩
  have hg : g = 6378164 * x := by rw [hx]; ring
  rw [← hx]
  have x0 : 0 < x := by rw [hx]; positivity
  have x1 : x ≤ 0.157 := by rw [hx, div_le_iff₀ (by norm_num)]; linarith
  have hx2 : x ^ 2 ≤ 0.157 ^ 2 := pow_le_pow_left₀ x0.le x1 2
  have hb := Real.cos_bound (x := x) (by rw [abs_of_pos x0]; linarith)
  rw [abs_of_pos x0, abs_le] at hb
  have h4 : x ^ 4 ≤ 0.025 * x ^ 2 := by nlinarith [sq_nonneg x]
  have hlow := Real.one_sub_sq_div_two_le_cos (x := x)
  have hup : 0.4955 * x ^ 2 ≤ 1 - Real.cos x := by linarith [hb.2]
  have hs := Real.sin_gt_sub_cube x0
  have hcos : 0 ≤ Real.cos x := by linarith
  have h3 : x ^ 3 ≤ 0.025 * x := by nlinarith
  refine ⟨?_, ?_, hcos, ?_⟩
  · rw [hg]
    have e1 : (6378164 : ℝ) ^ 2 * (2 * (1 - Real.cos x)) ≤ 2 * (6378164 + h) * 6378164 * (1 - Real.cos x) := by
      have : 0 ≤ h * (1 - Real.cos x) := mul_nonneg (by linarith) (by nlinarith [sq_nonneg x])
      nlinarith
    refine le_trans ?_ e1
    nlinarith
  · rw [hg]
    have e1 : 2 * (6378164 + h) * 6378164 * (1 - Real.cos x) ≤ 2 * (6378164 + h) * 6378164 * (x ^ 2 / 2) :=
      mul_le_mul_of_nonneg_left (by linarith) (by positivity)
    refine e1.trans ?_
    have : h * x ^ 2 ≤ 1000000 * x ^ 2 := mul_le_mul_of_nonneg_right h1 (sq_nonneg x)
    nlinarith
  · rw [hg]
    nlinarith

/-- The product under the square root. -/
theorem product_error {a0 u t C : ℝ} (ha : a0 ≤ 7378164) (ha' : 0 ≤ a0) (hu0 : 0 ≤ u) (hu : u ≤ 1)
    (ht : |t - 2 * a0 * 6378164| ≤ 0.0346) (hC : |C - u| ≤ 9.2e-16) : |t * C - 2 * a0 * 6378164 * u| ≤ 0.1215 := by
  have e : t * C - 2 * a0 * 6378164 * u = (t - 2 * a0 * 6378164) * C + 2 * a0 * 6378164 * (C - u) := by ring
  have hC1 : |C| ≤ 1.0001 := by
    obtain ⟨c1, c2⟩ := abs_le.mp hC
    rw [abs_le]; constructor <;> linarith
  have e1 : |(t - 2 * a0 * 6378164) * C| ≤ 0.0346 * 1.0001 := by
    rw [abs_mul]; exact mul_le_mul ht hC1 (abs_nonneg _) (by norm_num)
  have e2 : |2 * a0 * 6378164 * (C - u)| ≤ 2 * 7378164 * 6378164 * 9.2e-16 := by
    rw [abs_mul, abs_of_nonneg (by positivity)]
    exact mul_le_mul (by linarith) hC (abs_nonneg _) (by norm_num)
  rw [e]
  refine (abs_add_le _ _).trans ((add_le_add e1 e2).trans (by norm_num))

theorem sensor_radius (hfl : RoundsToNearest fl) {h : ℝ} (h0 : 2 ≤ h) (h1 : h ≤ 1000000) :
    |fl (6378164 + h) - (6378164 + h)| ≤ 9e-10 :=
  (hfl.error_le (M := 7378164) (by rw [abs_of_nonneg (by linarith)]; linarith)).trans (by norm_num)

theorem sensor_sq (hfl : RoundsToNearest fl) {a0 a : ℝ} (ha0 : 6378166 ≤ a0) (ha0' : a0 ≤ 7378164) (ha : |a - a0| ≤ 9e-10) :
    |fl (a ^ 2) - a0 ^ 2| ≤ 0.0201 := by
  obtain ⟨a1, a2⟩ := abs_le.mp ha
  have e : |a ^ 2 - a0 ^ 2| ≤ 0.0133 := by
    have : a ^ 2 - a0 ^ 2 = (a - a0) * (a + a0) := by ring
    rw [this, abs_mul, abs_of_nonneg (by linarith : 0 ≤ a + a0)]
    exact (mul_le_mul ha (by linarith : a + a0 ≤ 14756329) (by linarith) (by norm_num)).trans (by norm_num)
  have hsq : a ^ 2 ≤ 7378165 ^ 2 := pow_le_pow_left₀ (by linarith) (by linarith) 2
  have e2 := hfl.error_le (M := 7378165 ^ 2) (by rw [abs_of_nonneg (sq_nonneg a)]; exact hsq)
  have e3 := abs_add_le (fl (a ^ 2) - a ^ 2) (a ^ 2 - a0 ^ 2)
  rw [sub_add_sub_cancel] at e3
  refine e3.trans ((add_le_add e2 e).trans (by norm_num))

theorem double_radius (hfl : RoundsToNearest fl) {a0 a : ℝ} (ha0 : 6378166 ≤ a0) (ha0' : a0 ≤ 7378164)
    (ha : |a - a0| ≤ 9e-10) : |fl (2 * a) - 2 * a0| ≤ 3.6e-9 := by
  obtain ⟨a1, a2⟩ := abs_le.mp ha
  have e2 := hfl.error_le (x := 2 * a) (M := 2 * 7378165) (by rw [abs_of_nonneg (by linarith)]; linarith)
  rw [abs_le] at e2 ⊢
  constructor <;> linarith

/-- What is under the square root of the slant range is known to 0.17 m². -/
theorem under_root (hfl : RoundsToNearest fl) {a0 a u C : ℝ} (ha0 : 6378166 ≤ a0) (ha0' : a0 ≤ 7378164)
    (ha : |a - a0| ≤ 9e-10) (hu0 : 0 ≤ u) (hu : u ≤ 1) (hC : |C - u| ≤ 9.2e-16) :
    |fl (6378164 ^ 2 + fl (a ^ 2)) - fl (fl (fl (2 * a) * 6378164) * C) - (6378164 ^ 2 + a0 ^ 2 - 2 * a0 * 6378164 * u)|
      ≤ 0.17 := by
  have hs := abs_le.mp (sensor_sq hfl ha0 ha0' ha)
  have hm := abs_le.mp (double_radius hfl ha0 ha0' ha)
  have hsq : a0 ^ 2 ≤ 7378164 ^ 2 := pow_le_pow_left₀ (by linarith) ha0' 2
  have hsq0 : 0 ≤ a0 ^ 2 := sq_nonneg _
  generalize fl (a ^ 2) = s at *
  generalize fl (2 * a) = m at *
  have hp := abs_le.mp (hfl.error_le (x := 6378164 ^ 2 + s) (M := 9.6e13) (by rw [abs_le]; constructor <;> linarith))
  generalize fl (6378164 ^ 2 + s) = p at *
  have ht := abs_le.mp (hfl.error_le (x := m * 6378164) (M := 9.5e13) (by rw [abs_le]; constructor <;> linarith))
  generalize fl (m * 6378164) = t at *
  have hpr := product_error ha0' (by linarith) hu0 hu (t := t) (by rw [abs_le]; constructor <;> linarith) hC
  have hw0 : 0 ≤ 2 * a0 * 6378164 * u := by positivity
  have hw1 : 2 * a0 * 6378164 * u ≤ 9.42e13 := by
    have : a0 * u ≤ 7378164 * 1 := mul_le_mul ha0' hu hu0 (by norm_num)
    linarith
  generalize 2 * a0 * 6378164 * u = W at *
  have hpr' := abs_le.mp hpr
  have hw := abs_le.mp (hfl.error_le (x := t * C) (M := 9.5e13) (by rw [abs_le]; constructor <;> linarith))
  generalize fl (t * C) = w at *
  rw [abs_le]; constructor <;> linarith

/-- The computed slant range. -/
theorem root_error (hfl : RoundsToNearest fl) {Q x : ℝ} (hQ0 : 4.9 ≤ Q) (hQ1 : Q ≤ 2.17e12) (hx : |x - Q| ≤ 0.17) :
    0 ≤ fl x ∧ 0 < fl (Real.sqrt (fl x)) ∧ |fl (Real.sqrt (fl x)) ^ 2 - Q| ≤ 0.172 := by
  obtain ⟨x1, x2⟩ := abs_le.mp hx
  have hq := abs_le.mp (hfl.error_le (x := x) (M := 2.171e12) (by rw [abs_le]; constructor <;> linarith))
  generalize fl x = q at *
  have q0 : 0 ≤ q := by linarith
  have hr0 : 0 < Real.sqrt q := Real.sqrt_pos.mpr (by linarith)
  have hrr := Real.sq_sqrt q0
  have hb := hfl.error (Real.sqrt q)
  rw [abs_of_pos hr0] at hb
  generalize Real.sqrt q = r at *
  generalize fl r = b at *
  obtain ⟨b1, b2⟩ := abs_le.mp hb
  refine ⟨q0, by linarith, ?_⟩
  have e : b ^ 2 - r ^ 2 = (b - r) * (b + r) := by ring
  have e1 : |b ^ 2 - r ^ 2| ≤ 1.2e-16 * r * (3 * r) := by
    rw [e, abs_mul, abs_of_nonneg (by linarith : 0 ≤ b + r)]
    exact mul_le_mul hb (by linarith) (by linarith) (by linarith)
  have e2 : 1.2e-16 * r * (3 * r) = 3.6e-16 * q := by rw [← hrr]; ring
  rw [e2, hrr] at e1
  have e3 := abs_le.mp e1
  rw [abs_le]; constructor <;> linarith

/-- Numerator and denominator of the cosine of the nadir angle. -/
theorem nadir_parts (hfl : RoundsToNearest fl) {a0 a b Q : ℝ} (ha0 : 6378166 ≤ a0) (ha0' : a0 ≤ 7378164)
    (ha : |a - a0| ≤ 9e-10) (hQ0 : 4.9 ≤ Q) (hQ1 : Q ≤ 2.17e12) (hb0 : 0 < b) (hb : |b ^ 2 - Q| ≤ 0.172) :
    |-fl (fl (6378164 ^ 2 - fl (a ^ 2)) - fl (b ^ 2)) - (a0 ^ 2 + Q - 6378164 ^ 2)| ≤ 0.2
      ∧ |fl (fl (2 * a) * b) - 2 * a0 * b| ≤ 4.2e-16 * (2 * a0 * b) := by
  constructor
  · have hs := abs_le.mp (sensor_sq hfl ha0 ha0' ha)
    have hsq : a0 ^ 2 ≤ 7378164 ^ 2 := pow_le_pow_left₀ (by linarith) ha0' 2
    have hsq0 : 6378166 ^ 2 ≤ a0 ^ 2 := pow_le_pow_left₀ (by linarith) ha0 2
    generalize fl (a ^ 2) = s at *
    have hb' := abs_le.mp hb
    have hB := abs_le.mp (hfl.error_le (x := b ^ 2) (M := 2.171e12) (by rw [abs_le]; constructor <;> linarith))
    generalize fl (b ^ 2) = B at *
    have hT := abs_le.mp (hfl.error_le (x := 6378164 ^ 2 - s) (M := 1.4e13) (by rw [abs_le]; constructor <;> linarith))
    generalize fl (6378164 ^ 2 - s) = T at *
    have hM := abs_le.mp (hfl.error_le (x := T - B) (M := 1.7e13) (by rw [abs_le]; constructor <;> linarith))
    generalize fl (T - B) = M at *
    rw [abs_le]; constructor <;> linarith
  · have hm := double_radius hfl ha0 ha0' ha
    generalize fl (2 * a) = m at *
    obtain ⟨m1, m2⟩ := abs_le.mp hm
    have hmm : |m - 2 * a0| ≤ 2.85e-16 * (2 * a0) := hm.trans (by linarith)
    have hD := hfl.error (m * b)
    rw [abs_of_nonneg (mul_nonneg (by linarith) hb0.le)] at hD
    have e1 : |m * b - 2 * a0 * b| ≤ 2.85e-16 * (2 * a0) * b := by
      rw [← sub_mul, abs_mul, abs_of_pos hb0]
      exact mul_le_mul_of_nonneg_right hmm hb0.le
    have hab : 0 < a0 * b := mul_pos (by linarith) hb0
    have e2 := abs_le.mp e1
    have e3 := abs_le.mp hD
    rw [abs_le]; constructor <;> linarith

/-- The numerator does not exceed the denominator. -/
theorem nadir_order {h b Q N D : ℝ} (h0 : 2 ≤ h) (h1 : h ≤ 1000000) (hb0 : 0 < b) (hb : |b ^ 2 - Q| ≤ 0.172)
    (hQ : h ^ 2 + 0.99 ≤ Q) (hQ1 : Q ≤ 2.161e12) (hN : |N - ((6378164 + h) ^ 2 + Q - 6378164 ^ 2)| ≤ 0.2)
    (hD : |D - 2 * (6378164 + h) * b| ≤ 4.2e-16 * (2 * (6378164 + h) * b)) : 0 ≤ N ∧ N ≤ D ∧ 0 < D := by
  obtain ⟨b1, b2⟩ := abs_le.mp hb
  obtain ⟨n1, n2⟩ := abs_le.mp hN
  obtain ⟨d1, d2⟩ := abs_le.mp hD
  have hbu : b ≤ 1.4701e6 := by
    by_contra hc
    have : (1.4701e6 : ℝ) ^ 2 ≤ b ^ 2 := pow_le_pow_left₀ (by norm_num) (by linarith) 2
    norm_num at this
    linarith
  have hbh : h ≤ b := by
    by_contra hc
    have : b ^ 2 ≤ h ^ 2 := pow_le_pow_left₀ hb0.le (by linarith) 2
    linarith
  have hgap : 0.81 ≤ (b - h) * (b + h) := by linarith [show (b - h) * (b + h) = b ^ 2 - h ^ 2 by ring]
  have hgap2 : 3.2e-7 ≤ b - h := by
    by_contra hc
    have : (b - h) * (b + h) ≤ 3.2e-7 * 2.4702e6 := mul_le_mul (by linarith) (by linarith) (by linarith) (by norm_num)
    norm_num at this
    linarith
  have hprod : 3.5 ≤ (b - h) * (2 * 6378164 + h - b) :=
    le_trans (by norm_num) (mul_le_mul hgap2 (by linarith : (1.12e7 : ℝ) ≤ 2 * 6378164 + h - b) (by norm_num) (by linarith))
  have hab : (6378164 + h) * b ≤ 7378164 * 1.4701e6 := mul_le_mul (by linarith) hbu hb0.le (by norm_num)
  have hab0 : 0 < (6378164 + h) * b := mul_pos (by linarith) hb0
  have e1 : (b - h) * (2 * 6378164 + h - b) = 2 * ((6378164 + h) * b) - ((6378164 + h) ^ 2 - 6378164 ^ 2) - b ^ 2 := by ring
  have e2 : (6378164 + h) ^ 2 - 6378164 ^ 2 = h ^ 2 + 2 * 6378164 * h := by ring
  have hh := sq_nonneg h
  generalize (6378164 + h) ^ 2 = S at *
  rw [show 2 * (6378164 + h) * b = 2 * ((6378164 + h) * b) by ring] at d1 d2
  generalize (6378164 + h) * b = P at *
  generalize (b - h) * (2 * 6378164 + h - b) = E at *
  generalize b ^ 2 = B at *
  generalize h ^ 2 = H at *
  refine ⟨by linarith, by linarith, by linarith⟩

theorem root_diff {b d : ℝ} (hb0 : 0 < b) (hd0 : 2.21 ≤ d) (hb : |b ^ 2 - d ^ 2| ≤ 0.172) :
    0.982 * d ≤ b ∧ b ≤ 1.1 * d ∧ |b - d| ≤ 0.087 / d := by
  obtain ⟨b1, b2⟩ := abs_le.mp hb
  have hdd : 4.88 ≤ d ^ 2 := le_trans (by norm_num) (pow_le_pow_left₀ (by norm_num) hd0 2)
  have hbd : 0.982 * d ≤ b := by
    have : (0.982 * d) ^ 2 ≤ b ^ 2 := by rw [mul_pow]; linarith
    exact (pow_le_pow_iff_left₀ (by linarith) hb0.le two_ne_zero).mp this
  have hbd' : b ≤ 1.1 * d := by
    have : b ^ 2 ≤ (1.1 * d) ^ 2 := by rw [mul_pow]; linarith
    exact (pow_le_pow_iff_left₀ hb0.le (by linarith) two_ne_zero).mp this
  have hdiff : |b - d| ≤ 0.087 / d := by
    rw [le_div_iff₀ (by linarith)]
    have e : |b - d| * (b + d) ≤ 0.172 := by
      rw [show |b - d| * (b + d) = |b ^ 2 - d ^ 2| by
        rw [show b ^ 2 - d ^ 2 = (b - d) * (b + d) by ring, abs_mul, abs_of_nonneg (by linarith : 0 ≤ b + d)]]
      exact hb
    have e1 : |b - d| * (1.982 * d) ≤ |b - d| * (b + d) := mul_le_mul_of_nonneg_left (by linarith) (abs_nonneg _)
    linarith
  exact ⟨hbd, hbd', hdiff⟩

/-- Accuracy of the cosine. -/
theorem cosine_accuracy {a0 b d N D X : ℝ} (ha0 : 6378166 ≤ a0) (hb0 : 0 < b) (hd0 : 2.21 ≤ d) (hd1 : d ≤ 1.4701e6)
    (hb : |b ^ 2 - d ^ 2| ≤ 0.172) (hN : |N - X| ≤ 0.2) (hX0 : 0 ≤ X) (hX : X ≤ 2 * a0 * d)
    (hD : |D - 2 * a0 * b| ≤ 4.2e-16 * (2 * a0 * b)) : |N / D - X / (2 * a0 * d)| ≤ 0.114 / d ^ 2 := by
  obtain ⟨b1, b2⟩ := abs_le.mp hb
  obtain ⟨hbd, hbd', hdiff⟩ := root_diff hb0 hd0 hb
  have ha : 0 < 2 * a0 := by linarith
  -- scale by the radius of the sensor
  obtain ⟨n, hn⟩ : ∃ n, n = N / (2 * a0) := ⟨_, rfl⟩
  obtain ⟨x, hx⟩ : ∃ x, x = X / (2 * a0) := ⟨_, rfl⟩
  obtain ⟨y, hy⟩ : ∃ y, y = D / (2 * a0) := ⟨_, rfl⟩
  have hn' : N = 2 * a0 * n := by rw [hn]; field_simp
  have hx' : X = 2 * a0 * x := by rw [hx]; field_simp
  have hy' : D = 2 * a0 * y := by rw [hy]; field_simp
  have k1 : |n - x| ≤ 1.57e-8 := by
    rw [hn', hx', ← mul_sub, abs_mul, abs_of_pos ha] at hN
    nlinarith [abs_nonneg (n - x)]
  have k2 : |y - b| ≤ 4.2e-16 * b := by
    rw [hy', ← mul_sub, abs_mul, abs_of_pos ha] at hD
    nlinarith [abs_nonneg (y - b)]
  have k3 : x ≤ d := by rw [hx'] at hX; exact le_of_mul_le_mul_left hX ha
  have k4 : 0 ≤ x := by rw [hx]; positivity
  rw [hn', hx', hy', mul_div_mul_left _ _ ha.ne', mul_div_mul_left _ _ ha.ne']
  clear hN hX hD hX0 hn hx hy hn' hx' hy'
  have hy0 : 0.98199 * d ≤ y := by
    obtain ⟨y1, y2⟩ := abs_le.mp k2
    linarith
  have hd : 0 < d := by linarith
  have hyp : 0 < y := by linarith
  have e : n / y - x / d = ((n - x) * d - x * (y - d)) / (y * d) := by
    field_simp
    ring
  rw [e, abs_div, abs_of_pos (mul_pos hyp hd), div_le_div_iff₀ (mul_pos hyp hd) (by positivity)]
  have e1 : |(n - x) * d| ≤ 1.57e-8 * d := by rw [abs_mul, abs_of_pos hd]; exact mul_le_mul_of_nonneg_right k1 hd.le
  have e2 : |y - d| ≤ 4.2e-16 * b + 0.087 / d := by
    have := abs_add_le (y - b) (b - d)
    rw [sub_add_sub_cancel] at this
    linarith
  have e3 : |x * (y - d)| ≤ d * (4.2e-16 * b + 0.087 / d) := by
    rw [abs_mul, abs_of_nonneg k4]
    exact mul_le_mul k3 e2 (abs_nonneg _) hd.le
  have e4 : d * (4.2e-16 * b + 0.087 / d) = 4.2e-16 * (d * b) + 0.087 := by field_simp
  have e5 : |(n - x) * d - x * (y - d)| ≤ 1.57e-8 * d + (4.2e-16 * (d * b) + 0.087) := by
    rw [← e4]
    exact (abs_sub _ _).trans (add_le_add e1 e3)
  have e6 : d * b ≤ 1.4701e6 * (1.1 * 1.4701e6) := mul_le_mul hd1 (by linarith) hb0.le (by norm_num)
  have e7 : |(n - x) * d - x * (y - d)| ≤ 0.1112 := e5.trans (by linarith)
  have e8 : |(n - x) * d - x * (y - d)| * d ^ 2 ≤ 0.1112 * d ^ 2 := mul_le_mul_of_nonneg_right e7 (sq_nonneg d)
  have e9 : 0.98199 * d * d ≤ y * d := mul_le_mul_of_nonneg_right hy0 hd.le
  have e10 := sq_nonneg d
  calc _ ≤ 0.1112 * d ^ 2 := e8
    _ ≤ 0.114 * (0.98199 * d * d) := by rw [show 0.98199 * d * d = 0.98199 * d ^ 2 by ring]; linarith
    _ ≤ _ := by linarith

/-- Two acute angles with nearly the same cosine are nearly the same, unless both are small. -/
theorem acute_close {α β : ℝ} (ha0 : 0 ≤ α) (ha1 : α ≤ Real.pi / 2) (hb0 : 0 ≤ β) (hb1 : β ≤ Real.pi / 2) :
    Real.sin β * |α - β| ≤ Real.pi * |Real.cos α - Real.cos β| := by
  have hpi := Real.pi_pos
  have h1 : |Real.cos α - Real.cos β| = 2 * Real.sin ((α + β) / 2) * Real.sin (|α - β| / 2) := by
    rw [Real.cos_sub_cos, abs_mul, abs_mul, abs_neg, abs_two,
      abs_of_nonneg (Real.sin_nonneg_of_nonneg_of_le_pi (by linarith) (by linarith))]
    congr 1
    rcases le_total β α with h | h
    · rw [abs_of_nonneg (sub_nonneg.mpr h), abs_of_nonneg (Real.sin_nonneg_of_nonneg_of_le_pi (by linarith) (by linarith))]
    · rw [abs_of_nonpos (sub_nonpos.mpr h), show (α - β) / 2 = -(-(α - β) / 2) by ring, Real.sin_neg, abs_neg,
        abs_of_nonneg (Real.sin_nonneg_of_nonneg_of_le_pi (by linarith) (by linarith))]
  have hab : |α - β| ≤ Real.pi / 2 := by rw [abs_le]; constructor <;> linarith
  have h2 : |α - β| / Real.pi ≤ Real.sin (|α - β| / 2) := by
    have := Real.mul_le_sin (x := |α - β| / 2) (by positivity) (by linarith)
    calc _ = 2 / Real.pi * (|α - β| / 2) := by ring
      _ ≤ _ := this
  have h3 : Real.sin β ≤ 2 * Real.sin ((α + β) / 2) := by
    have e : Real.sin β = 2 * Real.sin (β / 2) * Real.cos (β / 2) := by rw [← Real.sin_two_mul]; congr 1; ring
    have e1 : Real.sin (β / 2) ≤ Real.sin ((α + β) / 2) :=
      Real.sin_le_sin_of_le_of_le_pi_div_two (by linarith) (by linarith) (by linarith)
    have e2 : 0 ≤ Real.sin (β / 2) := Real.sin_nonneg_of_nonneg_of_le_pi (by linarith) (by linarith)
    rw [e]
    nlinarith [Real.cos_le_one (β / 2)]
  have hs : 0 ≤ Real.sin β := Real.sin_nonneg_of_nonneg_of_le_pi hb0 (by linarith)
  rw [h1]
  calc Real.sin β * |α - β| = Real.pi * (Real.sin β * (|α - β| / Real.pi)) := by field_simp
    _ ≤ _ := mul_le_mul_of_nonneg_left (mul_le_mul h3 h2 (by positivity) (by linarith)) hpi.le

end PyBSM
