import Verif.Model.DoubleGeometry
import Verif.Model.Metrics
import Verif.Spec.DoubleGeometry
import Verif.Lemmas.Double
import Verif.Lemmas.Geometry
import Verif.Lemmas.Arr
import Verif.Lemmas.DoubleGeometry
import Mathlib.Analysis.SpecialFunctions.Trigonometric.Bounds
import Mathlib.Analysis.Real.Pi.Bounds

/-!
# C106: viewing geometry in double precision
-/

noncomputable section

open Classical

namespace PyBSM

open Spec

variable {fl cosD acosD : ℝ → ℝ}

/-! ## Looking straight down from a whole number of eighths of a metre -/

theorem fl_dyadic (hfl : RoundsToNearest fl) {x : ℝ} (m : ℤ) (e : ℤ) (hm : |m| < 2 ^ 53) (hx : x = m * (2 : ℝ) ^ e) :
    fl x = x := by rw [hx]; exact hfl.self (isDouble_dyadic e hm)

theorem arccos_one_exact (ha : IsArccos acosD) : acosD 1 = 0 := by
  have := ha.accurate 1 (by norm_num)
  rw [Real.arccos_one, mul_zero, sub_zero] at this
  exact abs_eq_zero.mp (le_antisymm this (abs_nonneg _))

theorem rEarth_int : rEarth = ((6378164 : ℤ) : ℝ) := by norm_num [rEarth]

theorem fl_target (hfl : RoundsToNearest fl) : fl (rEarth + 0) = 6378164 := by
  rw [fl_dyadic hfl 6378164 0 (by norm_num) (by norm_num [rEarth])]; norm_num [rEarth]

theorem fl_target_sq (hfl : RoundsToNearest fl) : fl ((6378164 : ℝ) ^ 2) = 6378164 ^ 2 :=
  fl_dyadic hfl (6378164 ^ 2) 0 (by norm_num) (by norm_num)

theorem slantRangeD_nadir (hfl : RoundsToNearest fl) (hc : IsCosine cosD) {h a s p d : ℝ} (ha : fl (rEarth + h) = a)
    (hs : fl (a ^ 2) = s) (hp : fl (6378164 ^ 2 + s) = p) (h2 : fl (2 * a) = 2 * a)
    (h3 : fl (2 * a * 6378164) = 2 * a * 6378164) (hd : fl (p - 2 * a * 6378164) = d) :
    slantRangeD fl cosD 0 h 0 = if d < 0 then .nan else .fin (fl (Real.sqrt d)) := by
  unfold slantRangeD
  simp only [zero_div, hfl.zero, hc.zero, fl_target hfl, ha, fl_target_sq hfl, hs, hp, h2, h3, mul_one, hd]

/-- **C106** (looking straight down). From every height that is a whole number of eighths of a metre, up to 3400 km, the
computed slant range is the height and the nadir angle is zero, both without any error. -/
theorem C106_nadir_exact (hfl : RoundsToNearest fl) (hc : IsCosine cosD) (ha : IsArccos acosD) {k : ℕ} (hk : 0 < k)
    (hk' : k ≤ 27200000) :
    slantRangeD fl cosD 0 (k / 8) 0 = .fin (k / 8) ∧ nadirAngleD fl acosD 0 (k / 8) (.fin (k / 8)) = .fin 0 := by
  have hkR : (0 : ℝ) < k := by exact_mod_cast hk
  obtain ⟨p, hp⟩ : ∃ p : ℤ, p = 51025312 + k := ⟨_, rfl⟩
  have hpR : (p : ℝ) = 51025312 + k := by rw [hp]; push_cast; ring
  have hkb : (k : ℤ) ≤ 27200000 := by exact_mod_cast hk'
  have hk0 : (0 : ℤ) < k := by exact_mod_cast hk
  have hp1 : 51025312 < p := by omega
  have hp2 : p ≤ 78225312 := by omega
  have hpp1 : 51025312 ^ 2 ≤ p ^ 2 := by nlinarith
  have hpp2 : p ^ 2 ≤ 78225312 ^ 2 := by nlinarith
  have hkk : (k : ℤ) ^ 2 ≤ 27200000 ^ 2 := by nlinarith
  have e1 : fl (rEarth + k / 8) = p / 8 := by
    have : rEarth + (k : ℝ) / 8 = p / 8 := by rw [hpR, rEarth_int]; push_cast; ring
    rw [this]
    exact fl_dyadic hfl p (-3) (by rw [abs_of_nonneg (by omega)]; omega) (by norm_num; ring)
  have e2 : fl (((p : ℝ) / 8) ^ 2) = ((p : ℝ) / 8) ^ 2 :=
    fl_dyadic hfl (p ^ 2) (-6) (by rw [abs_of_nonneg (by positivity)]; linarith) (by push_cast; norm_num; ring)
  have e3 : fl (6378164 ^ 2 + ((p : ℝ) / 8) ^ 2) = 6378164 ^ 2 + ((p : ℝ) / 8) ^ 2 :=
    fl_dyadic hfl (51025312 ^ 2 + p ^ 2) (-6) (by rw [abs_of_nonneg (by positivity)]; linarith)
      (by push_cast; norm_num; ring)
  have e4 : fl (2 * ((p : ℝ) / 8)) = 2 * ((p : ℝ) / 8) :=
    fl_dyadic hfl p (-2) (by rw [abs_of_nonneg (by omega)]; omega) (by norm_num; ring)
  have e5 : fl (2 * ((p : ℝ) / 8) * 6378164) = 2 * ((p : ℝ) / 8) * 6378164 :=
    fl_dyadic hfl (p * 1594541) 0 (by rw [abs_of_nonneg (by omega)]; omega) (by push_cast; norm_num; ring)
  have hh : 6378164 ^ 2 + ((p : ℝ) / 8) ^ 2 - 2 * ((p : ℝ) / 8) * 6378164 = ((k : ℝ) / 8) ^ 2 := by rw [hpR]; ring
  have e6 : fl (((k : ℝ) / 8) ^ 2) = ((k : ℝ) / 8) ^ 2 :=
    fl_dyadic hfl ((k : ℤ) ^ 2) (-6) (by rw [abs_of_nonneg (by positivity)]; linarith) (by push_cast; norm_num; ring)
  have e7 : fl ((k : ℝ) / 8) = (k : ℝ) / 8 :=
    fl_dyadic hfl (k : ℤ) (-3) (by rw [abs_of_nonneg (by omega)]; omega) (by push_cast; norm_num; ring)
  have e8 : fl (6378164 ^ 2 - ((p : ℝ) / 8) ^ 2) = 6378164 ^ 2 - ((p : ℝ) / 8) ^ 2 :=
    fl_dyadic hfl (51025312 ^ 2 - p ^ 2) (-6) (by rw [abs_lt]; constructor <;> linarith) (by push_cast; norm_num; ring)
  have e9 : fl (6378164 ^ 2 - ((p : ℝ) / 8) ^ 2 - ((k : ℝ) / 8) ^ 2) = 6378164 ^ 2 - ((p : ℝ) / 8) ^ 2 - ((k : ℝ) / 8) ^ 2 :=
    fl_dyadic hfl (51025312 ^ 2 - p ^ 2 - (k : ℤ) ^ 2) (-6) (by rw [abs_lt]; constructor <;> linarith [sq_nonneg (k : ℤ)])
      (by push_cast; norm_num; ring)
  have e10 : fl (-1 * (6378164 ^ 2 - ((p : ℝ) / 8) ^ 2 - ((k : ℝ) / 8) ^ 2))
      = -1 * (6378164 ^ 2 - ((p : ℝ) / 8) ^ 2 - ((k : ℝ) / 8) ^ 2) :=
    fl_dyadic hfl (-1 * (51025312 ^ 2 - p ^ 2 - (k : ℤ) ^ 2)) (-6)
      (by rw [abs_lt]; constructor <;> linarith [sq_nonneg (k : ℤ)]) (by push_cast; norm_num; ring)
  have e11 : fl (2 * ((p : ℝ) / 8) * ((k : ℝ) / 8)) = 2 * ((p : ℝ) / 8) * ((k : ℝ) / 8) :=
    fl_dyadic hfl (p * k) (-5) (by rw [abs_of_nonneg (by positivity)]; nlinarith) (by push_cast; norm_num; ring)
  have hden : (2 * ((p : ℝ) / 8) * ((k : ℝ) / 8)) ≠ 0 := by rw [hpR]; positivity
  have hone : -1 * (6378164 ^ 2 - ((p : ℝ) / 8) ^ 2 - ((k : ℝ) / 8) ^ 2) / (2 * ((p : ℝ) / 8) * ((k : ℝ) / 8)) = 1 := by
    rw [div_eq_one_iff_eq hden, hpR]; ring
  constructor
  · have hd := (congrArg fl hh).trans e6
    rw [slantRangeD_nadir hfl hc e1 e2 e3 e4 e5 hd, if_neg (not_lt.mpr (sq_nonneg _)), Real.sqrt_sq (by positivity), e7]
  · have hq : cosNadirD fl 0 (k / 8) (k / 8) = 1 := by
      unfold cosNadirD
      simp only [fl_target hfl, e1, fl_target_sq hfl, e2, e8, e6, e9, e10, e4, e11, hone]
      exact fl_dyadic hfl 1 0 (by norm_num) (by norm_num)
    unfold nadirAngleD
    simp only [e1, e4, e11, if_neg hden, hq]
    rw [if_pos (by norm_num), arccos_one_exact ha]

/-! ## Looking straight down from other heights -/

theorem nadirAngleD_nan (hfl : RoundsToNearest fl) {h b N D : ℝ}
    (hN : fl (-1 * fl (fl (6378164 ^ 2 - fl (fl (rEarth + h) ^ 2)) - fl (b ^ 2))) = N)
    (hD : fl (fl (2 * fl (rEarth + h)) * b) = D) (h0 : 0 < D) (h1 : D * (1 + 1 / 2 ^ 51) ≤ N) :
    nadirAngleD fl acosD 0 h (.fin b) = .nan := by
  have hq : cosNadirD fl 0 h b = fl (N / D) := by
    unfold cosNadirD
    simp only [fl_target hfl, fl_target_sq hfl, hN, hD]
  have h2 : (1 : ℝ) + 1 / 2 ^ 51 ≤ fl (N / D) := by
    have h3 : fl (1 + 1 / 2 ^ 51) = 1 + 1 / 2 ^ 51 :=
      fl_dyadic hfl (2 ^ 51 + 1) (-51) (by norm_num) (by norm_num)
    rw [← h3]
    exact hfl.mono (by rw [le_div_iff₀ h0, mul_comm]; exact h1)
  unfold nadirAngleD
  simp only [hD, if_neg h0.ne', hq]
  rw [if_neg]
  rw [abs_of_nonneg (by linarith [show (0 : ℝ) < 1 + 1 / 2 ^ 51 by positivity])]
  have : (0 : ℝ) < 1 / 2 ^ 51 := by positivity
  linarith

theorem short_root {h r b : ℝ} (h0 : 2 < h) (h1 : h ≤ 20001) (hr0 : 0 ≤ r) (hr : r ^ 2 = h ^ 2 - 1 / 1024)
    (hb : |b - r| ≤ 1.2e-16 * r) : 0 < b ∧ b ≤ h - 2.1e-8 ∧ h ^ 2 - 1 / 1024 - 1e-6 ≤ b ^ 2 := by
  obtain ⟨b1, b2⟩ := abs_le.mp hb
  have r1 : 1 ≤ r := by nlinarith
  have r2 : r ≤ h - 2.2e-8 := by
    have h3 : r ^ 2 ≤ (h - 2.2e-8) ^ 2 := by rw [hr]; nlinarith
    exact (pow_le_pow_iff_left₀ hr0 (by linarith) two_ne_zero).mp h3
  have b3 : r - 3e-12 ≤ b := by linarith
  refine ⟨by linarith, by linarith, ?_⟩
  have h4 : (r - 3e-12) ^ 2 ≤ b ^ 2 := pow_le_pow_left₀ (by linarith) b3 2
  have h5 : r ^ 2 - 6e-12 * r ≤ (r - 3e-12) ^ 2 := by
    rw [sub_sq]
    have : (0 : ℝ) ≤ 3e-12 ^ 2 := by positivity
    linarith
  linarith

theorem numbers_nan (hfl : RoundsToNearest fl) {a h b T : ℝ} (ha : 6378166 ≤ a) (ha' : a ≤ 6398165) (h0 : 2 < h)
    (h1 : h ≤ 20001) (b0 : 0 < b) (b1 : b ≤ h - 2.1e-8) (b2 : h ^ 2 - 1 / 1024 - 1e-6 ≤ b ^ 2)
    (hT : h ^ 2 - 1 / 1024 - T = 2 * a * h - 1 / 512) :
    0 < fl (2 * a * b) ∧ fl (2 * a * b) * (1 + 1 / 2 ^ 51) ≤ -fl (T - fl (b ^ 2)) := by
  have hah : a * h ≤ 1.28e11 :=
    (mul_le_mul ha' h1 (by linarith) (by norm_num)).trans (by norm_num)
  have hab0 : 0 < a * b := mul_pos (by linarith) b0
  have hgap : a * b ≤ a * h - 0.13 := by
    have h5 : a * b ≤ a * (h - 2.1e-8) := mul_le_mul_of_nonneg_left b1 (by linarith)
    linarith
  have hbu : b ^ 2 ≤ 4.1e8 := (pow_le_pow_left₀ b0.le (by linarith : b ≤ 20001) 2).trans (by norm_num)
  have hhu : h ^ 2 ≤ 4.1e8 := (pow_le_pow_left₀ (by linarith) h1 2).trans (by norm_num)
  have hB := abs_le.mp (hfl.error (b ^ 2))
  rw [abs_of_nonneg (sq_nonneg b)] at hB
  generalize fl (b ^ 2) = B at *
  have hM := hfl.error (T - B)
  have hD := hfl.error (2 * a * b)
  rw [abs_of_nonneg (by linarith : 0 ≤ 2 * a * b)] at hD
  have hTB : |T - B| ≤ 3e11 := by
    have h6 := sq_nonneg h
    have h7 := sq_nonneg b
    rw [abs_le]
    constructor <;> linarith
  have hM' := abs_le.mp (hM.trans (mul_le_mul_of_nonneg_left hTB (by norm_num)))
  have hD' := abs_le.mp hD
  generalize fl (T - B) = M at *
  generalize fl (2 * a * b) = D at *
  refine ⟨by linarith, ?_⟩
  have h6 : D * (1 / 2 ^ 51) ≤ 1e-3 := by
    have h7 : D ≤ 3e11 := by linarith
    calc D * (1 / 2 ^ 51) ≤ 3e11 * (1 / 2 ^ 51) := mul_le_mul_of_nonneg_right h7 (by positivity)
      _ ≤ _ := by norm_num
  linarith

/-- **C106** (no nadir angle). Looking straight down from `n` metres and a thirty-second of a metre, the slant range comes
out a little too short, and the nadir angle is not a number, for every `n` from 2 to 20000. -/
theorem C106_nadir_nan (hfl : RoundsToNearest fl) (hc : IsCosine cosD) {n : ℕ} (hn : 2 ≤ n) (hn' : n ≤ 20000) :
    ∃ b, slantRangeD fl cosD 0 (n + 1 / 32) 0 = .fin b ∧ 0 < b ∧ b < n + 1 / 32
      ∧ nadirAngleD fl acosD 0 (n + 1 / 32) (.fin b) = .nan := by
  have hnR : (2 : ℝ) ≤ n := by exact_mod_cast hn
  have hnR' : (n : ℝ) ≤ 20000 := by exact_mod_cast hn'
  obtain ⟨p, hp⟩ : ∃ p : ℤ, p = 6378164 + n := ⟨_, rfl⟩
  have hpR : (p : ℝ) = 6378164 + n := by rw [hp]; push_cast; ring
  have hnb : (n : ℤ) ≤ 20000 := by exact_mod_cast hn'
  have hn0 : (2 : ℤ) ≤ n := by exact_mod_cast hn
  have hp1 : 6378166 ≤ p := by omega
  have hp2 : p ≤ 6398164 := by omega
  have hpp1 : 6378166 ^ 2 ≤ p ^ 2 := by nlinarith
  have hpp2 : p ^ 2 ≤ 6398164 ^ 2 := by nlinarith
  have hnn : (n : ℤ) ^ 2 ≤ 20000 ^ 2 := by nlinarith
  have e1 : fl (rEarth + (n + 1 / 32)) = p + 1 / 32 := by
    have : rEarth + ((n : ℝ) + 1 / 32) = p + 1 / 32 := by rw [hpR, rEarth_int]; push_cast; ring
    rw [this]
    exact fl_dyadic hfl (32 * p + 1) (-5) (by rw [abs_of_nonneg (by omega)]; omega) (by push_cast; norm_num; ring)
  have e2 : fl (((p : ℝ) + 1 / 32) ^ 2) = (p : ℝ) ^ 2 + p / 16 := by
    rw [hfl.eq (m := 128 * p ^ 2 + 8 * p) (by linarith) (by linarith) (-7)]
    · push_cast; norm_num; ring
    · push_cast; norm_num; linarith
    · push_cast; norm_num; linarith
  have e3 : fl (6378164 ^ 2 + ((p : ℝ) ^ 2 + p / 16)) = 6378164 ^ 2 + ((p : ℝ) ^ 2 + p / 16) :=
    fl_dyadic hfl (64 * 6378164 ^ 2 + 64 * p ^ 2 + 4 * p) (-6) (by rw [abs_of_nonneg (by positivity)]; linarith)
      (by push_cast; norm_num; ring)
  have e4 : fl (2 * ((p : ℝ) + 1 / 32)) = 2 * ((p : ℝ) + 1 / 32) :=
    fl_dyadic hfl (32 * p + 1) (-4) (by rw [abs_of_nonneg (by omega)]; omega) (by push_cast; norm_num; ring)
  have e5 : fl (2 * ((p : ℝ) + 1 / 32) * 6378164) = 2 * ((p : ℝ) + 1 / 32) * 6378164 :=
    fl_dyadic hfl ((32 * p + 1) * 1594541) (-2) (by rw [abs_of_nonneg (by omega)]; omega) (by push_cast; norm_num; ring)
  have hh : 6378164 ^ 2 + ((p : ℝ) ^ 2 + p / 16) - 2 * ((p : ℝ) + 1 / 32) * 6378164 = (n : ℝ) ^ 2 + n / 16 := by
    rw [hpR]; ring
  have e6 : fl ((n : ℝ) ^ 2 + n / 16) = (n : ℝ) ^ 2 + n / 16 :=
    fl_dyadic hfl (16 * (n : ℤ) ^ 2 + n) (-4) (by rw [abs_of_nonneg (by positivity)]; linarith)
      (by push_cast; norm_num; ring)
  have e8 : fl (6378164 ^ 2 - ((p : ℝ) ^ 2 + p / 16)) = 6378164 ^ 2 - ((p : ℝ) ^ 2 + p / 16) :=
    fl_dyadic hfl (16 * 6378164 ^ 2 - 16 * p ^ 2 - p) (-4) (by rw [abs_lt]; constructor <;> linarith)
      (by push_cast; norm_num; ring)
  have hd := (congrArg fl hh).trans e6
  obtain ⟨r, hr⟩ : ∃ r : ℝ, r = Real.sqrt ((n : ℝ) ^ 2 + n / 16) := ⟨_, rfl⟩
  have hr0 : 0 ≤ r := by rw [hr]; exact Real.sqrt_nonneg _
  have hrr : r ^ 2 = ((n : ℝ) + 1 / 32) ^ 2 - 1 / 1024 := by rw [hr, Real.sq_sqrt (by positivity)]; ring
  have hb := hfl.error r
  rw [abs_of_nonneg hr0] at hb
  obtain ⟨b0, b1, b2⟩ := short_root (by linarith) (by linarith) hr0 hrr hb
  have hpa : (p : ℝ) ≤ 6398164 := by exact_mod_cast hp2
  have hpa' : (6378166 : ℝ) ≤ p := by exact_mod_cast hp1
  obtain ⟨d0, d1⟩ := numbers_nan (a := p + 1 / 32) (T := 6378164 ^ 2 - ((p : ℝ) ^ 2 + p / 16)) hfl (by linarith)
    (by linarith) (by linarith) (by linarith) b0 b1 b2 (by rw [hpR]; ring)
  refine ⟨fl r, ?_, b0, by linarith, nadirAngleD_nan hfl ?_ ?_ d0 d1⟩
  · rw [slantRangeD_nadir hfl hc e1 e2 e3 e4 e5 hd, if_neg (not_lt.mpr (by positivity)), ← hr]
  · rw [e1, e2, e8, neg_one_mul]
    exact hfl.self (hfl _).1.neg
  · rw [e1, e4]

/-- **C106** (no nadir angle in `simulate_image`). `simulate_image` takes the altitude itself for the slant range when the
ground range is zero. Looking straight down from `n` metres and five sixty-fourths of a metre, its nadir angle is not a
number either. -/
theorem C106_flat_nan (hfl : RoundsToNearest fl) {n : ℕ} (hn : 2 ≤ n) (hn' : n ≤ 20000) :
    flatSlantRangeD fl (n + 5 / 64) 0 = n + 5 / 64
      ∧ nadirAngleD fl acosD 0 (n + 5 / 64) (.fin (n + 5 / 64)) = .nan := by
  have hnR : (2 : ℝ) ≤ n := by exact_mod_cast hn
  have hnR' : (n : ℝ) ≤ 20000 := by exact_mod_cast hn'
  obtain ⟨p, hp⟩ : ∃ p : ℤ, p = 6378164 + n := ⟨_, rfl⟩
  obtain ⟨k, hk⟩ : ∃ k : ℤ, k = 64 * n + 5 := ⟨_, rfl⟩
  have hpR : (p : ℝ) = 6378164 + n := by rw [hp]; push_cast; ring
  have hkR : (k : ℝ) = 64 * n + 5 := by rw [hk]; push_cast; ring
  have hnb : (n : ℤ) ≤ 20000 := by exact_mod_cast hn'
  have hn0 : (2 : ℤ) ≤ n := by exact_mod_cast hn
  have hp1 : 6378166 ≤ p := by omega
  have hp2 : p ≤ 6398164 := by omega
  have hk1 : 0 < k := by omega
  have hk2 : k ≤ 1280005 := by omega
  have hpp1 : 6378166 ^ 2 ≤ p ^ 2 := by nlinarith
  have hpp2 : p ^ 2 ≤ 6398164 ^ 2 := by nlinarith
  have hkk : k ^ 2 ≤ 1280005 ^ 2 := by nlinarith
  have hh : (n : ℝ) + 5 / 64 = k / 64 := by rw [hkR]; ring
  rw [hh]
  have e6 : fl (((k : ℝ) / 64) ^ 2) = ((k : ℝ) / 64) ^ 2 :=
    fl_dyadic hfl (k ^ 2) (-12) (by rw [abs_of_nonneg (by positivity)]; linarith) (by push_cast; norm_num; ring)
  have e7 : fl ((k : ℝ) / 64) = (k : ℝ) / 64 :=
    fl_dyadic hfl k (-6) (by rw [abs_of_nonneg (by omega)]; omega) (by norm_num; ring)
  have hk0 : (0 : ℝ) < k := by exact_mod_cast hk1
  constructor
  · unfold flatSlantRangeD
    rw [e6, zero_pow two_ne_zero, hfl.zero, add_zero, e6, Real.sqrt_sq (by positivity), e7]
  have e1 : fl (rEarth + k / 64) = p + 5 / 64 := by
    have : rEarth + (k : ℝ) / 64 = p + 5 / 64 := by rw [hpR, hkR, rEarth_int]; push_cast; ring
    rw [this]
    exact fl_dyadic hfl (64 * p + 5) (-6) (by rw [abs_of_nonneg (by omega)]; omega) (by push_cast; norm_num; ring)
  have e2 : fl (((p : ℝ) + 5 / 64) ^ 2) = ((p : ℝ) + 5 / 64) ^ 2 + 7 / 4096 := by
    rw [hfl.eq (m := 128 * p ^ 2 + 20 * p + 1) (by linarith) (by linarith) (-7)]
    · push_cast; norm_num; ring
    · push_cast; norm_num; linarith
    · push_cast; norm_num; linarith
  have e4 : fl (2 * ((p : ℝ) + 5 / 64)) = 2 * ((p : ℝ) + 5 / 64) :=
    fl_dyadic hfl (64 * p + 5) (-5) (by rw [abs_of_nonneg (by omega)]; omega) (by push_cast; norm_num; ring)
  have hr : (p : ℝ) = 6378164 + (k - 5) / 64 := by rw [hpR, hkR]; ring
  have e8 : fl (6378164 ^ 2 - (((p : ℝ) + 5 / 64) ^ 2 + 7 / 4096)) = 6378164 ^ 2 - (((p : ℝ) + 5 / 64) ^ 2 + 7 / 4096) :=
    fl_dyadic hfl (128 * 6378164 ^ 2 - (128 * p ^ 2 + 20 * p + 1)) (-7) (by rw [abs_lt]; constructor <;> linarith)
      (by push_cast; norm_num; ring)
  have e9 : fl (6378164 ^ 2 - (((p : ℝ) + 5 / 64) ^ 2 + 7 / 4096) - ((k : ℝ) / 64) ^ 2)
      = 6378164 ^ 2 - (((p : ℝ) + 5 / 64) ^ 2 + 7 / 4096) - ((k : ℝ) / 64) ^ 2 :=
    fl_dyadic hfl (32 * (128 * 6378164 ^ 2 - (128 * p ^ 2 + 20 * p + 1)) - k ^ 2) (-12)
      (by rw [abs_lt]; constructor <;> nlinarith) (by push_cast; norm_num; ring)
  have e10 : fl (-1 * (6378164 ^ 2 - (((p : ℝ) + 5 / 64) ^ 2 + 7 / 4096) - ((k : ℝ) / 64) ^ 2))
      = -1 * (6378164 ^ 2 - (((p : ℝ) + 5 / 64) ^ 2 + 7 / 4096) - ((k : ℝ) / 64) ^ 2) := by
    rw [neg_one_mul]
    exact hfl.self (e9 ▸ (hfl _).1.neg)
  have e11 : fl (2 * ((p : ℝ) + 5 / 64) * ((k : ℝ) / 64)) = 2 * ((p : ℝ) + 5 / 64) * ((k : ℝ) / 64) :=
    fl_dyadic hfl ((64 * p + 5) * k) (-11) (by rw [abs_of_nonneg (by positivity)]; nlinarith)
      (by push_cast; norm_num; ring)
  have hpa : (p : ℝ) ≤ 6398164 := by exact_mod_cast hp2
  have hpa' : (6378166 : ℝ) ≤ p := by exact_mod_cast hp1
  have hka : (k : ℝ) ≤ 1280005 := by exact_mod_cast hk2
  have hD0 : 0 < ((p : ℝ) + 5 / 64) * ((k : ℝ) / 64) := mul_pos (by linarith) (by linarith)
  have hD1 : ((p : ℝ) + 5 / 64) * ((k : ℝ) / 64) ≤ 1.3e11 :=
    (mul_le_mul (by linarith : (p : ℝ) + 5 / 64 ≤ 6398165) (by linarith : (k : ℝ) / 64 ≤ 20001) (by linarith)
      (by norm_num)).trans (by norm_num)
  have hid : -1 * (6378164 ^ 2 - (((p : ℝ) + 5 / 64) ^ 2 + 7 / 4096) - ((k : ℝ) / 64) ^ 2)
      = 2 * (((p : ℝ) + 5 / 64) * ((k : ℝ) / 64)) + 7 / 4096 := by rw [hr]; ring
  refine nadirAngleD_nan hfl (by rw [e1, e2, e8, e6, e9, e10]) (by rw [e1, e4, e11]) (by linarith) ?_
  rw [hid, mul_assoc 2 ((p : ℝ) + 5 / 64)]
  generalize ((p : ℝ) + 5 / 64) * ((k : ℝ) / 64) = x at *
  have h2 : 2 * x * (1 / 2 ^ 51) ≤ 2.6e11 * (1 / 2 ^ 51) := mul_le_mul_of_nonneg_right (by linarith) (by positivity)
  have h3 : (2.6e11 : ℝ) * (1 / 2 ^ 51) ≤ 7 / 4096 := by norm_num
  linarith

/-! ## Off nadir -/

theorem cosine_argument (hfl : RoundsToNearest fl) (hc : IsCosine cosD) {g : ℝ} (g0 : 1 ≤ g) (g1 : g ≤ 1000000) :
    |cosD (fl (g / 6378164)) - Real.cos (g / 6378164)| ≤ 9.2e-16 := by
  have h1 := hfl.error_le (x := g / 6378164) (M := 0.157) (by
    rw [abs_of_nonneg (by positivity), div_le_iff₀ (by norm_num)]; linarith)
  have h2 := hc.accurate (fl (g / 6378164))
  have h3 : |Real.cos (fl (g / 6378164)) - Real.cos (g / 6378164)| ≤ |fl (g / 6378164) - g / 6378164| :=
    Real.abs_cos_sub_cos_le _ _
  have h4 : (2 : ℝ) ^ (-50 : ℤ) * |Real.cos (fl (g / 6378164))| ≤ 2 ^ (-50 : ℤ) * 1 :=
    mul_le_mul_of_nonneg_left (Real.abs_cos_le_one _) (by positivity)
  have h5 := abs_add_le (cosD (fl (g / 6378164)) - Real.cos (fl (g / 6378164)))
    (Real.cos (fl (g / 6378164)) - Real.cos (g / 6378164))
  rw [sub_add_sub_cancel] at h5
  refine h5.trans ((add_le_add (h2.trans h4) (h3.trans h1)).trans (by norm_num))

theorem sin_nadir {h g d : ℝ} (h0 : 0 ≤ h) (g0 : 0 ≤ g) (hg : g ≤ 6378164) (hd : 0 < d)
    (hQ : d ^ 2 = 6378164 ^ 2 + (6378164 + h) ^ 2 - 2 * (6378164 + h) * 6378164 * Real.cos (g / 6378164)) :
    Real.sin (Real.arccos (((6378164 + h) ^ 2 + d ^ 2 - 6378164 ^ 2) / (2 * (6378164 + h) * d))) * d
      = 6378164 * Real.sin (g / 6378164) := by
  have hs : 0 ≤ Real.sin (g / 6378164) :=
    Real.sin_nonneg_of_nonneg_of_le_pi (by positivity) (by
      rw [div_le_iff₀ (by norm_num)]; nlinarith [Real.pi_gt_three])
  have hsc := Real.sin_sq_add_cos_sq (g / 6378164)
  have e : 1 - (((6378164 + h) ^ 2 + d ^ 2 - 6378164 ^ 2) / (2 * (6378164 + h) * d)) ^ 2
      = (6378164 * Real.sin (g / 6378164) / d) ^ 2 := by
    have ha : 0 < 6378164 + h := by linarith
    generalize Real.cos (g / 6378164) = c at *
    generalize Real.sin (g / 6378164) = s at *
    rw [div_pow, div_pow, mul_pow 6378164 s, show s ^ 2 = 1 - c ^ 2 by linarith, mul_pow _ d]
    generalize 6378164 + h = a at *
    have hd2 : d ^ 2 ≠ 0 := by positivity
    generalize d ^ 2 = P at *
    have ha2 : a ≠ 0 := ha.ne'
    field_simp
    rw [hQ]
    ring
  rw [Real.sin_arccos, e, Real.sqrt_sq (by positivity), div_mul_cancel₀ _ hd.ne']

theorem angle_accuracy (ha : IsArccos acosD) {x y g d : ℝ} (hx0 : 0 ≤ x) (hx1 : x ≤ 1) (hy0 : 0 ≤ y) (hy1 : y ≤ 1)
    (hxy : |x - y| ≤ 0.115 / d ^ 2) (g0 : 1 ≤ g) (g1 : g ≤ 1000000) (hd0 : 2.21 ≤ d) (hd1 : d ≤ 1.4701e6)
    (hs : 0.99 * g ≤ Real.sin (Real.arccos y) * d) : |acosD x - Real.arccos y| ≤ 0.4 / (g * d) := by
  have h1 := acute_close (Real.arccos_nonneg x) (Real.arccos_le_pi_div_two.mpr hx0) (Real.arccos_nonneg y)
    (Real.arccos_le_pi_div_two.mpr hy0)
  rw [Real.cos_arccos (by linarith) hx1, Real.cos_arccos (by linarith) hy1] at h1
  have h2 := ha.accurate x (by rw [abs_of_nonneg hx0]; exact hx1)
  have h3 : Real.arccos x ≤ 1.5708 := by
    have := Real.arccos_le_pi_div_two.mpr hx0
    linarith [Real.pi_lt_d6]
  have h4 := abs_add_le (acosD x - Real.arccos x) (Real.arccos x - Real.arccos y)
  rw [sub_add_sub_cancel] at h4
  have hpi := Real.pi_lt_d2
  have hd : 0 < d := by linarith
  have hgd : 0 < g * d := by positivity
  rw [le_div_iff₀ hgd]
  have h5 : |Real.arccos x - Real.arccos y| * (g * d) ≤ 0.366 := by
    have e1 : 0.99 * g * |Real.arccos x - Real.arccos y|
        ≤ Real.sin (Real.arccos y) * d * |Real.arccos x - Real.arccos y| :=
      mul_le_mul_of_nonneg_right hs (abs_nonneg _)
    have e2 : Real.sin (Real.arccos y) * d * |Real.arccos x - Real.arccos y| ≤ d * (Real.pi * |x - y|) := by
      calc _ = d * (Real.sin (Real.arccos y) * |Real.arccos x - Real.arccos y|) := by ring
        _ ≤ _ := mul_le_mul_of_nonneg_left h1 hd.le
    have e3 : Real.pi * |x - y| ≤ 3.15 * (0.115 / d ^ 2) := mul_le_mul hpi.le hxy (abs_nonneg _) (by norm_num)
    have e4 : d * (d * (Real.pi * |x - y|)) ≤ 3.15 * 0.115 := by
      calc d * (d * (Real.pi * |x - y|)) ≤ d * (d * (3.15 * (0.115 / d ^ 2))) :=
            mul_le_mul_of_nonneg_left (mul_le_mul_of_nonneg_left e3 hd.le) hd.le
        _ = _ := by field_simp
    have e5 : d * (0.99 * g * |Real.arccos x - Real.arccos y|) ≤ 3.15 * 0.115 :=
      (mul_le_mul_of_nonneg_left (e1.trans e2) hd.le).trans e4
    have e6 : d * (0.99 * g * |Real.arccos x - Real.arccos y|) = 0.99 * (|Real.arccos x - Real.arccos y| * (g * d)) := by
      ring
    rw [e6] at e5
    linarith
  have h6 : (2 : ℝ) ^ (-50 : ℤ) * Real.arccos x ≤ 1.4e-15 :=
    (mul_le_mul_of_nonneg_left h3 (by positivity)).trans (by norm_num)
  have h7 : g * d ≤ 1000000 * 1.4701e6 := mul_le_mul g1 hd1 hd.le (by norm_num)
  have h8 : |acosD x - Real.arccos x| * (g * d) ≤ 1.4e-15 * (1000000 * 1.4701e6) :=
    mul_le_mul (h2.trans h6) h7 hgd.le (by norm_num)
  have h9 := mul_le_mul_of_nonneg_right h4 hgd.le
  rw [add_mul] at h9
  linarith

/-- **C106** (off nadir). For every altitude from 2 m to 1000 km and every ground range from 1 m to 1000 km, the computed
slant range and nadir angle exist. The slant range `b` is within a tenth of a square metre, divided by the slant range, of
the exact one, and the nadir angle within 0.4 square metres divided by slant range times ground range. -/
theorem C106_off_nadir (hfl : RoundsToNearest fl) (hc : IsCosine cosD) (ha : IsArccos acosD) {h g : ℝ} (h0 : 2 ≤ h)
    (h1 : h ≤ 1000000) (g0 : 1 ≤ g) (g1 : g ≤ 1000000) :
    ∃ d η b η', curvedEarthSlantRange 0 (.fin h) (.fin g) = .fin d ∧ h < d
      ∧ nadirAngle (.py 0) (.py (.fin h)) (.np (.fin d)) = .ok (.fin η)
      ∧ slantRangeD fl cosD 0 h g = .fin b ∧ |b - d| ≤ 0.1 / d
      ∧ nadirAngleD fl acosD 0 h (.fin b) = .fin η' ∧ |η' - η| ≤ 0.4 / (g * d) := by
  obtain ⟨q0, q1, c0, s0⟩ := arc_bounds h0 h1 g0 g1
  have c1 := Real.cos_le_one (g / 6378164)
  obtain ⟨Q, hQ⟩ : ∃ Q, Q = 6378164 ^ 2 + (6378164 + h) ^ 2 - 2 * (6378164 + h) * 6378164 * Real.cos (g / 6378164) :=
    ⟨_, rfl⟩
  have hg2 : 1 ≤ g ^ 2 := one_le_pow₀ g0
  have hg2' : g ^ 2 ≤ 1e12 := (pow_le_pow_left₀ (by linarith) g1 2).trans (by norm_num)
  have hh2 : 4 ≤ h ^ 2 := le_trans (by norm_num) (pow_le_pow_left₀ (by norm_num) h0 2)
  have hh2' : h ^ 2 ≤ 1e12 := (pow_le_pow_left₀ (by linarith) h1 2).trans (by norm_num)
  have hQ' : Q = h ^ 2 + 2 * (6378164 + h) * 6378164 * (1 - Real.cos (g / 6378164)) := by rw [hQ]; ring
  have hQl : h ^ 2 + 0.99 ≤ Q := by rw [hQ']; linarith
  have hQu : Q ≤ 2.161e12 := by rw [hQ']; linarith
  have hQ0 : 0 < Q := by linarith
  have hd : 0 < Real.sqrt Q := Real.sqrt_pos.mpr hQ0
  have hdd := Real.sq_sqrt hQ0.le
  have hhd : h < Real.sqrt Q := by rw [Real.lt_sqrt (by linarith)]; linarith
  have hdl : 2.21 ≤ Real.sqrt Q := by
    rw [Real.le_sqrt' (by norm_num)]
    have : (2.21 : ℝ) ^ 2 ≤ 4.9 := by norm_num
    linarith
  have hdu : Real.sqrt Q ≤ 1.4701e6 := by
    rw [Real.sqrt_le_left (by norm_num)]
    exact hQu.trans (by norm_num)
  have hsl : curvedEarthSlantRange 0 (.fin h) (.fin g) = .fin (Real.sqrt Q) := by
    have := slant_fin 0 h g
    rw [hQ]
    refine this.trans ?_
    unfold sq2
    norm_num [R]
  have hna : nadirAngle (.py 0) (.py (.fin h)) (.np (.fin (Real.sqrt Q)))
      = .ok (.fin (Real.arccos (((6378164 + h) ^ 2 + Real.sqrt Q ^ 2 - 6378164 ^ 2) / (2 * (6378164 + h) * Real.sqrt Q)))) := by
    have hRh : 0 < R + h := by linarith [R_pos]
    have e0 : sq2 0 h g = Q := by rw [hQ]; unfold sq2; norm_num [R]
    have := cosNadir_bounds (ht := 0) (hs := h) (g := g) hRh (by rw [e0]; exact hQ0)
    rw [nadir_val (ht := 0) (hs := h) (b := Real.sqrt Q) rfl rfl rfl (by positivity)]
    rw [e0] at this
    rw [XR.arccos]
    rw [if_pos this]
    unfold cosNadir
    norm_num [R]
    congr 1
    ring
  have hsin := sin_nadir (by linarith) (by linarith) (by linarith) hd (hdd.trans hQ)
  have hrad := sensor_radius hfl h0 h1
  have hur := under_root hfl (a0 := 6378164 + h) (by linarith) (by linarith) hrad c0 c1 (cosine_argument hfl hc g0 g1)
  rw [← hQ] at hur
  obtain ⟨r0, r1, r2⟩ := root_error hfl (by linarith) (by linarith) hur
  have ht : fl (6378164 + 0) = 6378164 := by
    have := fl_target hfl
    rwa [show rEarth = 6378164 by norm_num [rEarth]] at this
  have hslD : slantRangeD fl cosD 0 h g = .fin (fl (Real.sqrt (fl (fl (6378164 ^ 2 + fl (fl (6378164 + h) ^ 2))
      - fl (fl (fl (2 * fl (6378164 + h)) * 6378164) * cosD (fl (g / 6378164))))))) := by
    unfold slantRangeD
    simp only [show rEarth = 6378164 by norm_num [rEarth], ht, fl_target_sq hfl]
    rw [if_neg (not_lt.mpr r0)]
  generalize fl (Real.sqrt (fl (fl (6378164 ^ 2 + fl (fl (6378164 + h) ^ 2))
      - fl (fl (fl (2 * fl (6378164 + h)) * 6378164) * cosD (fl (g / 6378164)))))) = b at *
  obtain ⟨p1, p2⟩ := nadir_parts hfl (a0 := 6378164 + h) (by linarith) (by linarith) hrad (by linarith) (by linarith) r1 r2
  obtain ⟨o1, o2, o3⟩ := nadir_order h0 h1 r1 r2 hQl hQu p1 p2
  have hx : cosNadirD fl 0 h b = fl (-fl (fl (6378164 ^ 2 - fl (fl (6378164 + h) ^ 2)) - fl (b ^ 2))
      / fl (fl (2 * fl (6378164 + h)) * b)) := by
    unfold cosNadirD
    simp only [show rEarth = 6378164 by norm_num [rEarth], ht, fl_target_sq hfl, neg_one_mul]
    rw [hfl.self (hfl _).1.neg]
  have hDD : fl (fl (2 * fl (rEarth + h)) * b) = fl (fl (2 * fl (6378164 + h)) * b) := by
    rw [show rEarth = 6378164 by norm_num [rEarth]]
  generalize fl (fl (2 * fl (6378164 + h)) * b) = D at *
  generalize -fl (fl (6378164 ^ 2 - fl (fl (6378164 + h) ^ 2)) - fl (b ^ 2)) = N at *
  have hf1 : fl 1 = 1 := fl_dyadic hfl 1 0 (by norm_num) (by norm_num)
  have hq0 : 0 ≤ N / D := div_nonneg o1 o3.le
  have hq1 : N / D ≤ 1 := (div_le_one o3).mpr o2
  have hx0 : 0 ≤ fl (N / D) := by rw [← hfl.zero]; exact hfl.mono hq0
  have hx1 : fl (N / D) ≤ 1 := by
    have := hfl.mono hq1
    rwa [hf1] at this
  rw [← hdd] at p1 r2
  have hX0 : 0 ≤ (6378164 + h) ^ 2 + Real.sqrt Q ^ 2 - 6378164 ^ 2 := by nlinarith [sq_nonneg (Real.sqrt Q)]
  have hXd : (6378164 + h) ^ 2 + Real.sqrt Q ^ 2 - 6378164 ^ 2 ≤ 2 * (6378164 + h) * Real.sqrt Q := by
    have : 0 ≤ (Real.sqrt Q - h) * (2 * 6378164 + h - Real.sqrt Q) := mul_nonneg (by linarith) (by linarith)
    nlinarith
  have hacc := cosine_accuracy (a0 := 6378164 + h) (by linarith) r1 hdl hdu r2 p1 hX0 hXd p2
  have hden : 0 < 2 * (6378164 + h) * Real.sqrt Q := by positivity
  have hy0 := div_nonneg hX0 hden.le
  have hy1 := (div_le_one hden).mpr hXd
  refine ⟨Real.sqrt Q, _, b, acosD (fl (N / D)), hsl, hhd, hna, hslD, ?_, ?_, ?_⟩
  · refine (root_diff r1 hdl r2).2.2.trans ?_
    exact div_le_div_of_nonneg_right (by norm_num) hd.le
  · unfold nadirAngleD
    simp only [hDD, if_neg o3.ne', hx]
    rw [if_pos (by rw [abs_of_nonneg hx0]; exact hx1)]
  · refine angle_accuracy ha hx0 hx1 hy0 hy1 ?_ g0 g1 hdl hdu (by rw [hsin]; exact s0)
    have e1 := hfl.error_le (x := N / D) (M := 1) (by rw [abs_of_nonneg hq0]; exact hq1)
    have e2 := abs_add_le (fl (N / D) - N / D)
      (N / D - ((6378164 + h) ^ 2 + Real.sqrt Q ^ 2 - 6378164 ^ 2) / (2 * (6378164 + h) * Real.sqrt Q))
    rw [sub_add_sub_cancel] at e2
    have e3 : 1.2e-16 * 1 ≤ 0.001 / Real.sqrt Q ^ 2 := by
      rw [le_div_iff₀ (by positivity), hdd]
      linarith
    refine e2.trans ((add_le_add (e1.trans e3) hacc).trans ?_)
    rw [← add_div]
    exact div_le_div_of_nonneg_right (by norm_num) (by positivity)

/-! ## What a missing nadir angle spoils -/

theorem zipWith_replicate_nan {f : XR → XR → XR} (hf : ∀ x, f .nan x = .nan) :
    ∀ (n : ℕ) (xs : List XR), xs.length = n → List.zipWith f (List.replicate n .nan) xs = List.replicate n .nan
  | 0, _, _ => by simp
  | n + 1, [], h => by simp at h
  | n + 1, x :: xs, h => by
    rw [List.replicate_succ, List.zipWith_cons_cons, hf, zipWith_replicate_nan hf n xs (by simpa using h)]

theorem diff_length_nan : ∀ xs : List XR, (diff xs).length = xs.length - 1
  | [] => rfl
  | [_] => rfl
  | a :: b :: t => by
    rw [diff, List.length_cons, diff_length_nan (b :: t)]
    simp

theorem trapz_nan {n : ℕ} {z : List XR} (hz : z.length = n + 2) : trapz (List.replicate (n + 2) .nan) z = .ok .nan := by
  have h1 : bc2 (· + ·) (List.replicate (n + 2) XR.nan).tail (List.replicate (n + 2) XR.nan).dropLast
      = .ok (List.replicate (n + 1) .nan) := by
    rw [bc2_eq (by simp), show (List.replicate (n + 2) XR.nan).tail = List.replicate (n + 1) .nan from rfl,
      zipWith_replicate_nan XR.nan_add _ _ (by simp)]
  have h2 : bc2 (· * ·) (diff z) (List.replicate (n + 1) XR.nan) = .ok (List.replicate (n + 1) .nan) := by
    rw [bc2_eq (by rw [diff_length_nan, hz]; simp), List.zipWith_comm]
    exact congrArg _ (zipWith_replicate_nan XR.mul_nan _ _ (by rw [diff_length_nan, hz]; rfl))
  unfold trapz
  rw [h1]
  simp only [bind, Except.bind, h2]
  rw [List.map_replicate, XR.nan_div, asum, List.replicate_succ, List.foldr_cons, XR.nan_add]

/-- The coherence diameter of an unknown profile is unknown. -/
theorem coherence_nan {n : ℕ} {z : List XR} (hz : z.length = n + 2) {lam : Scal} {r : XR}
    (h : coherenceDiameter lam z (List.replicate (n + 2) .nan) = .ok r) : r = .nan := by
  unfold coherenceDiameter at h
  cases hm : amax z with
  | error e => simp [hm, bind, Except.bind] at h
  | ok m =>
    have h1 : bc2 (· * ·) (List.replicate (n + 2) XR.nan) (z.map fun z => (z / m).rpow (5 / 3))
        = .ok (List.replicate (n + 2) .nan) := by
      rw [bc2_eq (by simp [hz]), zipWith_replicate_nan XR.nan_mul _ _ (by simp [hz])]
    simp only [hm, bind, Except.bind, h1, trapz_nan hz] at h
    cases hk : Scal.div (.py (2 * .fin Real.pi)) lam with
    | error e => simp [hk] at h
    | ok k =>
      simp only [hk, XR.nan_mul] at h
      rw [← Except.ok.inj h, XR.rpow, if_neg (by norm_num)]

/-- **C106** (consequences). Without a nadir angle there is no elevation, no GIQE 4 and no GIQE 5 score, whatever the
camera: `giqe4` and `giqe5` return no number for the score and the ground sample distance; every height along the line of
sight is no number, hence the turbulence there and the coherence diameter of the path. -/
theorem C106_consequences :
    elevationD fl .nan = .nan
      ∧ (∀ rer gsd eho ng snr r, giqe4 rer gsd eho ng snr .nan = .ok r → r = (.nan, .nan))
      ∧ (∀ rer1 rer2 gsd snr r, giqe5 rer1 rer2 gsd snr .nan = .ok r → r.1 = .nan ∧ r.2.1 = .nan)
      ∧ ∀ hs b v cn2 lam r, coherenceDiameter lam ((List.range 10000).map fun i => .fin (linspaceD fl 0 b 10000 i))
          ((List.range 10000).map fun i => hvProfile v cn2 (pathHeightD fl cosD hs b .nan i)) = .ok r → r = .nan := by
  have hv : ∀ v cn2, hvProfile v cn2 .nan = .nan := fun v cn2 => by
    unfold hvProfile
    rw [show (XR.nan : XR) ^ 10 = .nan from rfl, XR.mul_nan, XR.nan_mul, XR.nan_add, XR.nan_add]
  refine ⟨rfl, ?_, ?_, ?_⟩
  · intro rer gsd eho ng snr r h
    unfold giqe4 at h
    cases hn : (Scal.py 0.334 * ng).div snr with
    | error e => simp [hn, bind, Except.bind] at h
    | ok n =>
      have h1 : (gsd.val / XR.nan.sin.rpow 0.5) = .nan := by
        rw [show XR.nan.sin = .nan from rfl, XR.rpow, if_neg (by norm_num), XR.div_nan]
      simp only [hn, bind, Except.bind, h1, XR.nan_div, XR.log10, XR.mul_nan, XR.sub_nan, XR.nan_add, XR.nan_sub] at h
      exact (Except.ok.inj h).symm
  · intro rer1 rer2 gsd snr r h
    unfold giqe5 at h
    cases hn : (Scal.py (-(1.9 : XR))).div snr with
    | error e => simp [hn, bind, Except.bind] at h
    | ok n =>
      cases hm : (Scal.py 1.8).div snr with
      | error e => simp [hn, hm, bind, Except.bind] at h
      | ok m =>
        have h1 : (gsd / XR.nan.sin.rpow 0.25) = .nan := by
          rw [show XR.nan.sin = .nan from rfl, XR.rpow, if_neg (by norm_num), XR.div_nan]
        simp only [hn, hm, bind, Except.bind, h1, XR.nan_div, XR.log10, XR.mul_nan, XR.sub_nan, XR.nan_add, XR.nan_sub] at h
        rw [← Except.ok.inj h]
        exact ⟨rfl, rfl⟩
  · intro hs b v cn2 lam r h
    have h2 : ((List.range 10000).map fun i => hvProfile v cn2 (pathHeightD fl cosD hs b .nan i))
        = List.replicate (9998 + 2) .nan := by
      rw [List.eq_replicate_iff]
      refine ⟨by simp, ?_⟩
      intro x hx
      obtain ⟨i, -, rfl⟩ := List.mem_map.mp hx
      exact hv v cn2
    rw [h2] at h
    exact coherence_nan (by simp) h

/-! ## The hypotheses can be met -/

theorem real_cosine : IsCosine Real.cos :=
  ⟨fun x => by rw [sub_self, abs_zero]; positivity, Real.cos_zero⟩

theorem real_arccos : IsArccos Real.arccos :=
  ⟨fun x _ => by rw [sub_self, abs_zero]; exact mul_nonneg (by positivity) (Real.arccos_nonneg x)⟩

/-- 9000 m up, looking straight down: the nadir angle is zero. A thirty-second of a metre higher it is no number, and
`giqe5` has no score. One kilometre off, it is a number again. -/
example : nadirAngleD roundDouble Real.arccos 0 ((72000 : ℕ) / 8) (slantRangeD roundDouble Real.cos 0 ((72000 : ℕ) / 8) 0) = .fin 0
    ∧ nadirAngleD roundDouble Real.arccos 0 ((9000 : ℕ) + 1 / 32)
        (slantRangeD roundDouble Real.cos 0 ((9000 : ℕ) + 1 / 32) 0) = .nan
    ∧ (∃ r, giqe5 0.4 0.4 0.3 (.np 20) .nan = .ok r)
    ∧ ∃ η, nadirAngleD roundDouble Real.arccos 0 9000.03125 (slantRangeD roundDouble Real.cos 0 9000.03125 1000) = .fin η := by
  refine ⟨?_, ?_, ?_, ?_⟩
  · obtain ⟨h1, h2⟩ := C106_nadir_exact roundDouble_rounds real_cosine real_arccos (k := 72000) (by norm_num) (by norm_num)
    rw [h1, h2]
  · obtain ⟨b, h1, -, -, h2⟩ := C106_nadir_nan (acosD := Real.arccos) roundDouble_rounds real_cosine (n := 9000) (by norm_num)
      (by norm_num)
    rw [h1, h2]
  · exact ⟨_, by unfold giqe5; rfl⟩
  · obtain ⟨d, η, b, η', -, -, -, h1, -, h2, -⟩ := C106_off_nadir roundDouble_rounds real_cosine real_arccos
      (h := 9000.03125) (g := 1000) (by norm_num) (by norm_num) (by norm_num) (by norm_num)
    exact ⟨η', by rw [h1, h2]⟩

end PyBSM
