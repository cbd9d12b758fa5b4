import Verif.Model.DoubleSimulate
import Verif.Lemmas.DoubleSlices
import Verif.Spec.DoubleMtf
import Verif.Spec.Simulation
import Mathlib.Analysis.SpecialFunctions.Trigonometric.ArctanDeriv
import Mathlib.Analysis.Convex.Deriv

/-!
# The scalars of `simulate_image` in double precision (C147)
-/

noncomputable section

open Classical

namespace PyBSM

open Spec

variable {fl atanD : ℝ → ℝ}

/-! ## Frequencies -/

theorem fl_seven_fifty (hfl : RoundsToNearest fl) : fl (fl (1 - -1) / (((1501 : ℕ) : ℝ) - 1)) = 6148914691236517 * (2 : ℝ) ^ (-62 : ℤ) := by
  have d2 : fl (1 - -1) = 2 := by
    rw [show (1 : ℝ) - -1 = ((2 : ℕ) : ℝ) by norm_num, hfl.self (isDouble_nat (by norm_num))]; norm_num
  rw [d2]
  have := hfl.eq (m := 6148914691236517) (by norm_num) (by norm_num) (-62) (x := 2 / (((1501 : ℕ) : ℝ) - 1)) (by norm_num) (by norm_num)
  exact_mod_cast this

theorem linspace1501_mirror (i : ℕ) : linspaceD fl 1 (-1) 1501 i = -linspaceD (fun x => -fl (-x)) (-1) 1 1501 i := by
  unfold linspaceD
  by_cases h : i + 1 = 1501
  · rw [if_pos h, if_pos h]
  · rw [if_neg h, if_neg h]
    have e1 : (-1 : ℝ) - 1 = -(1 - -1) := by norm_num
    simp only [e1, neg_neg, mul_neg, neg_div, neg_add]

theorem linspace1501_close (hfl : RoundsToNearest fl) {j : ℕ} (hj : j ≤ 1500) :
    |linspaceD fl (-1) 1 1501 j - (2 * j / 1500 - 1)| ≤ 4.8e-16 := by
  unfold linspaceD
  split_ifs with h
  · have : j = 1500 := by omega
    rw [this]; norm_num
  · rw [fl_seven_fifty hfl]
    have hj' : (j : ℝ) ≤ 1500 := by exact_mod_cast hj
    have hj0 : (0 : ℝ) ≤ j := Nat.cast_nonneg j
    have hd : |(6148914691236517 : ℝ) * (2 : ℝ) ^ (-62 : ℤ) - 2 / 1500| ≤ 6e-20 := by
      rw [abs_le]; constructor <;> norm_num
    have e1 : |j * (6148914691236517 * (2 : ℝ) ^ (-62 : ℤ)) - 2 * j / 1500| ≤ 9e-17 := by
      rw [show (j : ℝ) * (6148914691236517 * (2 : ℝ) ^ (-62 : ℤ)) - 2 * j / 1500 = j * (6148914691236517 * (2 : ℝ) ^ (-62 : ℤ) - 2 / 1500) by ring,
        abs_mul, abs_of_nonneg hj0]
      calc (j : ℝ) * _ ≤ 1500 * 6e-20 := mul_le_mul hj' hd (abs_nonneg _) (by norm_num)
        _ = 9e-17 := by norm_num
    generalize (j : ℝ) * (6148914691236517 * (2 : ℝ) ^ (-62 : ℤ)) = x at *
    obtain ⟨a1, a2⟩ := abs_le.mp e1
    have hx2 : |x| ≤ 2.0001 := by rw [abs_le]; constructor <;> linarith
    have e2 := fl_close hfl hx2
    obtain ⟨b1, b2⟩ := abs_le.mp e2
    have hy : |fl x + -1| ≤ 1.0002 := by rw [abs_le]; constructor <;> linarith
    have e3 := fl_close hfl hy
    obtain ⟨c1, c2⟩ := abs_le.mp e3
    rw [abs_le]; constructor <;> linarith

theorem linspace1501_centre (hfl : RoundsToNearest fl) : linspaceD fl (-1) 1 1501 750 = 0 := by
  unfold linspaceD
  rw [if_neg (by norm_num), fl_seven_fifty hfl]
  have h1 : fl (((750 : ℕ) : ℝ) * (6148914691236517 * (2 : ℝ) ^ (-62 : ℤ))) = 1 := by
    apply le_antisymm
    · have h2 : fl 1 = 1 := hfl.self (by simpa using isDouble_nat (m := 1) (by norm_num))
      have := hfl.mono (y := 1) (x := ((750 : ℕ) : ℝ) * (6148914691236517 * (2 : ℝ) ^ (-62 : ℤ))) (by norm_num)
      rwa [h2] at this
    · have := hfl.ge_of_gt (m := 2 ^ 53 - 1) (by norm_num) (by norm_num) (-53)
        (x := ((750 : ℕ) : ℝ) * (6148914691236517 * (2 : ℝ) ^ (-62 : ℤ))) (by norm_num)
      norm_num at this ⊢
      exact this
  rw [h1]
  norm_num
  exact hfl.zero

theorem simFreqV_mirror (c : ℝ) (i : ℕ) : simFreqVD fl c i = -simFreqUD (fun x => -fl (-x)) c i := by
  unfold simFreqVD simFreqUD
  rw [linspace1501_mirror]
  simp only [neg_neg, neg_mul]

theorem simFreqU_close (hfl : RoundsToNearest fl) {c : ℝ} (hc : 0 ≤ c) {j : ℕ} (hj : j ≤ 1500) :
    |simFreqUD fl c j - colFreq 1501 c j| ≤ 6.1e-16 * c := by
  unfold simFreqUD colFreq
  have e1 := linspace1501_close hfl hj
  have hj' : (j : ℝ) ≤ 1500 := by exact_mod_cast hj
  have hj0 : (0 : ℝ) ≤ j := Nat.cast_nonneg j
  rw [show (2 * (j : ℝ) / (((1501 : ℕ) : ℝ) - 1) - 1) * c = (2 * j / 1500 - 1) * c by norm_num]
  generalize linspaceD fl (-1) 1 1501 j = x at *
  obtain ⟨a1, a2⟩ := abs_le.mp e1
  have hx : |x * c| ≤ 1.001 * c := by
    rw [abs_mul, abs_of_nonneg hc]
    refine mul_le_mul_of_nonneg_right ?_ hc
    rw [abs_le]; constructor <;> linarith
  have e2 := fl_close hfl hx
  have e3 : |x * c - (2 * j / 1500 - 1) * c| ≤ 4.8e-16 * c := by
    rw [← sub_mul, abs_mul, abs_of_nonneg hc]
    exact mul_le_mul_of_nonneg_right e1 hc
  have := abs_sub_le (fl (x * c)) (x * c) ((2 * j / 1500 - 1) * c)
  linarith

/-- **C147** (grid): the frequencies at which `simulate_image` evaluates the system OTF are those of exact arithmetic within 6.1e-16 of
the cutoff frequency, and those in the middle are exactly zero, so that the OTF there is the one of a flat scene. -/
theorem C147_grid (hfl : RoundsToNearest fl) {c : ℝ} (hc : 0 ≤ c) :
    (∀ j < 1501, |simFreqUD fl c j - colFreq 1501 c j| ≤ 6.1e-16 * c) ∧ (∀ i < 1501, |simFreqVD fl c i - rowFreq 1501 c i| ≤ 6.1e-16 * c)
      ∧ simFreqUD fl c 750 = 0 ∧ simFreqVD fl c 750 = 0 := by
  refine ⟨fun j hj => simFreqU_close hfl hc (by omega), fun i hi => ?_, ?_, ?_⟩
  · have := simFreqU_close hfl.mirror hc (j := i) (by omega)
    rw [simFreqV_mirror, show rowFreq 1501 c i = -colFreq 1501 c i by unfold rowFreq colFreq; ring, ← neg_sub', abs_neg]
    exact this
  · unfold simFreqUD
    rw [linspace1501_centre hfl, zero_mul, hfl.zero]
  · rw [simFreqV_mirror]
    unfold simFreqUD
    rw [linspace1501_centre hfl.mirror, zero_mul]
    simp [hfl.zero]

/-- **C147** (spacing): for a positive cutoff frequency the error "Cutoff frequency values must be increasing" is not raised, and the
spacing of the frequencies has a relative error below 1e-12. -/
theorem C147_step (hfl : RoundsToNearest fl) {c : ℝ} (hc : 0 < c) :
    ¬ simStepRejected fl c ∧ |simStepD fl c - c / 750| ≤ 1e-12 * (c / 750) := by
  obtain ⟨hu, hv, -, -⟩ := C147_grid hfl hc.le
  have key : |simStepD fl c - c / 750| ≤ 1e-12 * (c / 750) := by
    have part : ∀ {x y e f : ℝ}, |x - e| ≤ 6.1e-16 * c → |y - f| ≤ 6.1e-16 * c → e - f = c / 750
        → |(|fl (x - y)| - c / 750)| ≤ 1.222e-15 * c := by
      intro x y e f h1 h2 h3
      obtain ⟨a1, a2⟩ := abs_le.mp h1
      obtain ⟨b1, b2⟩ := abs_le.mp h2
      have h4 : |x - y| ≤ 0.002 * c := by rw [abs_le]; constructor <;> linarith
      obtain ⟨d1, d2⟩ := abs_le.mp (fl_close hfl h4)
      rw [abs_of_nonneg (a := fl (x - y)) (by linarith), abs_le]
      constructor <;> linarith
    have p1 := part (hu 1 (by norm_num)) (hu 0 (by norm_num)) (by unfold colFreq; push_cast; ring)
    have p2 := part (hv 0 (by norm_num)) (hv 1 (by norm_num)) (by unfold rowFreq; push_cast; ring)
    unfold simStepD
    generalize |fl (simFreqUD fl c 1 - simFreqUD fl c 0)| = x at *
    generalize |fl (simFreqVD fl c 0 - simFreqVD fl c 1)| = y at *
    obtain ⟨a1, a2⟩ := abs_le.mp p1
    obtain ⟨b1, b2⟩ := abs_le.mp p2
    have h4 : |x + y| ≤ 0.003 * c := by rw [abs_le]; constructor <;> linarith
    obtain ⟨d1, d2⟩ := abs_le.mp (fl_close hfl h4)
    have h5 : |fl (x + y) / 2| ≤ 0.002 * c := by rw [abs_le]; constructor <;> linarith
    obtain ⟨g1, g2⟩ := abs_le.mp (fl_close hfl h5)
    rw [abs_le]
    constructor <;> linarith
  refine ⟨?_, key⟩
  unfold simStepRejected
  obtain ⟨a1, -⟩ := abs_le.mp key
  linarith

/-! ## Noise -/

theorem rounded_nonneg (hfl : RoundsToNearest fl) {x : ℝ} (h : 0 ≤ x) : 0 ≤ fl x := by
  have := hfl.mono h
  rwa [hfl.zero] at this

theorem fl_relative (hfl : RoundsToNearest fl) {ε x' x : ℝ} (hx : 0 ≤ x) (h : |x' - x| ≤ ε * x) :
    |fl x' - x| ≤ (ε + 1.2e-16 * (1 + ε)) * x := by
  obtain ⟨a1, a2⟩ := abs_le.mp h
  have h2 : |x'| ≤ (1 + ε) * x := by
    have : x' = (x' - x) + x := by ring
    rw [this]
    refine (abs_add_le _ _).trans ?_
    rw [abs_of_nonneg hx]
    linarith
  have h3 := fl_close hfl h2
  have := abs_sub_le (fl x') x' x
  linarith

theorem sqrt_relative {ε y' y : ℝ} (hy' : 0 ≤ y') (hy : 0 ≤ y) (h : |y' - y| ≤ ε * y) :
    |Real.sqrt y' - Real.sqrt y| ≤ ε * Real.sqrt y := by
  have s0 := Real.sqrt_nonneg y
  have s0' := Real.sqrt_nonneg y'
  rcases s0.eq_or_lt with e | hp
  · have : y = 0 := (Real.sqrt_eq_zero hy).mp e.symm
    rw [this, sub_zero, mul_zero, abs_nonpos_iff] at h
    rw [this, h]
    simp
  · refine le_of_mul_le_mul_right ?_ hp
    calc |Real.sqrt y' - Real.sqrt y| * Real.sqrt y ≤ |Real.sqrt y' - Real.sqrt y| * (Real.sqrt y' + Real.sqrt y) :=
          mul_le_mul_of_nonneg_left (by linarith) (abs_nonneg _)
      _ = |y' - y| := by
          rw [← abs_of_nonneg (a := Real.sqrt y' + Real.sqrt y) (by linarith), ← abs_mul]
          congr 1
          have e1 := Real.mul_self_sqrt hy
          have e2 := Real.mul_self_sqrt hy'
          nlinarith
      _ ≤ ε * y := h
      _ = ε * Real.sqrt y * Real.sqrt y := by rw [mul_assoc, Real.mul_self_sqrt hy]

theorem hypot_relative (hfl : RoundsToNearest fl) {ε a' a b : ℝ} (he : 0 ≤ ε) (he1 : ε ≤ 1e-14) (h : |a' - a| ≤ ε * |a|) :
    |fl (Real.sqrt (fl (fl (a' ^ 2) + fl (b ^ 2)))) - Real.sqrt (a ^ 2 + b ^ 2)| ≤ (2.1 * ε + 4e-16) * Real.sqrt (a ^ 2 + b ^ 2) := by
  have a0 := sq_nonneg a
  have b0 := sq_nonneg b
  have h1 : |a' ^ 2 - a ^ 2| ≤ 2.05 * ε * a ^ 2 := by
    have e : a' ^ 2 - a ^ 2 = (a' - a) * ((a' - a) + 2 * a) := by ring
    have e2 : |(a' - a) + 2 * a| ≤ (2 + ε) * |a| := by
      refine (abs_add_le _ _).trans ?_
      rw [abs_mul, abs_two]
      linarith
    rw [e, abs_mul, ← sq_abs a]
    calc |a' - a| * |(a' - a) + 2 * a| ≤ (ε * |a|) * ((2 + ε) * |a|) := mul_le_mul h e2 (abs_nonneg _) (by positivity)
      _ = (2 + ε) * ε * |a| ^ 2 := by ring
      _ ≤ 2.05 * ε * |a| ^ 2 := by gcongr; linarith
  have h2 := fl_relative hfl a0 h1
  have h3 := fl_relative hfl b0 (ε := 0) (x' := b ^ 2) (x := b ^ 2) (by simp)
  have w : 0 ≤ ε * a ^ 2 := mul_nonneg he a0
  have h4 : |fl (a' ^ 2) + fl (b ^ 2) - (a ^ 2 + b ^ 2)| ≤ (2.06 * ε + 1.2e-16) * (a ^ 2 + b ^ 2) := by
    have e : fl (a' ^ 2) + fl (b ^ 2) - (a ^ 2 + b ^ 2) = (fl (a' ^ 2) - a ^ 2) + (fl (b ^ 2) - b ^ 2) := by ring
    rw [e]
    refine (abs_add_le _ _).trans ((add_le_add h2 h3).trans ?_)
    have : 0 ≤ ε * b ^ 2 := mul_nonneg he b0
    nlinarith
  have h5 := fl_relative hfl (add_nonneg a0 b0) h4
  have n1 : 0 ≤ fl (fl (a' ^ 2) + fl (b ^ 2)) :=
    rounded_nonneg hfl (add_nonneg (rounded_nonneg hfl (sq_nonneg _)) (rounded_nonneg hfl (sq_nonneg _)))
  have h6 := sqrt_relative n1 (add_nonneg a0 b0) h5
  refine (fl_relative hfl (Real.sqrt_nonneg _) h6).trans (mul_le_mul_of_nonneg_right ?_ (Real.sqrt_nonneg _))
  nlinarith

theorem quantization_close (hfl : RoundsToNearest fl) {n : ℝ} (hn : 0 ≤ n) {b : ℕ} (hb : 1 ≤ b) :
    |quantizationNoiseD fl n b - n / (Real.sqrt 12 * (2 ^ b - 1))| ≤ 5e-15 * |n / (Real.sqrt 12 * (2 ^ b - 1))| := by
  rcases hn.eq_or_lt with rfl | hp
  · unfold quantizationNoiseD
    simp [hfl.zero]
  · have p : (2 : ℝ) ≤ 2 ^ b := by
      calc (2 : ℝ) = 2 ^ 1 := by norm_num
        _ ≤ 2 ^ b := pow_le_pow_right₀ (by norm_num) hb
    have s : 0 < Real.sqrt 12 := Real.sqrt_pos.mpr (by norm_num)
    have h1 := (((fl_within hfl s).mul (fl_within hfl (x := 2 ^ b - 1) (by linarith))).round hfl)
    have h2 := ((Spec.WithinFactor.refl hp).div h1).round hfl
    have h3 := h2.error (by norm_num)
    rw [abs_of_pos h2.2.1]
    exact h3.trans (mul_le_mul_of_nonneg_right (by norm_num) h2.2.1.le)

/-- **C147** (noise): the standard deviation of the Gaussian noise that `simulate_image` adds is never negative (numpy raises
`ValueError` for a negative one) and has a relative error below 2e-14. It is zero only if the camera has no such noise. -/
theorem C147_noise (hfl : RoundsToNearest fl) {s : RealSensor} (hn : 0 ≤ s.maxN) {b : ℕ} (hb : 1 ≤ b) (hs : s.bitDepth = b) :
    0 ≤ simNoiseD fl s.maxN s.readNoise b ∧ |simNoiseD fl s.maxN s.readNoise b - s.gaussian| ≤ 2e-14 * s.gaussian
      ∧ (simNoiseD fl s.maxN s.readNoise b = 0 ↔ s.maxN = 0 ∧ s.readNoise = 0) := by
  have e : s.gaussian = Real.sqrt ((s.maxN / (Real.sqrt 12 * (2 ^ b - 1))) ^ 2 + s.readNoise ^ 2) := by
    unfold RealSensor.gaussian
    rw [hs, Real.rpow_natCast]
  have q := quantization_close hfl hn hb
  have g0 : 0 ≤ s.gaussian := by rw [e]; exact Real.sqrt_nonneg _
  have g1 : |simNoiseD fl s.maxN s.readNoise b - s.gaussian| ≤ 2e-14 * s.gaussian := by
    rw [e] at g0 ⊢
    exact (hypot_relative hfl (by norm_num) (by norm_num) q).trans (mul_le_mul_of_nonneg_right (by norm_num) g0)
  refine ⟨rounded_nonneg hfl (Real.sqrt_nonneg _), g1, ?_⟩
  have z : s.gaussian = 0 ↔ s.maxN = 0 ∧ s.readNoise = 0 := by
    have p : (2 : ℝ) ≤ 2 ^ b := by
      calc (2 : ℝ) = 2 ^ 1 := by norm_num
        _ ≤ 2 ^ b := pow_le_pow_right₀ (by norm_num) hb
    have d : Real.sqrt 12 * ((2 : ℝ) ^ b - 1) ≠ 0 := (mul_pos (Real.sqrt_pos.mpr (by norm_num)) (by linarith)).ne'
    rw [e, Real.sqrt_eq_zero (by positivity)]
    constructor
    · intro h
      have h1 := sq_nonneg (s.maxN / (Real.sqrt 12 * ((2 : ℝ) ^ b - 1)))
      have h2 := sq_nonneg s.readNoise
      refine ⟨?_, pow_eq_zero_iff (n := 2) (by norm_num) |>.mp (by linarith)⟩
      have : s.maxN / (Real.sqrt 12 * ((2 : ℝ) ^ b - 1)) = 0 := pow_eq_zero_iff (n := 2) (by norm_num) |>.mp (by linarith)
      exact (div_eq_zero_iff.mp this).resolve_right d
    · rintro ⟨h1, h2⟩
      rw [h1, h2]
      simp
  rw [← z]
  constructor
  · intro h
    rw [h, zero_sub, abs_neg, abs_of_nonneg g0] at g1
    linarith
  · intro h
    rw [h, sub_zero, mul_zero, abs_nonpos_iff] at g1
    exact g1

/-! ## Sizes -/

theorem slant_within (hfl : RoundsToNearest fl) {alt rng : ℝ} (ha : 0 < alt) :
    WithinFactor 1e-15 (flatSlantRangeD fl alt rng) (Real.sqrt (alt ^ 2 + rng ^ 2)) := by
  have h := hypot_relative hfl (ε := 0) (a' := alt) (a := alt) (b := rng) le_rfl (by norm_num) (by simp)
  refine (within_of_rel (ε := 4e-16) (Real.sqrt_pos.mpr (by positivity)) (by norm_num) ?_).mono (by norm_num)
  unfold flatSlantRangeD
  refine h.trans (mul_le_mul_of_nonneg_right (by norm_num) (Real.sqrt_nonneg _))

theorem ifov_within (hfl : RoundsToNearest fl) {pX pY f : ℝ} (hx : 0 < pX) (hy : 0 < pY) (hf : 0 < f) :
    WithinFactor 3e-15 (simIfovD fl pX pY f) ((pX + pY) / 2 / f) := by
  have h := ((((fl_within hfl (add_pos hx hy)).div (Spec.WithinFactor.refl (x := 2) (by norm_num))).round hfl).div
    (Spec.WithinFactor.refl hf)).round hfl
  exact h.mono (by norm_num)

theorem roundHalfEven_near {x y : ℝ} (hxy : |x - y| ≤ 1e-6) (hy : ∀ k : ℤ, 1e-6 < |y - (k + 1 / 2)|) :
    roundHalfEven x = roundHalfEven y := by
  have h1 : ∀ (z : ℝ) (k : ℤ), k - 1 / 2 < z → z < k + 1 / 2 → roundHalfEven z = k := by
    intro z k z1 z2
    unfold roundHalfEven
    by_cases hz : (k : ℝ) ≤ z
    · have : ⌊z⌋ = k := by rw [Int.floor_eq_iff]; exact ⟨hz, by linarith⟩
      rw [this, if_pos (by linarith)]
    · push Not at hz
      have : ⌊z⌋ = k - 1 := by rw [Int.floor_eq_iff]; push_cast; exact ⟨by linarith, by linarith⟩
      rw [this, if_neg (by push_cast; linarith), if_pos (by push_cast; linarith)]
      omega
  have f1 := Int.floor_le (y + 1 / 2)
  have f2 := Int.lt_floor_add_one (y + 1 / 2)
  generalize ⌊y + 1 / 2⌋ = k at *
  have k1 := hy k
  have k2 := hy (k - 1)
  push_cast at k2
  rw [abs_of_neg (by linarith)] at k1
  rw [abs_of_nonneg (by linarith)] at k2
  obtain ⟨l1, l2⟩ := abs_le.mp hxy
  rw [h1 x k (by linarith) (by linarith), h1 y k (by norm_num at k2; linarith) (by norm_num at k1; linarith)]

theorem floor_near {x y : ℝ} (hxy : |x - y| ≤ 1e-6) (hy : ∀ k : ℤ, 1e-6 < |y - k|) : ⌊x⌋ = ⌊y⌋ := by
  have f1 := Int.floor_le y
  have f2 := Int.lt_floor_add_one y
  generalize ⌊y⌋ = k at *
  have k1 := hy k
  have k2 := hy (k + 1)
  push_cast at k2
  rw [abs_of_nonneg (by linarith)] at k1
  rw [abs_of_neg (by linarith)] at k2
  obtain ⟨l1, l2⟩ := abs_le.mp hxy
  rw [Int.floor_eq_iff]
  constructor <;> linarith

/-- **C147** (image size): along each axis the simulated image has the number of pixels of exact arithmetic, `n` times the angle of a
pixel of the reference image over the field of view of a detector, rounded, unless this number is within 2e-6 of a half-integer. -/
theorem C147_image_size (hfl : RoundsToNearest fl) {n : ℕ} (hn : 0 < n) {gsd alt rng pX pY f : ℝ} (hg : 0 < gsd) (ha : 0 < alt) (hx : 0 < pX)
    (hy : 0 < pY) (hf : 0 < f) {R ifov : ℝ} (hR : R = Real.sqrt (alt ^ 2 + rng ^ 2)) (hi : ifov = (pX + pY) / 2 / f)
    (hq : n * (gsd / R) / ifov ≤ 1e6) (hk : ∀ k : ℤ, 2e-6 < |n * (gsd / R) / ifov - (k + 1 / 2)|) :
    simSizeD fl n gsd alt rng pX pY f = roundHalfEven (n * (gsd / R) / ifov) := by
  have w1 := ((Spec.WithinFactor.refl hg).div (slant_within hfl (rng := rng) ha)).round hfl
  have w2 := ifov_within hfl hx hy hf
  rw [← hR] at w1
  rw [← hi] at w2
  have hn' : (0 : ℝ) < n := by exact_mod_cast hn
  have w3 := ((Spec.WithinFactor.refl hn').mul w1).div w2
  unfold simSizeD
  generalize fl (gsd / flatSlantRangeD fl alt rng) = a at *
  generalize simIfovD fl pX pY f = b at *
  have e := w3.error (by norm_num)
  have e' : |n * a / b - n * (gsd / R) / ifov| ≤ 1e-7 := e.trans (by nlinarith [w3.2.1])
  generalize (n : ℝ) * (gsd / R) / ifov = x at *
  obtain ⟨l1, l2⟩ := abs_le.mp e'
  have margin : ∀ k : ℤ, 1e-6 < |n * a / b - (k + 1 / 2)| := by
    intro k
    have h1 := hk k
    have h2 := abs_sub_le x (n * a / b) (k + 1 / 2)
    rw [abs_sub_comm x (n * a / b)] at h2
    linarith
  rw [(C101_image_size hfl w1.1 w2.1 (by linarith) margin).1]
  exact roundHalfEven_near (e'.trans (by norm_num)) fun k => lt_trans (by norm_num) (hk k)

theorem arctan_concave : ConcaveOn ℝ (Set.Ici 0) Real.arctan := by
  refine AntitoneOn.concaveOn_of_deriv (convex_Ici 0) Real.continuous_arctan.continuousOn
    Real.differentiable_arctan.differentiableOn ?_
  rw [interior_Ici, Real.deriv_arctan]
  intro x hx y hy hxy
  have x0 : (0 : ℝ) < x := hx
  have := pow_le_pow_left₀ x0.le hxy 2
  exact one_div_le_one_div_of_le (by positivity) (by linarith)

theorem arctan_within {δ a' a : ℝ} (h : WithinFactor δ a' a) : WithinFactor δ (Real.arctan a') (Real.arctan a) := by
  have half : ∀ {a b : ℝ}, 0 < a → a ≤ b → Real.arctan b ≤ b / a * Real.arctan a := by
    intro a b ha hab
    have hb := ha.trans_le hab
    have c := arctan_concave.2 (show b ∈ Set.Ici (0 : ℝ) from hb.le) (show (0 : ℝ) ∈ Set.Ici (0 : ℝ) by simp)
      (show 0 ≤ a / b by positivity) (show 0 ≤ 1 - a / b by rw [sub_nonneg, div_le_one hb]; exact hab) (by ring)
    simp only [smul_eq_mul, Real.arctan_zero, mul_zero, add_zero] at c
    rw [div_mul_cancel₀ _ hb.ne'] at c
    calc Real.arctan b = b / a * (a / b * Real.arctan b) := by field_simp
      _ ≤ _ := mul_le_mul_of_nonneg_left c (by positivity)
  have pos : ∀ {a b : ℝ}, 0 < a → a ≤ b → 0 ≤ Real.log (Real.arctan b) - Real.log (Real.arctan a)
      ∧ Real.log (Real.arctan b) - Real.log (Real.arctan a) ≤ Real.log b - Real.log a := by
    intro a b ha hab
    have hb := ha.trans_le hab
    have p := Real.arctan_pos.mpr ha
    have p' := Real.arctan_pos.mpr hb
    refine ⟨sub_nonneg.mpr (Real.log_le_log p (Real.arctan_strictMono.monotone hab)), ?_⟩
    have := Real.log_le_log p' (half ha hab)
    rw [Real.log_mul (by positivity) p.ne', Real.log_div hb.ne' ha.ne'] at this
    linarith
  obtain ⟨h1, h2, h3⟩ := h
  refine ⟨Real.arctan_pos.mpr h1, Real.arctan_pos.mpr h2, ?_⟩
  rcases le_total a a' with g | g
  · obtain ⟨q1, q2⟩ := pos h2 g
    rw [abs_of_nonneg q1]
    exact q2.trans ((le_abs_self _).trans h3)
  · obtain ⟨q1, q2⟩ := pos h1 g
    rw [abs_sub_comm, abs_of_nonneg q1]
    exact q2.trans ((le_abs_self _).trans (by rwa [abs_sub_comm]))

/-- **C147** (size of the point spread function): the point spread function is resampled to the size of exact arithmetic, the reciprocal
of the spacing of the frequencies over the angle of a pixel of the reference image, rounded down, unless this is within 2e-6 of an
integer. -/
theorem C147_psf_size (hfl : RoundsToNearest fl) (hat : ∀ x, |atanD x - Real.arctan x| ≤ 1e-15 * |Real.arctan x|) {c gsd alt rng : ℝ}
    (hc : 0 < c) (hg : 0 < gsd) (ha : 0 < alt) {R angle : ℝ} (hR : R = Real.sqrt (alt ^ 2 + rng ^ 2))
    (hangle : angle = 2 * Real.arctan (gsd / 2 / R)) (hq : 1 / (c / 750) / angle ≤ 1e5)
    (hk : ∀ k : ℤ, 2e-6 < |1 / (c / 750) / angle - k|) : simPsfSizeD fl atanD c gsd alt rng = max 1 ⌊1 / (c / 750) / angle⌋ := by
  have w1 := ((Spec.WithinFactor.refl hg).div (Spec.WithinFactor.refl (x := 2) (by norm_num))).round hfl
  have w2 := arctan_within ((w1.div (slant_within hfl (rng := rng) ha)).round hfl)
  rw [← hR] at w2
  have w3 : WithinFactor 2e-15 (atanD (fl (fl (gsd / 2) / flatSlantRangeD fl alt rng)))
      (Real.arctan (fl (fl (gsd / 2) / flatSlantRangeD fl alt rng))) := by
    refine (within_of_rel (ε := 1e-15) w2.1 (by norm_num) ?_).mono (by norm_num)
    have := hat (fl (fl (gsd / 2) / flatSlantRangeD fl alt rng))
    rwa [abs_of_pos w2.1] at this
  have w4 := ((Spec.WithinFactor.refl (x := 2) (by norm_num)).mul (w3.trans w2)).round hfl
  rw [← hangle] at w4
  have w5 : WithinFactor 2e-12 (simStepD fl c) (c / 750) :=
    (within_of_rel (by positivity) (by norm_num) (C147_step hfl hc).2).mono (by norm_num)
  have w6 := ((Spec.WithinFactor.refl (x := 1) (by norm_num)).div
    (((Spec.WithinFactor.refl (x := 1501) (by norm_num)).mul w5).round hfl)).round hfl
  have w7 := ((Spec.WithinFactor.refl (x := ((1501 : ℕ) : ℝ)) (by norm_num)).mul w6).div w4
  have ex : ((1501 : ℕ) : ℝ) * (1 / (1501 * (c / 750))) / angle = 1 / (c / 750) / angle := by
    push_cast
    rw [mul_one_div, div_mul_eq_div_div, div_self (by norm_num)]
  rw [ex] at w7
  unfold simPsfSizeD
  generalize fl (1 / fl (1501 * simStepD fl c)) = a at *
  generalize fl (2 * atanD (fl (fl (gsd / 2) / flatSlantRangeD fl alt rng))) = b at *
  have e := w7.error (by norm_num)
  have e' : |((1501 : ℕ) : ℝ) * a / b - 1 / (c / 750) / angle| ≤ 5e-7 := e.trans (by nlinarith [w7.2.1])
  generalize 1 / (c / 750) / angle = x at *
  obtain ⟨l1, l2⟩ := abs_le.mp e'
  have margin : ∀ k : ℤ, 1e-6 < |((1501 : ℕ) : ℝ) * a / b - k| := by
    intro k
    have h1 := hk k
    have h2 := abs_sub_le x (((1501 : ℕ) : ℝ) * a / b) k
    rw [abs_sub_comm x (((1501 : ℕ) : ℝ) * a / b)] at h2
    linarith
  rw [(C101_psf_size hfl w6.1 w4.1 (by linarith)).1 margin]
  rw [floor_near (e'.trans (by norm_num)) fun k => lt_trans (by norm_num) (hk k)]

end PyBSM
