import Verif.Model.DoubleWrap
import Verif.Lemmas.Double

/-!
# Frequencies beyond Nyquist in double precision (C152)
-/

noncomputable section

open Classical

namespace PyBSM

variable {fl : ℝ → ℝ}

theorem isDouble_twice {x : ℝ} (h : IsDouble x) : IsDouble (2 * x) := by
  obtain ⟨m, e, h1, h2⟩ := h
  refine ⟨m, e + 1, h1, ?_⟩
  rw [h2, zpow_add_one₀ (by norm_num)]
  ring

theorem isDouble_neg {x : ℝ} (h : IsDouble x) : IsDouble (-x) := by
  obtain ⟨m, e, h1, h2⟩ := h
  refine ⟨-m, e, by simpa using h1, ?_⟩
  rw [h2]
  push_cast
  ring

/-- The remainder is between zero and the divisor, and differs from the dividend by a multiple of it up to one rounding. -/
theorem remainder_facts (hfl : RoundsToNearest fl) {b : ℝ} (hb : 0 < b) (hd : IsDouble b) (a : ℝ) :
    0 ≤ remainderD fl a b ∧ remainderD fl a b ≤ b ∧ ∃ k : ℤ, |remainderD fl a b - (a - k * b)| ≤ 1.2e-16 * b := by
  unfold remainderD
  dsimp only
  obtain ⟨q, hq⟩ : ∃ q, q = a / b := ⟨_, rfl⟩
  have ha : a = q * b := by rw [hq, div_mul_cancel₀ _ hb.ne']
  rw [← hq]
  by_cases h0 : 0 ≤ q
  · rw [if_pos h0]
    have f1 := Int.floor_le q
    have f2 := Int.lt_floor_add_one q
    have m0 : 0 ≤ a - b * (⌊q⌋ : ℤ) := by rw [ha]; nlinarith
    rw [if_neg (not_lt.mpr m0)]
    refine ⟨m0, by rw [ha]; nlinarith, ⌊q⌋, ?_⟩
    rw [show a - b * (⌊q⌋ : ℤ) - (a - (⌊q⌋ : ℤ) * b) = 0 by ring, abs_zero]
    positivity
  · rw [if_neg h0]
    have f1 := Int.le_ceil q
    have f2 := Int.ceil_lt_add_one q
    have mb : -b < a - b * (⌈q⌉ : ℤ) := by rw [ha]; nlinarith
    have m1 : a - b * (⌈q⌉ : ℤ) ≤ 0 := by rw [ha]; nlinarith
    by_cases hm : a - b * (⌈q⌉ : ℤ) < 0
    · rw [if_pos hm]
      have l := hfl.mono (show 0 ≤ a - b * (⌈q⌉ : ℤ) + b by linarith)
      have r := hfl.mono (show a - b * (⌈q⌉ : ℤ) + b ≤ b by linarith)
      rw [hfl.zero] at l
      rw [hfl.self hd] at r
      refine ⟨l, r, ⌈q⌉ - 1, ?_⟩
      have e := hfl.error (a - b * (⌈q⌉ : ℤ) + b)
      rw [abs_of_nonneg (by linarith : 0 ≤ a - b * (⌈q⌉ : ℤ) + b)] at e
      have : a - ((⌈q⌉ - 1 : ℤ) : ℝ) * b = a - b * (⌈q⌉ : ℤ) + b := by push_cast; ring
      rw [this]
      refine e.trans (mul_le_mul_of_nonneg_left (by linarith) (by norm_num))
    · rw [if_neg hm]
      refine ⟨not_lt.mp hm, by linarith, ⌈q⌉, ?_⟩
      rw [show a - b * (⌈q⌉ : ℤ) - (a - (⌈q⌉ : ℤ) * b) = 0 by ring, abs_zero]
      positivity

theorem nyquist_facts (hfl : RoundsToNearest fl) {ifov : ℝ} (hi : 0 < ifov) : IsDouble (nyquistD fl ifov) ∧ 0 < nyquistD fl ifov := by
  have q : 0 < 0.5 / ifov := by positivity
  have e := hfl.error (0.5 / ifov)
  rw [abs_of_pos q] at e
  exact ⟨(hfl _).1, by unfold nyquistD; have := (abs_le.mp e).1; linarith⟩

/-- **C152** (inside the table): whatever the frequency, `filter_OTF` looks up a frequency that lies between the ends of its table in both
directions. -/
theorem C152_inside (hfl : RoundsToNearest fl) {ifov : ℝ} (hi : 0 < ifov) (x : ℝ) :
    (tableUD fl (nyquistD fl ifov) 0 ≤ wrapD fl (nyquistD fl ifov) x ∧ wrapD fl (nyquistD fl ifov) x ≤ tableUD fl (nyquistD fl ifov) 99)
      ∧ tableVD fl (nyquistD fl ifov) 99 ≤ wrapD fl (nyquistD fl ifov) x ∧ wrapD fl (nyquistD fl ifov) x ≤ tableVD fl (nyquistD fl ifov) 0 := by
  obtain ⟨hd, h0⟩ := nyquist_facts hfl hi
  generalize nyquistD fl ifov = n at *
  obtain ⟨r0, r1, -⟩ := remainder_facts hfl (by linarith : 0 < 2 * n) (isDouble_twice hd) (fl (x + n))
  have lo := hfl.mono (show -n ≤ remainderD fl (fl (x + n)) (2 * n) - n by linarith)
  have hi := hfl.mono (show remainderD fl (fl (x + n)) (2 * n) - n ≤ n by linarith)
  rw [hfl.self (isDouble_neg hd)] at lo
  rw [hfl.self hd] at hi
  unfold tableUD tableVD linspaceD wrapD
  rw [hfl.self (isDouble_twice hd)]
  simp only [Nat.cast_zero, zero_mul, hfl.zero, zero_add, hfl.self hd, hfl.self (isDouble_neg hd)]
  norm_num
  exact ⟨lo, hi⟩

theorem wrap_congruent (hfl : RoundsToNearest fl) {ifov : ℝ} (hi : 0 < ifov) (x : ℝ) :
    ∃ k : ℤ, |wrapD fl (nyquistD fl ifov) x - (x - k * (2 * nyquistD fl ifov))| ≤ 1.2e-16 * (|x| + 4 * nyquistD fl ifov) := by
  obtain ⟨hd, h0⟩ := nyquist_facts hfl hi
  generalize nyquistD fl ifov = n at *
  obtain ⟨r0, r1, k, hk⟩ := remainder_facts hfl (by linarith : 0 < 2 * n) (isDouble_twice hd) (fl (x + n))
  refine ⟨k, ?_⟩
  unfold wrapD
  rw [hfl.self (isDouble_twice hd)]
  generalize remainderD fl (fl (x + n)) (2 * n) = r at *
  have e1 := hfl.error (x + n)
  have e2 := hfl.error (r - n)
  have a1 : |x + n| ≤ |x| + n := (abs_add_le _ _).trans (by rw [abs_of_pos h0])
  have a2 : |r - n| ≤ n := by rw [abs_le]; constructor <;> linarith
  have t : fl (r - n) - (x - k * (2 * n)) = (fl (r - n) - (r - n)) + ((r - (fl (x + n) - k * (2 * n))) + (fl (x + n) - (x + n))) := by ring
  rw [t]
  have s1 := abs_add_le (fl (r - n) - (r - n)) ((r - (fl (x + n) - k * (2 * n))) + (fl (x + n) - (x + n)))
  have s2 := abs_add_le (r - (fl (x + n) - k * (2 * n))) (fl (x + n) - (x + n))
  linarith

/-- **C152** (the same frequency): the frequency looked up differs from the given one by a whole number of sampling frequencies `1/ifov`,
up to 4e-16 of the given frequency and of the sampling frequency. -/
theorem C152_congruent (hfl : RoundsToNearest fl) {ifov : ℝ} (hi : 0 < ifov) (x : ℝ) :
    ∃ k : ℤ, |wrapD fl (nyquistD fl ifov) x - (x - k / ifov)| ≤ 4e-16 * (|x| + 1 / ifov) := by
  obtain ⟨k, hk⟩ := wrap_congruent hfl hi x
  obtain ⟨⟨l, r⟩, -⟩ := C152_inside hfl hi x
  obtain ⟨hd, h0⟩ := nyquist_facts hfl hi
  refine ⟨k, ?_⟩
  unfold tableUD linspaceD at l r
  simp only [Nat.cast_zero, zero_mul, hfl.zero, zero_add, hfl.self (isDouble_neg hd)] at l r
  norm_num at l r
  have f0 : 0 < 1 / ifov := by positivity
  have e := hfl.error (0.5 / ifov)
  rw [show (0.5 : ℝ) / ifov = 0.5 * (1 / ifov) by ring, abs_of_pos (by positivity : 0 < 0.5 * (1 / ifov))] at e
  have hn : nyquistD fl ifov = fl (0.5 * (1 / ifov)) := by unfold nyquistD; congr 1; ring
  rw [← hn] at e
  rw [show (k : ℝ) / ifov = k * (1 / ifov) by ring]
  generalize wrapD fl (nyquistD fl ifov) x = w at *
  generalize nyquistD fl ifov = n at *
  generalize 1 / ifov = S at *
  obtain ⟨e1, e2⟩ := abs_le.mp e
  have x0 := abs_nonneg x
  have aw : |w| ≤ n := abs_le.mpr ⟨l, r⟩
  have kn : |(k : ℝ) * (2 * n)| ≤ 1.001 * |x| + 1.001 * n := by
    have t : (k : ℝ) * (2 * n) = (w - (x - k * (2 * n))) + (x - w) := by ring
    rw [t]
    have t1 := abs_add_le (w - (x - k * (2 * n))) (x - w)
    have t2 := abs_sub x w
    linarith
  rw [abs_mul, abs_of_pos (by linarith : 0 < 2 * n)] at kn
  have k0 := abs_nonneg (k : ℝ)
  have d : |(k : ℝ) * (S - 2 * n)| ≤ 1.3e-16 * (|(k : ℝ)| * (2 * n)) := by
    rw [abs_mul]
    have : |S - 2 * n| ≤ 1.3e-16 * (2 * n) := by rw [abs_le]; constructor <;> linarith
    calc |(k : ℝ)| * |S - 2 * n| ≤ |(k : ℝ)| * (1.3e-16 * (2 * n)) := mul_le_mul_of_nonneg_left this k0
      _ = _ := by ring
  have t : w - (x - k * S) = (w - (x - k * (2 * n))) + k * (S - 2 * n) := by ring
  rw [t]
  have := abs_add_le (w - (x - k * (2 * n))) (k * (S - 2 * n))
  linarith

/-! ## Concrete cases -/

/-- A camera of 10 µrad and a frequency of three times its Nyquist frequency (C152_inside, C152_congruent). -/
example (hfl : RoundsToNearest fl) :
    tableUD fl (nyquistD fl 1e-5) 0 ≤ wrapD fl (nyquistD fl 1e-5) 150000
      ∧ ∃ k : ℤ, |wrapD fl (nyquistD fl 1e-5) 150000 - (150000 - k / 1e-5)| ≤ 1e-9 := by
  refine ⟨(C152_inside hfl (by norm_num) 150000).1.1, ?_⟩
  obtain ⟨k, hk⟩ := C152_congruent hfl (ifov := 1e-5) (by norm_num) 150000
  refine ⟨k, hk.trans ?_⟩
  rw [abs_of_pos (by norm_num : (0 : ℝ) < 150000)]
  norm_num

end PyBSM
