import Verif.Model.DoubleRating
import Verif.Spec.DoubleRating
import Verif.Spec.DoubleGeometry
import Verif.Props.DoubleDecisions
import Verif.Lemmas.DoubleGiqe
import Verif.Lemmas.DoubleOtfRound
import Mathlib.Analysis.Real.Pi.Bounds

/-!
# Rounding errors of the grid of frequencies and of the points of a slice
-/

noncomputable section

open Classical

namespace PyBSM

open Spec

variable {fl cosD sinD : ℝ → ℝ} {interp : (ℕ → ℕ → ℝ) → ℝ → ℝ → ℝ}

/-! ## Equally spaced numbers from -1 to 1 -/

theorem fl_two_hundredths (hfl : RoundsToNearest fl) : fl (fl (1 - -1) / (((101 : ℕ) : ℝ) - 1)) = 5764607523034235 * (2 : ℝ) ^ (-58 : ℤ) := by
  have d2 : fl (1 - -1) = 2 := by
    rw [show (1 : ℝ) - -1 = ((2 : ℕ) : ℝ) by norm_num, hfl.self (isDouble_nat (by norm_num))]; norm_num
  rw [d2]
  have := hfl.eq (m := 5764607523034235) (by norm_num) (by norm_num) (-58) (x := 2 / (((101 : ℕ) : ℝ) - 1)) (by norm_num) (by norm_num)
  exact_mod_cast this

theorem linspace_mirror (i : ℕ) : linspaceD fl 1 (-1) 101 i = -linspaceD (fun x => -fl (-x)) (-1) 1 101 i := by
  unfold linspaceD
  by_cases h : i + 1 = 101
  · rw [if_pos h, if_pos h]
  · rw [if_neg h, if_neg h]
    have e1 : (-1 : ℝ) - 1 = -(1 - -1) := by norm_num
    simp only [e1, neg_neg, mul_neg, neg_div, neg_add]

theorem linspace_close (hfl : RoundsToNearest fl) {j : ℕ} (hj : j ≤ 100) :
    |linspaceD fl (-1) 1 101 j - (2 * j / 100 - 1)| ≤ 4.1e-16 := by
  unfold linspaceD
  split_ifs with h
  · have : j = 100 := by omega
    rw [this]; norm_num
  · rw [fl_two_hundredths hfl]
    have hj' : (j : ℝ) ≤ 100 := by exact_mod_cast hj
    have hj0 : (0 : ℝ) ≤ j := Nat.cast_nonneg j
    set x : ℝ := j * (5764607523034235 * (2 : ℝ) ^ (-58 : ℤ)) with hx
    have hd : |(5764607523034235 : ℝ) * (2 : ℝ) ^ (-58 : ℤ) - 0.02| ≤ 4.2e-19 := by
      rw [abs_le]; constructor <;> norm_num
    have e1 : |x - 2 * j / 100| ≤ 4.2e-17 := by
      rw [hx, show (j : ℝ) * (5764607523034235 * (2 : ℝ) ^ (-58 : ℤ)) - 2 * j / 100 = j * (5764607523034235 * (2 : ℝ) ^ (-58 : ℤ) - 0.02) by ring,
        abs_mul, abs_of_nonneg hj0]
      calc (j : ℝ) * _ ≤ 100 * 4.2e-19 := mul_le_mul hj' hd (abs_nonneg _) (by norm_num)
        _ = 4.2e-17 := by norm_num
    clear_value x
    obtain ⟨a1, a2⟩ := abs_le.mp e1
    have hx2 : |x| ≤ 2.0001 := by rw [abs_le]; constructor <;> linarith
    have e2 := fl_close hfl hx2
    obtain ⟨b1, b2⟩ := abs_le.mp e2
    have hy : |fl x + -1| ≤ 1.0002 := by rw [abs_le]; constructor <;> linarith
    have e3 := fl_close hfl hy
    obtain ⟨c1, c2⟩ := abs_le.mp e3
    rw [abs_le]; constructor <;> linarith

theorem linspace_centre (hfl : RoundsToNearest fl) : linspaceD fl (-1) 1 101 50 = 0 := by
  unfold linspaceD
  rw [if_neg (by norm_num), fl_two_hundredths hfl]
  have h1 : fl (((50 : ℕ) : ℝ) * (5764607523034235 * (2 : ℝ) ^ (-58 : ℤ))) = 1 := by
    apply le_antisymm
    · have := hfl.le_of_lt (m := 2 ^ 52) le_rfl (by norm_num) (-52) (x := ((50 : ℕ) : ℝ) * (5764607523034235 * (2 : ℝ) ^ (-58 : ℤ))) (by norm_num)
      norm_num at this ⊢
      exact this
    · have h2 : fl 1 = 1 := hfl.self (by simpa using isDouble_nat (m := 1) (by norm_num))
      have := hfl.mono (x := 1) (y := ((50 : ℕ) : ℝ) * (5764607523034235 * (2 : ℝ) ^ (-58 : ℤ))) (by norm_num)
      rwa [h2] at this
  rw [h1]
  norm_num
  exact hfl.zero

theorem linspace_first (hfl : RoundsToNearest fl) : linspaceD fl (-1) 1 101 0 = -1 := by
  unfold linspaceD
  rw [if_neg (by norm_num)]
  have dm : fl (-1) = -1 := hfl.self (by simpa using isDouble_int (m := -1) (by norm_num))
  simp [hfl.zero, dm]

/-! ## Frequencies -/

theorem gridV_mirror (c : ℝ) (i : ℕ) : gridVD fl c i = -gridUD (fun x => -fl (-x)) c i := by
  unfold gridVD gridUD
  rw [linspace_mirror]
  simp only [neg_neg, neg_mul]

theorem gridU_centre (hfl : RoundsToNearest fl) (c : ℝ) : gridUD fl c 50 = 0 := by
  unfold gridUD
  rw [linspace_centre hfl, zero_mul, hfl.zero]

theorem gridU_close (hfl : RoundsToNearest fl) {c : ℝ} (hc : 0 ≤ c) {j : ℕ} (hj : j ≤ 100) :
    |gridUD fl c j - colFreq 101 c j| ≤ 6e-16 * c := by
  unfold gridUD colFreq
  have e1 := linspace_close hfl hj
  have hj' : (j : ℝ) ≤ 100 := by exact_mod_cast hj
  have hj0 : (0 : ℝ) ≤ j := Nat.cast_nonneg j
  rw [show (2 * (j : ℝ) / (((101 : ℕ) : ℝ) - 1) - 1) * c = (2 * j / 100 - 1) * c by norm_num]
  generalize linspaceD fl (-1) 1 101 j = x at *
  obtain ⟨a1, a2⟩ := abs_le.mp e1
  have hx : |x * c| ≤ 1.001 * c := by
    rw [abs_mul, abs_of_nonneg hc]
    refine mul_le_mul_of_nonneg_right ?_ hc
    rw [abs_le]; constructor <;> linarith
  have e2 := fl_close hfl hx
  have e3 : |x * c - (2 * j / 100 - 1) * c| ≤ 4.1e-16 * c := by
    rw [← sub_mul, abs_mul, abs_of_nonneg hc]
    exact mul_le_mul_of_nonneg_right e1 hc
  have := abs_sub_le (fl (x * c)) (x * c) ((2 * j / 100 - 1) * c)
  linarith

theorem gridU_right (hfl : RoundsToNearest fl) {c : ℝ} (hc : 0 < c) {k : ℕ} (h1 : 1 ≤ k) (hk : k ≤ 50) :
    WithinFactor 7e-14 (gridUD fl c (50 + k)) (k * (c / 50)) := by
  have h := gridU_close hfl hc.le (j := 50 + k) (by omega)
  have hk1 : (1 : ℝ) ≤ k := by exact_mod_cast h1
  have e : colFreq 101 c (50 + k) = k * (c / 50) := by
    unfold colFreq
    push_cast
    ring
  rw [e] at h
  refine (within_of_rel (ε := 3e-14) (by positivity) (by norm_num) (h.trans ?_)).mono (by norm_num)
  have : 1 * (c / 50) ≤ k * (c / 50) := mul_le_mul_of_nonneg_right hk1 (by positivity)
  linarith

theorem gridU_left (hfl : RoundsToNearest fl) {c : ℝ} (hc : 0 < c) {k : ℕ} (h1 : 1 ≤ k) (hk : k ≤ 50) :
    WithinFactor 7e-14 (-gridUD fl c (50 - k)) (k * (c / 50)) := by
  have h := gridU_close hfl hc.le (j := 50 - k) (by omega)
  have hk1 : (1 : ℝ) ≤ k := by exact_mod_cast h1
  have e : colFreq 101 c (50 - k) = -(k * (c / 50)) := by
    unfold colFreq
    rw [Nat.cast_sub hk]
    push_cast
    ring
  rw [e, ← abs_neg, show -(gridUD fl c (50 - k) - -(k * (c / 50))) = -gridUD fl c (50 - k) - k * (c / 50) by ring] at h
  refine (within_of_rel (ε := 3e-14) (by positivity) (by norm_num) (h.trans ?_)).mono (by norm_num)
  have : 1 * (c / 50) ≤ k * (c / 50) := mul_le_mul_of_nonneg_right hk1 (by positivity)
  linarith

theorem gridStep_within (hfl : RoundsToNearest fl) {c : ℝ} (hc : 0 < c) : WithinFactor 1.4e-13 (stepD fl c) (c / 50) := by
  unfold stepD
  have h0 := gridU_close hfl hc.le (j := 0) (by norm_num)
  have h1 := gridU_close hfl hc.le (j := 1) (by norm_num)
  have e : colFreq 101 c 1 - colFreq 101 c 0 = c / 50 := by unfold colFreq; push_cast; ring
  generalize gridUD fl c 1 = x at *
  generalize gridUD fl c 0 = y at *
  have h2 : |x - y - c / 50| ≤ 1.2e-15 * c := by
    rw [← e, show x - y - (colFreq 101 c 1 - colFreq 101 c 0) = (x - colFreq 101 c 1) - (y - colFreq 101 c 0) by ring]
    exact (abs_sub _ _).trans (by linarith)
  obtain ⟨a1, a2⟩ := abs_le.mp h2
  have h3 : |x - y| ≤ 0.03 * c := by rw [abs_le]; constructor <;> linarith
  have h4 := fl_close hfl h3
  have := abs_sub_le (fl (x - y)) (x - y) (c / 50)
  refine (within_of_rel (ε := 7e-14) (by positivity) (by norm_num) ?_).mono (by norm_num)
  linarith

/-! ## Points of a slice -/

theorem radius_close (hfl : RoundsToNearest fl) {k : ℕ} (hk : k < 50) : |sliceRadiusD fl 101 k - k / 50| ≤ 1.1e-15 := by
  have hc := slice_101 hfl
  unfold sliceCountD at hc
  unfold sliceRadiusD
  have hstep : fl (linspaceD fl (-1) 1 101 1 - linspaceD fl (-1) 1 101 0) = 5764607523034240 * (2 : ℝ) ^ (-58 : ℤ) := by
    rw [linspace_first hfl]
    unfold linspaceD
    rw [if_neg (by norm_num), fl_two_hundredths hfl]
    have d : fl (((1 : ℕ) : ℝ) * (5764607523034235 * (2 : ℝ) ^ (-58 : ℤ))) = 5764607523034235 * (2 : ℝ) ^ (-58 : ℤ) := by
      rw [Nat.cast_one, one_mul]
      have := hfl.self (isDouble_dyadic (m := 5764607523034235) (-58) (by norm_num))
      exact_mod_cast this
    rw [d]
    have e2 : fl (5764607523034235 * (2 : ℝ) ^ (-58 : ℤ) + -1) = -(8827055269646172 * (2 : ℝ) ^ (-53 : ℤ)) := by
      have := hfl.mirror.eq (m := 8827055269646172) (by norm_num) (by norm_num) (-53)
        (x := -(5764607523034235 * (2 : ℝ) ^ (-58 : ℤ) + -1)) (by norm_num) (by norm_num)
      rw [neg_neg] at this
      push_cast at this
      linarith
    rw [e2]
    have := hfl.eq (m := 5764607523034240) (by norm_num) (by norm_num) (-58)
      (x := -(8827055269646172 * (2 : ℝ) ^ (-53 : ℤ)) - -1) (by norm_num) (by norm_num)
    exact_mod_cast this
  rw [hstep] at hc ⊢
  unfold arangeD at hc ⊢
  rw [List.length_map, List.length_range] at hc
  rw [hc, List.getD_eq_getElem _ _ (by simpa using hk)]
  simp only [List.getElem_map, List.getElem_range, zero_add, sub_zero]
  have ds : ∀ x, fl (fl x) = fl x := fun x => hfl.self (hfl x).1
  simp only [ds]
  have dd : fl (5764607523034240 * (2 : ℝ) ^ (-58 : ℤ)) = 5764607523034240 * (2 : ℝ) ^ (-58 : ℤ) := by
    have := hfl.self (isDouble_dyadic (m := 5764607523034240) (-58) (by norm_num))
    exact_mod_cast this
  rw [dd]
  have hk' : (k : ℝ) ≤ 49 := by exact_mod_cast (by omega : k ≤ 49)
  have hk0 : (0 : ℝ) ≤ k := Nat.cast_nonneg k
  set x : ℝ := k * (5764607523034240 * (2 : ℝ) ^ (-58 : ℤ)) with hx
  have hd : |(5764607523034240 : ℝ) * (2 : ℝ) ^ (-58 : ℤ) - 0.02| ≤ 1.8e-17 := by
    rw [abs_le]; constructor <;> norm_num
  have e1 : |x - k / 50| ≤ 9e-16 := by
    rw [hx, show (k : ℝ) * (5764607523034240 * (2 : ℝ) ^ (-58 : ℤ)) - k / 50 = k * (5764607523034240 * (2 : ℝ) ^ (-58 : ℤ) - 0.02) by ring,
      abs_mul, abs_of_nonneg hk0]
    calc (k : ℝ) * _ ≤ 49 * 1.8e-17 := mul_le_mul hk' hd (abs_nonneg _) (by norm_num)
      _ ≤ 9e-16 := by norm_num
  clear_value x
  obtain ⟨a1, a2⟩ := abs_le.mp e1
  have hx2 : |x| ≤ 1 := by rw [abs_le]; constructor <;> linarith
  have e2 := fl_close hfl hx2
  have := abs_sub_le (fl x) x (k / 50)
  linarith

theorem radius_size (hfl : RoundsToNearest fl) (k : ℕ) : |sliceRadiusD fl 101 k| ≤ 1 := by
  by_cases hk : k < 50
  · have h := radius_close hfl hk
    have hk' : (k : ℝ) ≤ 49 := by exact_mod_cast (by omega : k ≤ 49)
    have hk0 : (0 : ℝ) ≤ k := Nat.cast_nonneg k
    obtain ⟨a1, a2⟩ := abs_le.mp h
    rw [abs_le]; constructor <;> linarith
  · have hc := slice_101 hfl
    unfold sliceCountD at hc
    unfold sliceRadiusD
    rw [List.getD_eq_default _ _ (by omega)]
    simp

/-- Points across the direction of a slice. -/
theorem point_small (hfl : RoundsToNearest fl) {a : ℝ} (ha : |a| ≤ 1e-15) (k : ℕ) : |slicePointD fl 101 a k| ≤ 1.1e-15 := by
  unfold slicePointD
  have h : |sliceRadiusD fl 101 (if 0 ≤ a then k else sliceCountD fl 101 - 1 - k) * a| ≤ 1e-15 := by
    rw [abs_mul]
    exact (mul_le_mul (radius_size hfl _) ha (abs_nonneg _) zero_le_one).trans (one_mul _).le
  have e := fl_close hfl h
  have := abs_sub_abs_le_abs_sub (fl (sliceRadiusD fl 101 (if 0 ≤ a then k else sliceCountD fl 101 - 1 - k) * a))
    (sliceRadiusD fl 101 (if 0 ≤ a then k else sliceCountD fl 101 - 1 - k) * a)
  linarith

/-- Points along the direction of a slice. -/
theorem point_along (hfl : RoundsToNearest fl) {a : ℝ} (ha : |a - 1| ≤ 2e-15) {k : ℕ} (hk : k < 50) :
    |slicePointD fl 101 a k - k / 50| ≤ 4e-15 := by
  obtain ⟨a1, a2⟩ := abs_le.mp ha
  unfold slicePointD
  rw [if_pos (by norm_num at a1; linarith)]
  have h := radius_close hfl hk
  have h1 := radius_size hfl k
  generalize sliceRadiusD fl 101 k = r at *
  have e1 : |r * a - r| ≤ 2e-15 := by
    rw [show r * a - r = r * (a - 1) by ring, abs_mul]
    exact (mul_le_mul h1 ha (abs_nonneg _) zero_le_one).trans (one_mul _).le
  have e2 : |r * a| ≤ 1.1 := by
    have := abs_sub_abs_le_abs_sub (r * a) r
    linarith
  have e3 := fl_close hfl e2
  have s1 := abs_sub_le (fl (r * a)) (r * a) r
  have s2 := abs_sub_le (fl (r * a)) r (k / 50)
  linarith

/-! ## Interpolation near a node -/

theorem bilinear_corner {a b c d s t M : ℝ} (ha : |a| ≤ M) (hb : |b| ≤ M) (hc : |c| ≤ M) (hd : |d| ≤ M) (s0 : 0 ≤ s) (s1 : s ≤ 1) (t0 : 0 ≤ t)
    (t1 : t ≤ 1) : |(1 - t) * ((1 - s) * a + s * b) + t * ((1 - s) * c + s * d) - a| ≤ 2 * M * (s + t) := by
  rw [abs_le] at *
  obtain ⟨a1, a2⟩ := ha
  obtain ⟨b1, b2⟩ := hb
  obtain ⟨c1, c2⟩ := hc
  obtain ⟨d1, d2⟩ := hd
  have e : (1 - t) * ((1 - s) * a + s * b) + t * ((1 - s) * c + s * d) - a
      = (1 - t) * s * (b - a) + t * (1 - s) * (c - a) + t * s * (d - a) := by ring
  have p1 : 0 ≤ (1 - t) * s := mul_nonneg (by linarith) s0
  have p2 : 0 ≤ t * (1 - s) := mul_nonneg t0 (by linarith)
  have p3 : 0 ≤ t * s := mul_nonneg t0 s0
  have hM : 0 ≤ M := by linarith
  have q : (1 - t) * s + t * (1 - s) + t * s = s + t - t * s := by ring
  rw [e]
  constructor
  · nlinarith [mul_le_mul_of_nonneg_left (show -(2 * M) ≤ b - a by linarith) p1, mul_le_mul_of_nonneg_left (show -(2 * M) ≤ c - a by linarith) p2,
      mul_le_mul_of_nonneg_left (show -(2 * M) ≤ d - a by linarith) p3, mul_nonneg hM p3]
  · nlinarith [mul_le_mul_of_nonneg_left (show b - a ≤ 2 * M by linarith) p1, mul_le_mul_of_nonneg_left (show c - a ≤ 2 * M by linarith) p2,
      mul_le_mul_of_nonneg_left (show d - a ≤ 2 * M by linarith) p3, mul_nonneg hM p3]

/-- Within `4 · 10^-15` of a node the interpolation is the value at the node. -/
theorem interp_node (hI : Interpolates interp) {G : ℕ → ℕ → ℝ} {M : ℝ} (hG : ∀ i j : ℕ, i ≤ 100 → j ≤ 100 → |G i j| ≤ M) {i j : ℕ} (i1 : 1 ≤ i)
    (i2 : i ≤ 99) (j1 : 1 ≤ j) (j2 : j ≤ 99) {x y : ℝ} (hx : |x - (-1 + j / 50)| ≤ 4e-15) (hy : |y - (1 - i / 50)| ≤ 4e-15) :
    |interp G x y - G i j| ≤ 2e-12 * M := by
  have hM : 0 ≤ M := (abs_nonneg _).trans (hG 0 0 (by norm_num) (by norm_num))
  have fin : ∀ {z w : ℝ} {σ τ : ℝ}, |z - w| ≤ 1e-12 * M → |w - G i j| ≤ 2 * M * (σ + τ) → σ ≤ 2e-13 → τ ≤ 2e-13 → |z - G i j| ≤ 2e-12 * M := by
    intro z w σ τ h1 h2 h3 h4
    have := abs_sub_le z w (G i j)
    have h5 : 2 * M * (σ + τ) ≤ 2 * M * 4e-13 := mul_le_mul_of_nonneg_left (by linarith) (by linarith)
    linarith
  obtain ⟨i', rfl⟩ : ∃ i', i = i' + 1 := ⟨i - 1, by omega⟩
  obtain ⟨j', rfl⟩ : ∃ j', j = j' + 1 := ⟨j - 1, by omega⟩
  have X : ∃ s, 0 ≤ s ∧ s ≤ 2e-13 ∧ (x = -1 + (((j' + 1 : ℕ) : ℝ) + s) / 50 ∨ x = -1 + ((j' : ℝ) + (1 - s)) / 50) := by
    refine ⟨50 * |x - (-1 + ((j' + 1 : ℕ) : ℝ) / 50)|, by positivity, by linarith, ?_⟩
    rcases abs_cases (x - (-1 + ((j' + 1 : ℕ) : ℝ) / 50)) with ⟨h, -⟩ | ⟨h, -⟩
    · left; rw [h]; ring
    · right; rw [h]; push_cast; ring
  have Y : ∃ t, 0 ≤ t ∧ t ≤ 2e-13 ∧ (y = 1 - (((i' + 1 : ℕ) : ℝ) + t) / 50 ∨ y = 1 - ((i' : ℝ) + (1 - t)) / 50) := by
    refine ⟨50 * |y - (1 - ((i' + 1 : ℕ) : ℝ) / 50)|, by positivity, by linarith, ?_⟩
    rcases abs_cases (y - (1 - ((i' + 1 : ℕ) : ℝ) / 50)) with ⟨h, -⟩ | ⟨h, -⟩
    · right; rw [h]; push_cast; ring
    · left; rw [h]; ring
  obtain ⟨s, s0, s1, hs⟩ := X
  obtain ⟨t, t0, t1, ht⟩ := Y
  have s2 : s ≤ 1 := by linarith
  have t2 : t ≤ 1 := by linarith
  clear hx hy
  rcases hs with ex | ex <;> rcases ht with ey | ey
  · have := hI G M hG (i' + 1) (j' + 1) (by omega) (by omega) s t s0 s2 t0 t2
    rw [← ex, ← ey] at this
    exact fin this (bilinear_corner (hG _ _ (by omega) (by omega)) (hG _ _ (by omega) (by omega)) (hG _ _ (by omega) (by omega))
      (hG _ _ (by omega) (by omega)) s0 s2 t0 t2) s1 t1
  · have := hI G M hG i' (j' + 1) (by omega) (by omega) s (1 - t) s0 s2 (by linarith) (by linarith)
    rw [← ex, ← ey] at this
    have B := bilinear_corner (s := s) (t := t) (hG (i' + 1) (j' + 1) (by omega) (by omega)) (hG (i' + 1) (j' + 1 + 1) (by omega) (by omega))
      (hG i' (j' + 1) (by omega) (by omega)) (hG i' (j' + 1 + 1) (by omega) (by omega)) s0 s2 t0 t2
    refine fin this (le_trans (le_of_eq ?_) B) s1 t1
    congr 1; ring
  · have := hI G M hG (i' + 1) j' (by omega) (by omega) (1 - s) t (by linarith) (by linarith) t0 t2
    rw [← ex, ← ey] at this
    have B := bilinear_corner (s := s) (t := t) (hG (i' + 1) (j' + 1) (by omega) (by omega)) (hG (i' + 1) j' (by omega) (by omega))
      (hG (i' + 1 + 1) (j' + 1) (by omega) (by omega)) (hG (i' + 1 + 1) j' (by omega) (by omega)) s0 s2 t0 t2
    refine fin this (le_trans (le_of_eq ?_) B) s1 t1
    congr 1; ring
  · have := hI G M hG i' j' (by omega) (by omega) (1 - s) (1 - t) (by linarith) (by linarith) (by linarith) (by linarith)
    rw [← ex, ← ey] at this
    have B := bilinear_corner (s := s) (t := t) (hG (i' + 1) (j' + 1) (by omega) (by omega)) (hG (i' + 1) j' (by omega) (by omega))
      (hG i' (j' + 1) (by omega) (by omega)) (hG i' j' (by omega) (by omega)) s0 s2 t0 t2
    refine fin this (le_trans (le_of_eq ?_) B) s1 t1
    congr 1; ring

end PyBSM
