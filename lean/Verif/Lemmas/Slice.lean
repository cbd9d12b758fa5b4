import Verif.Spec.Grid
import Verif.Lemmas.Edge
import Verif.Lemmas.Table

/-!
# `slice_otf`
-/

noncomputable section

open Classical

namespace PyBSM

open Spec

theorem grid_length (n : ℕ) (g : ℕ → ℕ → ℝ) : (grid n g).length = n := by simp [grid]

theorem gridAt_grid {n : ℕ} (g : ℕ → ℕ → ℝ) {i j : ℕ} (hi : i < n) (hj : j < n) :
    gridAt (grid n g) i j = .fin (g i j) := by
  unfold gridAt grid vec
  simp [List.getD, hi, hj]

theorem grid_square (n : ℕ) (g : ℕ → ℕ → ℝ) : ¬ ∃ r ∈ grid n g, r.length ≠ n := by
  rintro ⟨r, hr, h⟩
  unfold grid at hr
  obtain ⟨i, -, rfl⟩ := List.mem_map.mp hr
  exact h (vec_length _ _)

/-- The bilinear interpolant, over the reals. -/
def bilin (g : ℕ → ℕ → ℝ) (n : ℕ) (tx ty : ℝ) : ℝ :=
  let j := ⌊tx⌋₊ ⊓ (n - 2)
  let i := ⌊ty⌋₊ ⊓ (n - 2)
  (1 - (ty - i)) * ((1 - (tx - j)) * g i j + (tx - j) * g i (j + 1))
    + (ty - i) * ((1 - (tx - j)) * g (i + 1) j + (tx - j) * g (i + 1) (j + 1))

theorem interp2dAt_grid {n : ℕ} (hn : 2 ≤ n) (g : ℕ → ℕ → ℝ) (x y : ℝ) :
    interp2dAt (grid n g) n x y = .fin (bilin g n ((x + 1) / 2 * (n - 1)) ((1 - y) / 2 * (n - 1))) := by
  unfold interp2dAt bilin
  dsimp only
  have h1 := min_le_right ⌊(x + 1) / 2 * ((n : ℝ) - 1)⌋₊ (n - 2)
  have h2 := min_le_right ⌊(1 - y) / 2 * ((n : ℝ) - 1)⌋₊ (n - 2)
  rw [gridAt_grid g (by omega) (by omega), gridAt_grid g (by omega) (by omega), gridAt_grid g (by omega) (by omega),
    gridAt_grid g (by omega) (by omega)]
  xr_simp

theorem bilin_node (g : ℕ → ℕ → ℝ) {n i j : ℕ} (hi : i + 2 ≤ n) (hj : j + 2 ≤ n) : bilin g n j i = g i j := by
  unfold bilin
  dsimp only
  rw [Nat.floor_natCast, Nat.floor_natCast, min_eq_left (by omega), min_eq_left (by omega)]
  ring

theorem slice_grid {n : ℕ} (hn : 2 ≤ n) (g : ℕ → ℕ → ℝ) (ang : ℝ) :
    sliceOtf (grid n g) ang = .ok (vec (n / 2) fun k =>
      bilin g n ((((if 0 ≤ Real.cos ang then (k : ℝ) else ((n / 2 - 1 - k : ℕ) : ℝ)) * (2 / (n - 1))) * Real.cos ang + 1) / 2 * (n - 1))
        ((1 - ((if 0 ≤ Real.sin ang then (k : ℝ) else ((n / 2 - 1 - k : ℕ) : ℝ)) * (2 / (n - 1))) * Real.sin ang) / 2 * (n - 1))) := by
  unfold sliceOtf
  dsimp only
  rw [grid_length, if_neg (by omega), if_neg (grid_square n g)]
  unfold vec
  congr 1
  apply List.map_congr_left
  intro k _
  rw [interp2dAt_grid hn]
  congr 2
  · split_ifs <;> rfl
  · split_ifs <;> rfl

theorem slice_zero {m : ℕ} (hm : 1 ≤ m) (g : ℕ → ℕ → ℝ) :
    sliceOtf (grid (2 * m + 1) g) 0 = .ok (vec m fun k => g m (m + k)) := by
  rw [slice_grid (by omega), show (2 * m + 1) / 2 = m by omega]
  congr 1
  apply vec_congr
  intro k hk
  have hm' : (m : ℝ) ≠ 0 := by positivity
  rw [Real.cos_zero, Real.sin_zero, if_pos zero_le_one, if_pos le_rfl]
  rw [← bilin_node g (n := 2 * m + 1) (i := m) (j := m + k) (by omega) (by omega)]
  congr 1
  · push_cast; field_simp; ring
  · push_cast; field_simp; ring

theorem slice_half_pi {m : ℕ} (hm : 1 ≤ m) (g : ℕ → ℕ → ℝ) :
    sliceOtf (grid (2 * m + 1) g) (Real.pi / 2) = .ok (vec m fun k => g (m - k) m) := by
  rw [slice_grid (by omega), show (2 * m + 1) / 2 = m by omega]
  congr 1
  apply vec_congr
  intro k hk
  have hm' : (m : ℝ) ≠ 0 := by positivity
  rw [Real.cos_pi_div_two, Real.sin_pi_div_two, if_pos zero_le_one, if_pos le_rfl]
  rw [← bilin_node g (n := 2 * m + 1) (i := m - k) (j := m) (by omega) (by omega)]
  congr 1
  · push_cast; field_simp; ring
  · push_cast [Nat.cast_sub hk.le]; field_simp; ring

theorem slice_pi {m : ℕ} (hm : 1 ≤ m) (g : ℕ → ℕ → ℝ) :
    sliceOtf (grid (2 * m + 1) g) Real.pi = .ok (vec m fun k => g m (k + 1)) := by
  rw [slice_grid (by omega), show (2 * m + 1) / 2 = m by omega]
  congr 1
  apply vec_congr
  intro k hk
  have hm' : (m : ℝ) ≠ 0 := by positivity
  rw [Real.cos_pi, Real.sin_pi, if_neg (by norm_num), if_pos le_rfl]
  rw [← bilin_node g (n := 2 * m + 1) (i := m) (j := k + 1) (by omega) (by omega)]
  have hc : ((m - 1 - k : ℕ) : ℝ) = m - 1 - k := by
    rw [Nat.sub_sub, Nat.cast_sub (by omega)]; push_cast; ring
  rw [hc]
  congr 1
  · push_cast; field_simp; ring
  · push_cast; field_simp; ring

/-- an average with weights in `[0, 1]` stays between the bounds -/
theorem avg_bounds {a b x y s : ℝ} (hs0 : 0 ≤ s) (hs1 : s ≤ 1) (hx : a ≤ x ∧ x ≤ b) (hy : a ≤ y ∧ y ≤ b) :
    a ≤ (1 - s) * x + s * y ∧ (1 - s) * x + s * y ≤ b := by
  constructor <;> nlinarith [hx.1, hx.2, hy.1, hy.2]

theorem frac_bounds {n : ℕ} (hn : 2 ≤ n) {t : ℝ} (h0 : 0 ≤ t) (h1 : t ≤ n - 1) :
    0 ≤ t - (⌊t⌋₊ ⊓ (n - 2) : ℕ) ∧ t - (⌊t⌋₊ ⊓ (n - 2) : ℕ) ≤ 1 := by
  have f1 := Nat.floor_le h0
  have f2 := Nat.lt_floor_add_one t
  constructor
  · have : ((⌊t⌋₊ ⊓ (n - 2) : ℕ) : ℝ) ≤ (⌊t⌋₊ : ℕ) := by exact_mod_cast min_le_left _ _
    linarith
  · rcases le_total ⌊t⌋₊ (n - 2) with h | h
    · rw [min_eq_left h]; linarith
    · rw [min_eq_right h, Nat.cast_sub hn]; push_cast; linarith

theorem bilin_bounds {g : ℕ → ℕ → ℝ} {n : ℕ} (hn : 2 ≤ n) {a b : ℝ} (hg : ∀ i < n, ∀ j < n, a ≤ g i j ∧ g i j ≤ b)
    {tx ty : ℝ} (hx0 : 0 ≤ tx) (hx1 : tx ≤ n - 1) (hy0 : 0 ≤ ty) (hy1 : ty ≤ n - 1) :
    a ≤ bilin g n tx ty ∧ bilin g n tx ty ≤ b := by
  unfold bilin
  dsimp only
  have hj := min_le_right ⌊tx⌋₊ (n - 2)
  have hi := min_le_right ⌊ty⌋₊ (n - 2)
  obtain ⟨x0, x1⟩ := frac_bounds hn hx0 hx1
  obtain ⟨y0, y1⟩ := frac_bounds hn hy0 hy1
  exact avg_bounds y0 y1
    (avg_bounds x0 x1 (hg _ (by omega) _ (by omega)) (hg _ (by omega) _ (by omega)))
    (avg_bounds x0 x1 (hg _ (by omega) _ (by omega)) (hg _ (by omega) _ (by omega)))

end PyBSM
