import Verif.Props.DoubleBlur
import Verif.Lemmas.Rounded

/-!
# Concrete cases for C144
-/

noncomputable section

open Classical

namespace PyBSM

open Spec

theorem roundDouble_single : SinglePrecision roundDouble where
  accurate := fun x => (roundDouble_rounds.error x).trans (mul_le_mul_of_nonneg_right (by norm_num) (abs_nonneg x))
  mono := fun _ _ h => roundDouble_rounds.mono h
  whole := fun n hn => roundDouble_rounds.self ⟨n, 0, by rw [abs_of_nonneg (by positivity)]; omega, by simp⟩

/-- Two rows of three pixels. -/
def demoSmall : Img := ⟨2, 3, fun i j => 100 * i + 10 * j + 5⟩

/-- A kernel of one row of three entries. -/
def demoTap : Img := ⟨1, 3, fun _ j => if j = 1 then 1 / 2 else 1 / 4⟩

theorem demoSmall_bounded : Bounded demoSmall 125 := by
  intro i hi j hj
  change i < 2 at hi
  change j < 3 at hj
  have a : (i : ℝ) ≤ 1 := by exact_mod_cast (by omega : i ≤ 1)
  have b : (j : ℝ) ≤ 2 := by exact_mod_cast (by omega : j ≤ 2)
  have a0 : (0 : ℝ) ≤ i := Nat.cast_nonneg i
  have b0 : (0 : ℝ) ≤ j := Nat.cast_nonneg j
  change |100 * (i : ℝ) + 10 * j + 5| ≤ 125
  rw [abs_le]
  constructor <;> linarith

theorem demoTap_order : (SumTree.sequential 3).leaves.Perm (List.range (demoTap.h * demoTap.w)) := by
  rw [SumTree.sequential_leaves]
  exact List.Perm.refl _

/-- C144_resample: two rows of three pixels to four rows of two. -/
example : ∃ y y', cvResize demoSmall 2 4 = .ok y ∧ cvResizeD roundDouble roundDouble demoSmall 2 4 = .ok y'
    ∧ CloseImg y' y ((1.4e-7 * ((2 : ℕ) + (3 : ℕ)) + 5e-7) * 125) := by
  obtain ⟨y, hy, -⟩ := cvResize_ok (x := demoSmall) (nw := 2) (nh := 4) (by decide) (by decide) (by decide) (by decide)
  obtain ⟨y', hy', c⟩ := C144_resample roundDouble_rounds roundDouble_single demoSmall_bounded hy
  exact ⟨y, y', hy, hy', c⟩

/-- C144_after: an image off by 1/1000. -/
example : ∃ y y', cvResize demoSmall 2 4 = .ok y
    ∧ cvResizeD roundDouble roundDouble ⟨2, 3, fun i j => demoSmall.px i j + 0.001⟩ 2 4 = .ok y'
    ∧ CloseImg y' y (0.001 + (1.4e-7 * ((2 : ℕ) + (3 : ℕ)) + 5e-7) * 125) := by
  obtain ⟨y, hy, -⟩ := cvResize_ok (x := demoSmall) (nw := 2) (nh := 4) (by decide) (by decide) (by decide) (by decide)
  obtain ⟨y', hy', c⟩ := C144_after (x' := ⟨2, 3, fun i j => demoSmall.px i j + 0.001⟩) (e := 0.001) roundDouble_rounds
    roundDouble_single demoSmall_bounded ⟨rfl, rfl, fun i _ j _ => by rw [add_sub_cancel_left]; norm_num⟩ (by norm_num) hy
  exact ⟨y, y', hy, hy', c⟩

/-- C144_same. -/
example : ∃ y, cvResizeD roundDouble roundDouble demoSmall 3 2 = .ok y ∧ SameImg y demoSmall :=
  C144_same roundDouble_rounds roundDouble_single (x := demoSmall) (by decide) (by decide) (by decide) (by decide) fun i hi j hj => by
    change i < 2 at hi
    change j < 3 at hj
    exact ⟨100 * i + 10 * j + 5, 0, by rw [abs_of_nonneg (by positivity)]; omega, by change 100 * (i : ℝ) + 10 * j + 5 = _; push_cast; ring⟩

/-- C144_blur and C144_image: the blurred rows, resampled to two rows of two pixels. -/
example : ∃ b y y', filter2D demoSmall demoTap = .ok b ∧ cvResize b 2 2 = .ok y
    ∧ blurResampleD roundDouble roundDouble (.sequential 3) demoSmall demoTap 2 2 = .ok y'
    ∧ CloseImg y' y ((((SumTree.sequential 3).depth + 1) * 1.5e-16 + 1.4e-7 * ((2 : ℕ) + (3 : ℕ)) + 5e-7) * (grossSum demoTap * 125))
    ∧ ∃ b', filter2DD roundDouble (.sequential 3) demoSmall demoTap = .ok b'
      ∧ CloseImg b' b (((SumTree.sequential 3).depth + 1) * 1.5e-16 * (grossSum demoTap * 125)) := by
  have hd : (SumTree.sequential 3).depth ≤ 10 ^ 9 := by rw [SumTree.sequential_depth]; norm_num
  obtain ⟨b, hb, h1, h2, -⟩ := filter2D_ok (x := demoSmall) (k := demoTap) (by decide) (by decide) (by decide) (by decide)
  obtain ⟨y, hy, -⟩ := cvResize_ok (x := b) (nw := 2) (nh := 2) (by rw [h1]; decide) (by rw [h2]; decide) (by decide) (by decide)
  obtain ⟨y', hy', c⟩ := C144_image roundDouble_rounds roundDouble_single demoTap_order hd demoSmall_bounded hb hy
  exact ⟨b, y, y', hb, hy, hy', c, C144_blur roundDouble_rounds demoTap_order hd demoSmall_bounded hb⟩

/-- C144_nonneg. -/
example : ∃ y, blurResampleD roundDouble roundDouble (.sequential 3) demoSmall demoTap 2 2 = .ok y
    ∧ ∀ i < y.h, ∀ j < y.w, 0 ≤ y.px i j := by
  have hd : (SumTree.sequential 3).depth ≤ 10 ^ 9 := by rw [SumTree.sequential_depth]; norm_num
  obtain ⟨b, hb, h1, h2, -⟩ := filter2D_ok (x := demoSmall) (k := demoTap) (by decide) (by decide) (by decide) (by decide)
  obtain ⟨y, hy, -⟩ := cvResize_ok (x := b) (nw := 2) (nh := 2) (by rw [h1]; decide) (by rw [h2]; decide) (by decide) (by decide)
  obtain ⟨y', hy', -⟩ := C144_image roundDouble_rounds roundDouble_single demoTap_order hd demoSmall_bounded hb hy
  refine ⟨y', hy', C144_nonneg roundDouble_rounds roundDouble_single demoTap_order ?_ ?_ hy'⟩
  · intro i _ j _
    change 0 ≤ if j = 1 then (1 / 2 : ℝ) else 1 / 4
    split_ifs <;> norm_num
  · intro i _ j _
    change 0 ≤ 100 * (i : ℝ) + 10 * j + 5
    positivity

end PyBSM
