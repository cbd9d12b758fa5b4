import Verif.Props.DoubleSimulated
import Verif.Props.DoublePsfDemo
import Verif.Props.DoubleTrueImageDemo

/-!
# Concrete cases for C146
-/

noncomputable section

open Classical

namespace PyBSM

open Spec

/-- The kernel cropped from `demoUnit`. -/
def demoKernel : Img := { getMiddle demoUnit 10 with px := fun i j => (getMiddle demoUnit 10).px i j / 1 }

theorem demoKernel_eq : normalize (getMiddle demoUnit 10) = .ok demoKernel := by
  unfold normalize demoKernel
  rw [demoUnit_middle, if_neg (by norm_num)]

theorem demoKernel_size : demoKernel.h = 10 ∧ demoKernel.w = 10 := by
  unfold demoKernel getMiddle demoUnit demoPeak pySliceBound
  norm_num
  rfl

theorem demoKernel_order : (SumTree.sequential 100).leaves.Perm (List.range (demoKernel.h * demoKernel.w)) := by
  rw [SumTree.sequential_leaves, demoKernel_size.1, demoKernel_size.2]

theorem demoUnit_support : supportSize demoUnit [10, 15] = .ok 10 := by
  unfold supportSize
  rw [demoUnit_middle, if_pos (by norm_num)]

theorem demo_error : sumError 400 = 401 * 1.5e-16 := by unfold sumError; norm_num

theorem demoUnit_margin : ∀ k ∈ [10, 15], 5 * (1 : ℝ) ^ 2 * sumError 400 < |(getMiddle demoUnit k).sum - 0.95| := by
  intro k hk
  simp only [List.mem_cons, List.not_mem_nil, or_false] at hk
  rcases hk with rfl | rfl
  · rw [demoUnit_middle, demo_error, abs_of_nonneg] <;> norm_num
  · rw [demoUnit_middle', demo_error, abs_of_nonneg] <;> norm_num

/-- An image of two rows of three pixels, off by 1/1000, blurred and resampled to four rows of two (C146_blurred). -/
example : ∃ b y f' y', filter2D demoSmall demoKernel = .ok b ∧ cvResize b 2 4 = .ok y
    ∧ finishPsfD roundDouble rowByRow demoPeak [10, 15] = .ok f'
    ∧ blurResampleD roundDouble roundDouble (.sequential 100) ⟨2, 3, fun i j => demoSmall.px i j + 0.001⟩ f' 2 4 = .ok y'
    ∧ CloseImg y' y (2 * 1 * (0.001 + (16 * 1 ^ 2 * sumError 400 + 1.4e-7 * ((2 : ℕ) + (3 : ℕ)) + 5e-7) * 125)) := by
  obtain ⟨b, hb, h1, h2, -⟩ := filter2D_ok (x := demoSmall) (k := demoKernel) (by decide) (by decide) (by rw [demoKernel_size.1]; decide)
    (by rw [demoKernel_size.2]; decide)
  obtain ⟨y, hy, -⟩ := cvResize_ok (x := b) (nw := 2) (nh := 4) (by rw [h1]; decide) (by rw [h2]; decide) (by decide) (by decide)
  obtain ⟨f', y', g1, g2, g3⟩ := C146_blurred roundDouble_rounds roundDouble_single demoPeak_adds (by norm_num) demoPeak_conditioned
    (by rw [demo_error]; norm_num) demoUnit_eq demoUnit_support demoKernel_eq (by rw [demoUnit_middle]; norm_num) demoUnit_margin
    demoSmall_bounded (x' := ⟨2, 3, fun i j => demoSmall.px i j + 0.001⟩) (e := 0.001)
    ⟨rfl, rfl, fun i _ j _ => by rw [add_sub_cancel_left]; norm_num⟩ (by norm_num) (by norm_num)
    (by rw [SumTree.sequential_depth]; norm_num) demoKernel_order hb hy
  exact ⟨b, y, f', y', hb, hy, g1, g2, g3⟩

/-- The photoelectron table of the demonstration camera, each entry rounded. -/
theorem demo_table (k : ℕ) (hk : k < 100) : |roundDouble (demoSensor.pixel demoInBand (k / 99)) - demoSensor.pixel demoInBand (k / 99)|
    ≤ 1.2e-16 * (|demoSensor.pixel demoInBand 0| + |demoSensor.pixel demoInBand 1|) := by
  refine (roundDouble_rounds.error _).trans (mul_le_mul_of_nonneg_left ?_ (by norm_num))
  have k0 : (0 : ℝ) ≤ k / 99 := by positivity
  have k1 : (k : ℝ) / 99 ≤ 1 := by
    rw [div_le_one (by norm_num)]
    exact_mod_cast (by omega : k ≤ 99)
  rw [pixel_affine, abs_le]
  have a := abs_le.mp (le_refl |demoSensor.pixel demoInBand 0|)
  have b := abs_le.mp (le_refl |demoSensor.pixel demoInBand 1|)
  generalize demoSensor.pixel demoInBand 0 = x at *
  generalize demoSensor.pixel demoInBand 1 = y at *
  generalize (k : ℝ) / 99 = w at *
  constructor <;> nlinarith

/-- The hypotheses of `C146_simulated` hold for the demonstration camera and reference image. -/
example : ∃ ys b y out f' y', trueImage demoRef (vec 100 fun i => i / 99) (vec 100 fun i => demoSensor.pixel demoInBand (i / 99)) = .ok (ys.map .fin)
    ∧ filter2D (imgOfPixels 2 3 ys) demoKernel = .ok b ∧ cvResize b 2 4 = .ok y
    ∧ trueImageD roundDouble demoRef.img.ravel [(0, 0.05), (100, 0.95)] (fun k => roundDouble (demoSensor.pixel demoInBand (k / 99))) = .ok out
    ∧ blurResampleD roundDouble roundDouble (.sequential 100) (imgOfPixels 2 3 out) f' 2 4 = .ok y'
    ∧ CloseImg y' y (2 * 1 * (1.2e-16 + 16 * 1 ^ 2 * sumError 400 + 1.4e-7 * ((2 : ℕ) + (3 : ℕ)) + 6e-7)
      * (|demoSensor.pixel demoInBand 0| + |demoSensor.pixel demoInBand 1|)) := by
  have ht := trueImage_pixel demoRef_of demoSensor demoInBand
  generalize (demoRef.img.ravel.map fun x => demoSensor.pixel demoInBand (unit (calAt [(0, 0.05), (100, 0.95)] x))) = ys at ht
  obtain ⟨b, hb, h1, h2, -⟩ := filter2D_ok (x := imgOfPixels 2 3 ys) (k := demoKernel) (by unfold imgOfPixels; norm_num)
    (by unfold imgOfPixels; norm_num) (by rw [demoKernel_size.1]; decide) (by rw [demoKernel_size.2]; decide)
  obtain ⟨y, hy, -⟩ := cvResize_ok (x := b) (nw := 2) (nh := 4) (by rw [h1]; unfold imgOfPixels; norm_num)
    (by rw [h2]; unfold imgOfPixels; norm_num) (by decide) (by decide)
  obtain ⟨out, f', y', g1, -, g2, g3⟩ := C146_simulated roundDouble_rounds roundDouble_single demoRef_of demo_reflectances
    (P := |demoSensor.pixel demoInBand 0| + |demoSensor.pixel demoInBand 1|) (δ := 1.2e-16)
    (by linarith [abs_nonneg (demoSensor.pixel demoInBand 1)]) (by linarith [abs_nonneg (demoSensor.pixel demoInBand 0)])
    (by norm_num) (by norm_num) demo_table ht demoPeak_adds (by norm_num) demoPeak_conditioned (by rw [demo_error]; norm_num) demoUnit_eq
    demoUnit_support demoKernel_eq (by rw [demoUnit_middle]; norm_num) demoUnit_margin (by rw [SumTree.sequential_depth]; norm_num)
    demoKernel_order hb hy
  exact ⟨ys, b, y, out, f', y', ht, hb, hy, g1, g2, g3⟩

/-- The hypotheses of `C146_poisson` hold for a table of 100 rising numbers. -/
example : ∃ out f' y, trueImageD roundDouble demoRef.img.ravel [(0, 0.05), (100, 0.95)] (fun k => k) = .ok out
    ∧ blurResampleD roundDouble roundDouble (.sequential 100) (imgOfPixels 2 3 out) f' 2 4 = .ok y ∧ ∀ i < y.h, ∀ j < y.w, 0 ≤ y.px i j := by
  obtain ⟨f', g1, g2, g3, -⟩ := C145_kernel roundDouble_rounds demoPeak_adds (by norm_num) demoPeak_conditioned
    (by rw [demo_error]; norm_num) demoUnit_eq demoUnit_support demoKernel_eq (by rw [demoUnit_middle]; norm_num) demoUnit_margin
  rw [demoKernel_size.1] at g2
  rw [demoKernel_size.2] at g3
  have ht : ∃ out, trueImageD roundDouble demoRef.img.ravel [(0, 0.05), (100, 0.95)] (fun k => k) = .ok out := by
    have ok : ∀ x, ∃ y, interp1dStrictD roundDouble ((List.range 100).map fun k => (linspaceD roundDouble 0 1 100 k, (k : ℝ))) (clip01D x)
        = .ok y := by
      intro x
      have first : linspaceD roundDouble 0 1 100 0 = 0 := by
        unfold linspaceD
        rw [if_neg (by norm_num), Nat.cast_zero, zero_mul, roundDouble_rounds.zero, add_zero, roundDouble_rounds.zero]
      have last : linspaceD roundDouble 0 1 100 99 = 1 := by unfold linspaceD; rw [if_pos (by norm_num)]
      have hl : ((List.range 100).map fun k => (linspaceD roundDouble 0 1 100 k, (k : ℝ))).getLast? = some (1, 99) := by
        rw [List.getLast?_map, show (List.range 100).getLast? = some 99 by rfl]
        simp [last]
      have hh : ((List.range 100).map fun k => (linspaceD roundDouble 0 1 100 k, (k : ℝ))).head? = some (0, 0) := by
        rw [List.head?_map, show (List.range 100).head? = some 0 by rfl]
        simp [first]
      unfold interp1dStrictD
      rw [hh, hl]
      dsimp only
      have um : 0 ≤ clip01D x ∧ clip01D x ≤ 1 := by rw [clip01D_unit]; exact unit_mem _
      exact ⟨_, if_neg (by push Not; exact um)⟩
    choose f hf using ok
    unfold trueImageD imgToReflectanceD
    generalize demoRef.img.ravel = l
    induction l with
    | nil => exact ⟨[], rfl⟩
    | cons x t ih =>
      obtain ⟨o, ho⟩ := ih
      exact ⟨f (interp1dSegD roundDouble x _) :: o, by rw [List.map_cons, List.mapM_cons, hf, ho]; rfl⟩
  obtain ⟨out, ht⟩ := ht
  obtain ⟨b, hb, h1, h2, -⟩ := filter2D_ok (x := imgOfPixels 2 3 out) (k := f') (by unfold imgOfPixels; norm_num)
    (by unfold imgOfPixels; norm_num) (by rw [g2]; decide) (by rw [g3]; decide)
  obtain ⟨y, hy, -⟩ := cvResize_ok (x := b) (nw := 2) (nh := 4) (by rw [h1]; unfold imgOfPixels; norm_num)
    (by rw [h2]; unfold imgOfPixels; norm_num) (by decide) (by decide)
  have hord : (SumTree.sequential 100).leaves.Perm (List.range (f'.h * f'.w)) := by rw [SumTree.sequential_leaves, g2, g3]
  have hB : ∃ M, Bounded (imgOfPixels 2 3 out) M := by
    refine ⟨∑ i ∈ Finset.range 2, ∑ j ∈ Finset.range 3, |(imgOfPixels 2 3 out).px i j|, fun i hi j hj => ?_⟩
    change i < 2 at hi
    change j < 3 at hj
    refine le_trans (Finset.single_le_sum (f := fun j => |(imgOfPixels 2 3 out).px i j|) (fun _ _ => abs_nonneg _) (Finset.mem_range.mpr hj)) ?_
    exact Finset.single_le_sum (f := fun i => ∑ j ∈ Finset.range 3, |(imgOfPixels 2 3 out).px i j|)
      (fun _ _ => Finset.sum_nonneg fun _ _ => abs_nonneg _) (Finset.mem_range.mpr hi)
  obtain ⟨M, hM⟩ := hB
  obtain ⟨y', hy', -⟩ := C144_image roundDouble_rounds roundDouble_single hord (by rw [SumTree.sequential_depth]; norm_num) hM hb hy
  refine ⟨out, f', y', ht, hy', C146_poisson roundDouble_rounds roundDouble_single (fun k _ => Nat.cast_nonneg k)
    (fun i j h _ => by exact_mod_cast h) ht demoPeak_adds ?_ g1 hord hy'⟩
  intro i _ j _
  unfold demoPeak
  dsimp only
  split_ifs <;> norm_num

end PyBSM
