import Verif.Props.DoublePsf
import Verif.Props.DoubleBlurDemo

/-!
# Concrete cases for C145
-/

noncomputable section

open Classical

namespace PyBSM

open Spec

/-- A point spread function of 20 x 20 entries: a peak of 6 and two of its neighbours. -/
def demoPeak : Img := ⟨20, 20, fun i j => if i = 10 then (if j = 10 then 6 else if j = 9 ∨ j = 11 then 1 else 0) else 0⟩

/-- Entries added row after row. -/
def rowByRow (h w : ℕ) : SumTree := .sequential (h * w)

theorem demoPeak_adds : AddsEach rowByRow demoPeak 400 := by
  intro h hh w hw
  change h ≤ 20 at hh
  change w ≤ 20 at hw
  refine ⟨by unfold rowByRow; rw [SumTree.sequential_leaves], ?_⟩
  unfold rowByRow
  rw [SumTree.sequential_depth]
  exact Nat.mul_le_mul hh hw

theorem demoPeak_sum : demoPeak.sum = 8 := by
  unfold Img.sum demoPeak
  simp only [Finset.sum_range_succ, Finset.sum_range_zero]
  norm_num

theorem demoPeak_gross : grossSum demoPeak = 8 := by
  rw [← demoPeak_sum]
  unfold grossSum Img.sum demoPeak
  dsimp only
  refine Finset.sum_congr rfl fun i _ => Finset.sum_congr rfl fun j _ => abs_of_nonneg ?_
  split_ifs <;> norm_num

theorem demoPeak_conditioned : Conditioned demoPeak 1 := ⟨by rw [demoPeak_sum]; norm_num, by rw [demoPeak_sum, demoPeak_gross]; norm_num⟩

/-- The normalised point spread function. -/
def demoUnit : Img := { demoPeak with px := fun i j => demoPeak.px i j / 8 }

theorem demoUnit_eq : normalize demoPeak = .ok demoUnit := by
  unfold normalize
  rw [demoPeak_sum, if_neg (by norm_num)]
  rfl

theorem demoUnit_middle : (getMiddle demoUnit 10).sum = 1 := by
  have e : getMiddle demoUnit 10 = ⟨10, 10, fun i j => demoUnit.px (5 + i) (5 + j)⟩ := by
    unfold getMiddle demoUnit demoPeak pySliceBound
    norm_num
    exact ⟨rfl, rfl⟩
  rw [e]
  unfold Img.sum demoUnit demoPeak
  simp only [Finset.sum_range_succ, Finset.sum_range_zero]
  norm_num

theorem demoUnit_middle' : (getMiddle demoUnit 15).sum = 1 := by
  have e : getMiddle demoUnit 15 = ⟨16, 16, fun i j => demoUnit.px (2 + i) (2 + j)⟩ := by
    unfold getMiddle demoUnit demoPeak pySliceBound
    norm_num
    exact ⟨rfl, rfl⟩
  rw [e]
  unfold Img.sum demoUnit demoPeak
  simp only [Finset.sum_range_succ, Finset.sum_range_zero]
  norm_num

/-- C145_kernel, C145_sum, C145_flat and C145_nonneg for the peak and a flat image of 25 electrons. -/
example : ∃ f f' b', finishPsf demoPeak [10, 15] = .ok f ∧ finishPsfD roundDouble rowByRow demoPeak [10, 15] = .ok f' ∧ f'.h = f.h ∧ f'.w = f.w
    ∧ (∀ i j, |f'.px i j - f.px i j| ≤ 13 * 1 ^ 2 * sumError 400 * |f.px i j|)
    ∧ |f'.sum - 1| ≤ 26 * 1 ^ 3 * sumError 400
    ∧ (∀ i < f'.h, ∀ j < f'.w, 0 ≤ f'.px i j)
    ∧ filter2DD roundDouble (.sequential 100) ⟨7, 9, fun _ _ => 25⟩ f' = .ok b'
    ∧ ∀ i < 7, ∀ j < 9, |b'.px i j - 25| ≤ 30 * 1 ^ 3 * sumError 400 * |25| := by
  have hs : supportSize demoUnit [10, 15] = .ok 10 := by
    unfold supportSize
    rw [demoUnit_middle, if_pos (by norm_num)]
  have hn : normalize (getMiddle demoUnit 10) = .ok { getMiddle demoUnit 10 with px := fun i j => (getMiddle demoUnit 10).px i j / 1 } := by
    unfold normalize
    rw [demoUnit_middle, if_neg (by norm_num)]
  have hE : sumError 400 = 401 * 1.5e-16 := by unfold sumError; norm_num
  have hm : ∀ k ∈ [10, 15], 5 * 1 ^ 2 * sumError 400 < |(getMiddle demoUnit k).sum - 0.95| := by
    intro k hk
    simp only [List.mem_cons, List.not_mem_nil, or_false] at hk
    rcases hk with rfl | rfl
    · rw [demoUnit_middle, hE, abs_of_nonneg] <;> norm_num
    · rw [demoUnit_middle', hE, abs_of_nonneg] <;> norm_num
  have hh : 1 / 2 ≤ (getMiddle demoUnit 10).sum := by rw [demoUnit_middle]; norm_num
  have hκ : (1 : ℝ) ^ 2 * sumError 400 ≤ 1e-4 := by rw [hE]; norm_num
  obtain ⟨f', g1, g2, g3, g4⟩ := C145_kernel roundDouble_rounds demoPeak_adds (by norm_num) demoPeak_conditioned hκ demoUnit_eq hs hn hh hm
  obtain ⟨f2, s1, s2, -⟩ := C145_sum roundDouble_rounds demoPeak_adds (by norm_num) demoPeak_conditioned hκ demoUnit_eq hs hn hh hm
  have size : (getMiddle demoUnit 10).h = 10 ∧ (getMiddle demoUnit 10).w = 10 := by
    unfold getMiddle demoUnit demoPeak pySliceBound
    norm_num
    rfl
  obtain ⟨f3, b', t1, t2, -, -, t3⟩ := C145_flat roundDouble_rounds demoPeak_adds (by norm_num) demoPeak_conditioned hκ demoUnit_eq hs hn hh hm
    (x := ⟨7, 9, fun _ _ => 25⟩) (v := 25) (by norm_num) (by norm_num) (fun _ _ _ _ => ⟨le_rfl, le_rfl⟩) (order := .sequential 100)
    (by rw [SumTree.sequential_depth]; norm_num) (by rw [SumTree.sequential_leaves]; change List.Perm _ (List.range ((getMiddle demoUnit 10).h * (getMiddle demoUnit 10).w)); rw [size.1, size.2])
  rw [g1, Except.ok.injEq] at s1 t1
  subst s1 t1
  refine ⟨_, f', b', ?_, g1, g2, g3, g4, s2, C145_nonneg roundDouble_rounds demoPeak_adds ?_ g1, t2, t3⟩
  · unfold finishPsf
    rw [demoUnit_eq]
    simp only [bind, Except.bind]
    rw [hs]
    exact hn
  · intro i _ j _
    unfold demoPeak
    dsimp only
    split_ifs <;> norm_num

end PyBSM
