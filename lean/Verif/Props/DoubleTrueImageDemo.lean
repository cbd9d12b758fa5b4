import Verif.Props.DoubleTrueImage
import Verif.Props.SimulateDemo

/-!
# Concrete cases for C143
-/

noncomputable section

open Classical

namespace PyBSM

open Spec

theorem demo_reflectances : ∀ p ∈ ([(0, 0.05), (100, 0.95)] : List (ℝ × ℝ)), |p.2| ≤ 1 := by
  intro p hp
  simp only [List.mem_cons, List.not_mem_nil, or_false] at hp
  rcases hp with rfl | rfl <;> norm_num [abs_le]

/-- The hypotheses of `C143_reflectance` hold in a concrete case, with pixels inside and far outside the calibrated range. -/
example := C143_reflectance roundDouble_rounds demoRef_of.valid demo_reflectances [50, -1000000, 37.25, 1e30]

/-- The hypotheses of `C143_two_points` hold in a concrete case. -/
example : ∃ y y', (imgToReflectanceD roundDouble [50, 37.25] [(0, 0.05), (100, 0.95)])[1]? = some y
    ∧ (imgToReflectanceD roundDouble [50, 37.25] [(0, 0.05), (100, 0.95)])[0]? = some y' ∧ y ≤ y' :=
  C143_two_points roundDouble_rounds (by norm_num) (by norm_num) [50, 37.25] (x := 37.25) (x' := 50) rfl rfl (by norm_num)

/-- The hypotheses of `C143_order` hold in a concrete case. -/
example : ∃ y y' : ℝ, (imgToReflectanceD roundDouble [50, 37.25] [(100, 0.95), (0, 0.05), (60, 0.4)])[1]? = some y
    ∧ (imgToReflectanceD roundDouble [50, 37.25] [(100, 0.95), (0, 0.05), (60, 0.4)])[0]? = some y' ∧ y ≤ y' + 6e-14 := by
  refine C143_order roundDouble_rounds ⟨by simp, by norm_num⟩ ?_ ?_ [50, 37.25] (x := 37.25) (x' := 50) rfl rfl (by norm_num)
  · intro p hp q hq h
    simp only [List.mem_cons, List.not_mem_nil, or_false] at hp hq
    rcases hp with rfl | rfl | rfl <;> rcases hq with rfl | rfl | rfl <;> first | (norm_num; done) | (norm_num at h)
  · intro p hp
    simp only [List.mem_cons, List.not_mem_nil, or_false] at hp
    rcases hp with rfl | rfl | rfl <;> norm_num [abs_le]

/-- The hypotheses of `C143_electrons` hold in a concrete case, where each entry of the photoelectron table is rounded. -/
example := C143_electrons roundDouble_rounds demoRef_of demo_reflectances (s := demoSensor) (B := demoInBand)
  (P := |demoSensor.pixel demoInBand 0| + |demoSensor.pixel demoInBand 1|) (δ := 1.2e-16)
  (by linarith [abs_nonneg (demoSensor.pixel demoInBand 1)]) (by linarith [abs_nonneg (demoSensor.pixel demoInBand 0)])
  (by norm_num) (by norm_num) (pe := fun k => roundDouble (demoSensor.pixel demoInBand (k / 99)))
  (fun k hk => by
    refine (roundDouble_rounds.error _).trans (mul_le_mul_of_nonneg_left ?_ (by norm_num))
    have k0 : (0 : ℝ) ≤ k / 99 := by positivity
    have k1 : (k : ℝ) / 99 ≤ 1 := by
      rw [div_le_one (by norm_num)]
      exact_mod_cast (by omega : k ≤ 99)
    rw [pixel_affine, abs_le]
    have a := abs_le.mp (le_refl |demoSensor.pixel demoInBand 0|)
    have b := abs_le.mp (le_refl |demoSensor.pixel demoInBand 1|)
    generalize demoSensor.pixel demoInBand 0 = x at *
    generalize demoSensor.pixel demoInBand 1 = y at *
    generalize (k : ℝ) / 99 = w at *
    constructor <;> nlinarith)

end PyBSM
