import Verif.Props.DoubleSimulate
import Verif.Props.SNR

/-!
# Concrete cases for C147
-/

noncomputable section

open Classical

namespace PyBSM

open Spec

/-- The grid for an aperture of 10 cm and a shortest wavelength of half a micron (C147_grid, C147_step). -/
example : simFreqUD roundDouble 2e5 750 = 0 ∧ |simFreqUD roundDouble 2e5 1500 - 2e5| ≤ 6.1e-16 * 2e5 ∧ 0 < simStepD roundDouble 2e5
    ∧ simStepD roundDouble 2e5 < 266.67 := by
  have g := C147_grid roundDouble_rounds (c := 2e5) (by norm_num)
  have s := C147_step roundDouble_rounds (c := 2e5) (by norm_num)
  have e : colFreq 1501 2e5 1500 = 2e5 := by unfold colFreq; norm_num
  have h := g.1 1500 (by norm_num)
  rw [e] at h
  refine ⟨g.2.2.1, h, ?_, ?_⟩
  · have := s.1
    unfold simStepRejected at this
    exact not_le.mp this
  · have := (abs_le.mp s.2).2
    norm_num at this ⊢
    linarith

/-- For a cutoff frequency of zero the error is raised. -/
example : simStepRejected roundDouble 0 := by
  unfold simStepRejected simStepD simFreqUD simFreqVD
  simp [roundDouble_rounds.zero]

/-- The demonstration camera has noise (C147_noise). -/
example : 0 < simNoiseD roundDouble demoSensor.maxN demoSensor.readNoise 12
    ∧ |simNoiseD roundDouble demoSensor.maxN demoSensor.readNoise 12 - demoSensor.gaussian| ≤ 2e-14 * demoSensor.gaussian := by
  have c := C147_noise roundDouble_rounds (s := demoSensor) (by norm_num [demoSensor]) (b := 12) (by norm_num) (by norm_num [demoSensor])
  exact ⟨lt_of_le_of_ne c.1 fun e => absurd (c.2.2.mp e.symm).2 (by norm_num [demoSensor]), c.2.1⟩

theorem five_thousand : (5000 : ℝ) = Real.sqrt (3000 ^ 2 + 4000 ^ 2) := by
  rw [show (3000 : ℝ) ^ 2 + 4000 ^ 2 = 5000 ^ 2 by norm_num, Real.sqrt_sq (by norm_num)]

/-- From 3 km up and 4 km away, 300 pixels of 5 cm become 120 pixels of a camera with a field of view of 25 µrad (C147_image_size). -/
example : simSizeD roundDouble 300 0.05 3000 4000 20e-6 20e-6 0.8 = 120 := by
  have e : ((300 : ℕ) : ℝ) * (0.05 / 5000) / 2.5e-5 = ((120 : ℤ) : ℝ) := by norm_num
  have h := C147_image_size roundDouble_rounds (n := 300) (by norm_num) (gsd := 0.05) (alt := 3000) (rng := 4000) (pX := 20e-6) (pY := 20e-6)
    (f := 0.8) (by norm_num) (by norm_num) (by norm_num) (by norm_num) (by norm_num) five_thousand (ifov := 2.5e-5) (by norm_num)
    (by norm_num) (by
      intro k
      rw [e, show ((120 : ℤ) : ℝ) - (k + 1 / 2) = ((239 - 2 * k : ℤ) : ℝ) / 2 by push_cast; ring, abs_div, abs_two, ← Int.cast_abs]
      have : (1 : ℝ) ≤ ((|239 - 2 * k| : ℤ) : ℝ) := by exact_mod_cast Int.one_le_abs (by omega)
      linarith)
  rw [h, e]
  unfold roundHalfEven
  rw [Int.floor_intCast]
  norm_num

/-- The point spread function of the same view, for a cutoff frequency of 220000 per radian (C147_psf_size). -/
example : simPsfSizeD roundDouble Real.arctan 2.2e5 0.05 3000 4000 = 340 := by
  have up : Real.arctan 5e-6 ≤ 5e-6 := by
    have := Real.le_tan (Real.arctan_nonneg.mpr (by norm_num : (0 : ℝ) ≤ 5e-6)) (Real.arctan_lt_pi_div_two _)
    rwa [Real.tan_arctan] at this
  have low : 4.999e-6 ≤ Real.arctan 5e-6 := by
    have h := Real.sin_le (Real.arctan_nonneg.mpr (by norm_num : (0 : ℝ) ≤ 5e-6))
    rw [Real.sin_arctan] at h
    refine le_trans ?_ h
    rw [le_div_iff₀ (Real.sqrt_pos.mpr (by norm_num))]
    have : Real.sqrt (1 + 5e-6 ^ 2) ≤ 1.0001 := by
      rw [Real.sqrt_le_left (by norm_num)]
      norm_num
    nlinarith
  have a0 : (0 : ℝ) < 2 * Real.arctan 5e-6 := by linarith
  have x1 : 340.9 ≤ 1 / ((2.2e5 : ℝ) / 750) / (2 * Real.arctan 5e-6) := by
    rw [le_div_iff₀ a0]
    norm_num at up ⊢
    linarith
  have x2 : 1 / ((2.2e5 : ℝ) / 750) / (2 * Real.arctan 5e-6) ≤ 340.99 := by
    rw [div_le_iff₀ a0]
    norm_num at low ⊢
    linarith
  have h := C147_psf_size roundDouble_rounds (atanD := Real.arctan) (fun x => by rw [sub_self, abs_zero]; positivity) (c := 2.2e5) (gsd := 0.05)
    (alt := 3000) (rng := 4000) (by norm_num) (by norm_num) (by norm_num) five_thousand (angle := 2 * Real.arctan 5e-6) (by norm_num)
    (by linarith) (by
      intro k
      rcases le_or_gt k 340 with hk | hk
      · have : (k : ℝ) ≤ 340 := by exact_mod_cast hk
        rw [abs_of_nonneg (by linarith)]
        linarith
      · have : (341 : ℝ) ≤ k := by exact_mod_cast hk
        rw [abs_of_nonpos (by linarith)]
        linarith)
  rw [h, show ⌊1 / ((2.2e5 : ℝ) / 750) / (2 * Real.arctan 5e-6)⌋ = 340 by
    rw [Int.floor_eq_iff]; push_cast; constructor <;> linarith]
  norm_num

end PyBSM
