import Verif.Lemmas.Wavefront
import Verif.Props.Aperture

/-!
# C88: the defocused-aperture formula is not the OTF of a defocused aperture
-/

noncomputable section

open Filter Topology

namespace PyBSM

open Spec

/-- **C88** (the physics): with an optical path difference `W` at the rim, the contrast of a circular aperture never
exceeds its diffraction limit, and falls below it by at most the fraction `(2 pi W / lam)^2 / 2`, at every
frequency. -/
theorem C88_defocus_loss {lam D : ℝ} (hl : 0 < lam) (hD : 0 < D) (W u v : ℝ) :
    ‖fieldOTF lam (defocusedField lam D W) u v‖ ≤ diffractionMTF lam D 0 u v
    ∧ diffractionMTF lam D 0 u v - ‖fieldOTF lam (defocusedField lam D W) u v‖
      ≤ diffractionMTF lam D 0 u v * ((2 * Real.pi * W / lam) ^ 2 / 2) := by
  obtain ⟨h1, h2⟩ := fieldOTF_bounds hl hD W u v
  refine ⟨h1, ?_⟩
  have : (2 * Real.pi / lam * |W|) ^ 2 = (2 * Real.pi * W / lam) ^ 2 := by
    rw [mul_pow, sq_abs]; ring
  rw [this] at h2
  linarith

/-- **C88** (finding): `circular_aperture_OTF_with_defocus` is not that contrast.  At half the cutoff frequency, in
every direction, for every wavelength, diameter and focal length and for every small enough nonzero defocus in either
direction, the returned value is below the contrast of the defocused aperture, and its loss with respect to the
diffraction limit is more than twice the true loss. -/
theorem C88_not_defocused_aperture {lam D : ℝ} (hl : 0 < lam) (hD : 0 < D) (f : ℝ) {wavelength dia foc : Scal}
    (h1 : wavelength.val = .fin lam) (h2 : dia.val = .fin D) (h3 : foc.val = .fin f) {u v : ℝ}
    (hhalf : Real.sqrt (u ^ 2 + v ^ 2) = D / lam / 2) :
    ∃ δ > 0, ∀ w : ℝ, w ≠ 0 → |w| < δ → ∃ h : ℝ,
      circularApertureOTFWithDefocus [.fin u] [.fin v] wavelength dia foc (.fin w) = .ok [.fin h]
      ∧ h < ‖fieldOTF lam (defocusedField lam D (rimPath f D w)) u v‖
      ∧ 2 * (diffractionMTF lam D 0 u v - ‖fieldOTF lam (defocusedField lam D (rimPath f D w)) u v‖)
          < diffractionMTF lam D 0 u v - h := by
  have hpi := Real.pi_pos
  have hr : 0 < D / lam := by positivity
  have ht : Real.sqrt (u ^ 2 + v ^ 2) / (D / lam) = 1 / 2 := by rw [hhalf]; field_simp
  have hz : Real.sqrt (u ^ 2 + v ^ 2) ≠ 0 := by rw [hhalf]; positivity
  have harc : Real.arccos (1 / 2) = Real.pi / 3 := by
    rw [← Real.cos_pi_div_three, Real.arccos_cos (by positivity) (by linarith)]
  set c := defocusRate lam D f 1 with hc
  have hcp : 0 < c := by rw [hc]; unfold defocusRate; positivity
  have hmtf : diffractionMTF lam D 0 u v = 2 / Real.pi * (Real.pi / 3 - Real.sqrt 3 / 4) := by
    rw [← XR.fin_inj, ← aperture_diffraction hl hD le_rfl one_pos, ← XR.zero_def, aperture_noObscuration hr, ht]
    congr 1
    unfold segArea
    rw [div_one, harc]
    have : Real.sqrt (1 ^ 2 - (1 / 2) ^ 2) = Real.sqrt 3 / 2 := by
      rw [show (1 : ℝ) ^ 2 - (1 / 2) ^ 2 = 3 / 2 ^ 2 by norm_num, Real.sqrt_div (by norm_num), Real.sqrt_sq (by norm_num)]
    rw [this]; ring
  obtain ⟨ε, hε, hdrop⟩ := Metric.mem_nhdsWithin_iff.mp defocusNum_drop
  refine ⟨ε / c, by positivity, fun w hw hwd => ?_⟩
  have hcw : c * w ≠ 0 := mul_ne_zero hcp.ne' hw
  have hin : c * w ∈ Metric.ball (0 : ℝ) ε := by
    rw [Metric.mem_ball, dist_zero_right, Real.norm_eq_abs, abs_mul, abs_of_pos hcp]
    rwa [lt_div_iff₀ hcp, mul_comm] at hwd
  have hd := hdrop ⟨hin, hcw⟩
  simp only [Set.mem_setOf_eq] at hd
  refine ⟨2 / Real.pi * (defocusNum 1 (Real.pi / 3) (c * w) / (c * w)), ?_, ?_⟩
  · rw [defocus_row hl hD h1 h2 h3, bc2_single]
    simp only [List.map_cons, List.map_nil]
    rw [defocus_value hl hD f hw hz, ht, if_pos (by norm_num), harc, show (2 : ℝ) * (1 / 2) = 1 by norm_num]
  obtain ⟨b1, b2⟩ := C88_defocus_loss hl hD (rimPath f D w) u v
  have hW : (2 * Real.pi * rimPath f D w / lam) ^ 2 / 2 = (c * w) ^ 2 / 8 := by
    rw [hc]; unfold rimPath defocusRate
    have : (1 + 4 * (f / D) ^ 2) ≠ 0 := by positivity
    field_simp
    norm_num
  rw [hW] at b2
  have hlow : 2 / Real.pi * (defocusNum 1 (Real.pi / 3) (c * w) / (c * w))
      < diffractionMTF lam D 0 u v * (1 - (c * w) ^ 2 / 4) := by
    rw [hmtf, mul_assoc]
    exact mul_lt_mul_of_pos_left hd (by positivity)
  constructor <;> nlinarith

/-- Half the cutoff of a 0.5 m aperture at 500 nm. -/
example : Real.sqrt ((300000 : ℝ) ^ 2 + 400000 ^ 2) = 0.5 / 0.0000005 / 2 := by
  rw [show (300000 : ℝ) ^ 2 + 400000 ^ 2 = 500000 ^ 2 by norm_num, Real.sqrt_sq (by norm_num)]
  norm_num

/-- Without defocus there is no loss. -/
example {lam D : ℝ} (hl : 0 < lam) (hD : 0 < D) (u v : ℝ) :
    ‖fieldOTF lam (defocusedField lam D 0) u v‖ = diffractionMTF lam D 0 u v := by
  obtain ⟨a, b⟩ := C88_defocus_loss hl hD 0 u v
  refine le_antisymm a ?_
  simpa using b

end PyBSM
