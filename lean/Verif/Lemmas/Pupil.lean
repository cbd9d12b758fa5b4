import Verif.Spec.Pupil
import Verif.Lemmas.Lens

/-!
# The autocorrelation of an annular pupil in closed form
-/

noncomputable section

open MeasureTheory Set

namespace PyBSM

open Spec

theorem annulus_inter {X x X' x' : Set ℂ} (hx : x ⊆ X) (hx' : x' ⊆ X') (m1 : MeasurableSet X)
    (m2 : MeasurableSet x) (m3 : MeasurableSet X') (m4 : MeasurableSet x') (hf : volume X ≠ ⊤) :
    volume.real ((X \ x) ∩ (X' \ x')) = volume.real (X ∩ X') - volume.real (x ∩ X')
      - volume.real (X ∩ x') + volume.real (x ∩ x') := by
  have hset : (X \ x) ∩ (X' \ x') = (X ∩ X') \ ((x ∩ X') ∪ (X ∩ x')) := by
    ext z; simp only [mem_inter_iff, mem_sdiff, mem_union]; tauto
  have hint : (x ∩ X') ∩ (X ∩ x') = x ∩ x' := by
    ext z
    simp only [mem_inter_iff]
    constructor
    · rintro ⟨⟨a, _⟩, _, b⟩; exact ⟨a, b⟩
    · rintro ⟨a, b⟩; exact ⟨⟨a, hx' b⟩, hx a, b⟩
  have hfin : ∀ Y : Set ℂ, Y ⊆ X → volume Y ≠ ⊤ := fun Y hY => ne_top_of_le_ne_top hf (measure_mono hY)
  have f1 : volume (x ∩ X') ≠ ⊤ := hfin _ (inter_subset_left.trans hx)
  have f2 : volume (X ∩ x') ≠ ⊤ := hfin _ inter_subset_left
  have hu := measureReal_union_add_inter (μ := volume) (s := x ∩ X') (t := X ∩ x') (m1.inter m4) f1 f2
  rw [hset, measureReal_sdiff (union_subset (inter_subset_inter_left _ hx) (inter_subset_inter_right _ hx'))
    ((m2.inter m3).union (m1.inter m4)) (hfin _ inter_subset_left)]
  rw [hint] at hu
  linarith

theorem pupil_eq (D eta : ℝ) :
    pupil D eta = Metric.closedBall (0 : ℂ) (D / 2) \ Metric.closedBall 0 (eta * (D / 2)) := by
  ext z
  simp [pupil, and_comm]

theorem shift_pupil_eq (D eta : ℝ) (s : ℂ) :
    {z | z - s ∈ pupil D eta} = Metric.closedBall s (D / 2) \ Metric.closedBall s (eta * (D / 2)) := by
  ext z
  simp [pupil, and_comm, dist_eq_norm]

theorem segArea_scale {R : ℝ} (hR : 0 < R) (r h : ℝ) : segArea (R * r) (R * h) = R ^ 2 * segArea r h := by
  unfold segArea
  rw [mul_div_mul_left _ _ hR.ne', show (R * r) ^ 2 - (R * h) ^ 2 = R ^ 2 * (r ^ 2 - h ^ 2) by ring,
    Real.sqrt_mul (sq_nonneg R), Real.sqrt_sq hR.le]
  ring

/-- The area lost to the two holes, for radii 1 and `eta` at distance `2t`. -/
def crossArea (eta t : ℝ) : ℝ :=
  segArea 1 ((4 * t ^ 2 + 1 - eta ^ 2) / (4 * t)) + segArea eta ((4 * t ^ 2 + eta ^ 2 - 1) / (4 * t))

theorem autocorrelation_annulus {D eta : ℝ} (hD : 0 < D) (he : 0 < eta) (he1 : eta < 1) {s : ℂ} (hs : s ≠ 0) :
    autocorrelation (pupil D eta) s = (D / 2) ^ 2 * (2 * segArea 1 (‖s‖ / D)
      - 2 * crossArea eta (‖s‖ / D) + 2 * segArea eta (‖s‖ / D)) := by
  have hR : 0 < D / 2 := by positivity
  have hn : 0 < ‖s‖ := norm_pos_iff.mpr hs
  have hle : eta * (D / 2) ≤ D / 2 := by nlinarith
  have heR : 0 < eta * (D / 2) := by positivity
  unfold autocorrelation
  rw [shift_pupil_eq, pupil_eq, annulus_inter (Metric.closedBall_subset_closedBall hle)
    (Metric.closedBall_subset_closedBall hle) measurableSet_closedBall measurableSet_closedBall
    measurableSet_closedBall measurableSet_closedBall measure_closedBall_lt_top.ne,
    volume_lens hR hR hs, volume_lens heR hR hs, volume_lens hR heR hs, volume_lens heR heR hs]
  set t := ‖s‖ / D with ht
  have htp : 0 < t := by positivity
  have hst : ‖s‖ = D / 2 * (2 * t) := by rw [ht]; field_simp
  have e1 : segArea (D / 2) ((‖s‖ ^ 2 + (D / 2) ^ 2 - (D / 2) ^ 2) / (2 * ‖s‖)) = (D / 2) ^ 2 * segArea 1 t := by
    rw [← segArea_scale hR]; congr 1
    · ring
    · rw [hst]; field_simp; ring
  have e2 : segArea (D / 2) (‖s‖ - (‖s‖ ^ 2 + (D / 2) ^ 2 - (D / 2) ^ 2) / (2 * ‖s‖))
      = (D / 2) ^ 2 * segArea 1 t := by
    rw [← segArea_scale hR]; congr 1
    · ring
    · rw [hst]; field_simp; ring
  have e3 : segArea (eta * (D / 2)) ((‖s‖ ^ 2 + (eta * (D / 2)) ^ 2 - (eta * (D / 2)) ^ 2) / (2 * ‖s‖))
      = (D / 2) ^ 2 * segArea eta t := by
    rw [← segArea_scale hR]; congr 1
    · ring
    · rw [hst]; field_simp; ring
  have e4 : segArea (eta * (D / 2)) (‖s‖ - (‖s‖ ^ 2 + (eta * (D / 2)) ^ 2 - (eta * (D / 2)) ^ 2) / (2 * ‖s‖))
      = (D / 2) ^ 2 * segArea eta t := by
    rw [← segArea_scale hR]; congr 1
    · ring
    · rw [hst]; field_simp; ring
  have e5 : segArea (eta * (D / 2)) ((‖s‖ ^ 2 + (eta * (D / 2)) ^ 2 - (D / 2) ^ 2) / (2 * ‖s‖))
      = (D / 2) ^ 2 * segArea eta ((4 * t ^ 2 + eta ^ 2 - 1) / (4 * t)) := by
    rw [← segArea_scale hR]; congr 1
    · ring
    · rw [hst]; field_simp; ring
  have e6 : segArea (D / 2) (‖s‖ - (‖s‖ ^ 2 + (eta * (D / 2)) ^ 2 - (D / 2) ^ 2) / (2 * ‖s‖))
      = (D / 2) ^ 2 * segArea 1 ((4 * t ^ 2 + 1 - eta ^ 2) / (4 * t)) := by
    rw [← segArea_scale hR]; congr 1
    · ring
    · rw [hst]; field_simp; ring
  have e7 : segArea (D / 2) ((‖s‖ ^ 2 + (D / 2) ^ 2 - (eta * (D / 2)) ^ 2) / (2 * ‖s‖))
      = (D / 2) ^ 2 * segArea 1 ((4 * t ^ 2 + 1 - eta ^ 2) / (4 * t)) := by
    rw [← segArea_scale hR]; congr 1
    · ring
    · rw [hst]; field_simp; ring
  have e8 : segArea (eta * (D / 2)) (‖s‖ - (‖s‖ ^ 2 + (D / 2) ^ 2 - (eta * (D / 2)) ^ 2) / (2 * ‖s‖))
      = (D / 2) ^ 2 * segArea eta ((4 * t ^ 2 + eta ^ 2 - 1) / (4 * t)) := by
    rw [← segArea_scale hR]; congr 1
    · ring
    · rw [hst]; field_simp; ring
  rw [e1, e2, e3, e4, e5, e6, e7, e8]
  unfold crossArea
  ring

theorem volume_closedBall_real {r : ℝ} (hr : 0 ≤ r) :
    volume.real (Metric.closedBall (0 : ℂ) r) = Real.pi * r ^ 2 := by
  rw [Measure.real, Complex.volume_closedBall, ENNReal.toReal_mul, ENNReal.toReal_pow,
    ENNReal.toReal_ofReal hr, ENNReal.coe_toReal, NNReal.coe_real_pi]
  ring

theorem autocorrelation_zero {D eta : ℝ} (hD : 0 < D) (he : 0 ≤ eta) (he1 : eta < 1) :
    autocorrelation (pupil D eta) 0 = Real.pi * (D / 2) ^ 2 * (1 - eta ^ 2) := by
  have hle : eta * (D / 2) ≤ D / 2 := by nlinarith
  unfold autocorrelation
  simp only [sub_zero, ofPred_mem_eq, inter_self]
  rw [pupil_eq, measureReal_sdiff (Metric.closedBall_subset_closedBall hle) measurableSet_closedBall
    measure_closedBall_lt_top.ne, volume_closedBall_real (by positivity), volume_closedBall_real (by positivity)]
  ring

theorem autocorrelation_disc {D : ℝ} (hD : 0 < D) {s : ℂ} (hs : s ≠ 0) :
    autocorrelation (pupil D 0) s = (D / 2) ^ 2 * (2 * segArea 1 (‖s‖ / D)) := by
  have hR : 0 < D / 2 := by positivity
  have hn : 0 < ‖s‖ := norm_pos_iff.mpr hs
  unfold autocorrelation
  rw [shift_pupil_eq, pupil_eq, annulus_inter (Metric.closedBall_subset_closedBall (by simp [hR.le]))
    (Metric.closedBall_subset_closedBall (by simp [hR.le])) measurableSet_closedBall measurableSet_closedBall
    measurableSet_closedBall measurableSet_closedBall measure_closedBall_lt_top.ne, volume_lens hR hR hs]
  have z1 : ∀ c : ℂ, ∀ Y : Set ℂ, volume.real (Metric.closedBall c (0 * (D / 2)) ∩ Y) = 0 := by
    intro c Y
    rw [measureReal_eq_zero_iff (ne_top_of_le_ne_top measure_closedBall_lt_top.ne (measure_mono inter_subset_left))]
    refine measure_mono_null inter_subset_left ?_
    rw [zero_mul, Metric.closedBall_zero, measure_singleton]
  have z2 : volume.real (Metric.closedBall (0 : ℂ) (D / 2) ∩ Metric.closedBall s (0 * (D / 2))) = 0 := by
    rw [inter_comm]; exact z1 _ _
  rw [z1, z1, z2]
  set t := ‖s‖ / D with ht
  have hst : ‖s‖ = D / 2 * (2 * t) := by rw [ht]; field_simp
  have htp : 0 < t := by positivity
  have e1 : segArea (D / 2) ((‖s‖ ^ 2 + (D / 2) ^ 2 - (D / 2) ^ 2) / (2 * ‖s‖)) = (D / 2) ^ 2 * segArea 1 t := by
    rw [← segArea_scale hR]; congr 1
    · ring
    · rw [hst]; field_simp; ring
  have e2 : segArea (D / 2) (‖s‖ - (‖s‖ ^ 2 + (D / 2) ^ 2 - (D / 2) ^ 2) / (2 * ‖s‖))
      = (D / 2) ^ 2 * segArea 1 t := by
    rw [← segArea_scale hR]; congr 1
    · ring
    · rw [hst]; field_simp; ring
  rw [e1, e2]; ring

theorem autocorrelation_le {D eta : ℝ} (s : ℂ) :
    0 ≤ autocorrelation (pupil D eta) s ∧ autocorrelation (pupil D eta) s ≤ autocorrelation (pupil D eta) 0 := by
  refine ⟨measureReal_nonneg, ?_⟩
  unfold autocorrelation
  simp only [sub_zero, ofPred_mem_eq, inter_self]
  have hfin : volume (pupil D eta) ≠ ⊤ := by
    rw [pupil_eq]
    exact ne_top_of_le_ne_top measure_closedBall_lt_top.ne (measure_mono sdiff_subset)
  exact measureReal_mono inter_subset_left hfin

end PyBSM
