import Verif.Lemmas.Pupil
import Mathlib.Analysis.SpecialFunctions.Trigonometric.Arctan

/-!
# The overlap of an aperture with a shifted obscuration: three cases

The middle case is the triangle with sides `1`, `eta` and `2t`.
-/

noncomputable section

namespace PyBSM

theorem segArea_of_le_neg {r h : ℝ} (hr : 0 < r) (h1 : h ≤ -r) : segArea r h = Real.pi * r ^ 2 := by
  unfold segArea
  rw [Real.arccos_of_le_neg_one (by rw [div_le_iff₀ hr]; linarith), Real.sqrt_eq_zero_of_nonpos (by nlinarith)]
  ring

theorem cross_small {eta t : ℝ} (he : 0 < eta) (ht : 0 < t) (h : t ≤ (1 - eta) / 2) :
    crossArea eta t = Real.pi * eta ^ 2 := by
  unfold crossArea
  have h4 : 0 < 4 * t := by positivity
  rw [segArea_of_le one_pos, segArea_of_le_neg he, zero_add]
  · rw [div_le_iff₀ h4]; nlinarith
  · rw [le_div_iff₀ h4]; nlinarith

theorem cross_large {eta t : ℝ} (he : 0 < eta) (he1 : eta < 1) (h : (1 + eta) / 2 ≤ t) :
    crossArea eta t = 0 := by
  unfold crossArea
  have ht : 0 < t := by linarith
  have h4 : 0 < 4 * t := by positivity
  rw [segArea_of_le one_pos, segArea_of_le he, zero_add]
  · rw [le_div_iff₀ h4]; nlinarith
  · rw [le_div_iff₀ h4]; nlinarith

set_option maxHeartbeats 1000000 in
/-- The triangle with sides `1`, `eta`, `2t`. -/
theorem cross_mid {eta t : ℝ} (he : 0 < eta) (he1 : eta < 1) (h1 : (1 - eta) / 2 < t) (h2 : t < (1 + eta) / 2) :
    let φ := Real.arccos ((1 + eta ^ 2 - 4 * t ^ 2) / (2 * eta))
    0 < φ ∧ φ < Real.pi
    ∧ -2 * crossArea eta t / Real.pi = 2 * eta * Real.sin φ / Real.pi + (1 + eta ^ 2) * φ / Real.pi - 2 * eta ^ 2
        - 2 * (1 - eta ^ 2) / Real.pi * Real.arctan ((1 + eta) * Real.tan (φ / 2) / (1 - eta)) := by
  intro φ
  have ht : 0 < t := by linarith
  have hpi := Real.pi_pos
  have hW : 0 < (1 + eta) ^ 2 - 4 * t ^ 2 := by nlinarith
  have hE : 0 < 1 - eta ^ 2 := by nlinarith
  set x0 := (4 * t ^ 2 + 1 - eta ^ 2) / (4 * t) with hx0
  set y0 := (4 * t ^ 2 + eta ^ 2 - 1) / (4 * t) with hy0
  set cφ := (1 + eta ^ 2 - 4 * t ^ 2) / (2 * eta) with hcφ
  have ex : 4 * t * x0 = 4 * t ^ 2 + 1 - eta ^ 2 := by rw [hx0]; field_simp
  have ey : 4 * t * y0 = 4 * t ^ 2 + eta ^ 2 - 1 := by rw [hy0]; field_simp
  have ec : 2 * eta * cφ = 1 + eta ^ 2 - 4 * t ^ 2 := by rw [hcφ]; field_simp
  have exy : x0 + y0 = 2 * t := by
    have : 4 * t * (x0 + y0) = 4 * t * (2 * t) := by linear_combination ex + ey
    exact mul_left_cancel₀ (by positivity) this
  have exm : 2 * t * (x0 - y0) = 1 - eta ^ 2 := by linear_combination (1/2) * ex - (1/2) * ey
  have esq : x0 ^ 2 - y0 ^ 2 = 1 - eta ^ 2 := by linear_combination exm + (x0 - y0) * exy
  have hc1 : -1 < cφ := by
    rw [hcφ, lt_div_iff₀ (by positivity)]; nlinarith
  have hc2 : cφ < 1 := by
    rw [hcφ, div_lt_one (by positivity)]; nlinarith
  have hx1 : -1 < x0 := by
    rw [hx0, lt_div_iff₀ (by positivity)]; nlinarith
  have hx2 : x0 < 1 := by
    rw [hx0, div_lt_one (by positivity)]; nlinarith
  have hh2 : 0 < 1 - x0 ^ 2 := by nlinarith
  set h := Real.sqrt (1 - x0 ^ 2) with hh
  have hhp : 0 < h := Real.sqrt_pos.mpr hh2
  have hhs : h ^ 2 = 1 - x0 ^ 2 := Real.sq_sqrt hh2.le
  have hhy : h ^ 2 = eta ^ 2 - y0 ^ 2 := by linear_combination hhs - esq
  have hyabs : -eta < y0 ∧ y0 < eta := by
    have hp : 0 < h ^ 2 := by positivity
    exact abs_lt.mp (abs_lt_of_sq_lt_sq (by linarith) he.le)
  have hy1 : -1 < y0 / eta := by
    rw [lt_div_iff₀ he]; linarith [hyabs.1]
  have hy2 : y0 / eta < 1 := by
    rw [div_lt_one he]; exact hyabs.2
  set α := Real.arccos x0 with hα
  set β := Real.arccos (y0 / eta) with hβ
  have cα : Real.cos α = x0 := Real.cos_arccos hx1.le hx2.le
  have sα : Real.sin α = h := Real.sin_arccos x0
  have cβ : Real.cos β = y0 / eta := Real.cos_arccos hy1.le hy2.le
  have sβ : Real.sin β = h / eta := by
    rw [hβ, Real.sin_arccos, show 1 - (y0 / eta) ^ 2 = h ^ 2 / eta ^ 2 by rw [hhy]; field_simp,
      Real.sqrt_div (sq_nonneg h), Real.sqrt_sq hhp.le, Real.sqrt_sq he.le]
  have cφ' : Real.cos φ = cφ := Real.cos_arccos hc1.le hc2.le
  have hφ0 : 0 < φ := Real.arccos_pos.mpr hc2
  have hφ1 : φ < Real.pi := by
    refine (Real.arccos_le_pi _).lt_of_ne ?_
    intro e
    have : Real.cos φ = -1 := by rw [show φ = Real.pi from e, Real.cos_pi]
    rw [cφ'] at this; linarith
  have hα0 : 0 < α := Real.arccos_pos.mpr hx2
  have hβ0 : 0 < β := Real.arccos_pos.mpr hy2
  have hα1 : α ≤ Real.pi := Real.arccos_le_pi _
  have hβ1 : β ≤ Real.pi := Real.arccos_le_pi _
  have sφ : Real.sin φ = 2 * t * h / eta := by
    rw [Real.sin_arccos]
    rw [show 1 - cφ ^ 2 = (2 * t * h / eta) ^ 2 from ?_, Real.sqrt_sq (by positivity)]
    rw [div_pow (2 * t * h), eq_div_iff (by positivity), mul_pow, hhs]
    have h16 : (4 * t * x0) ^ 2 = (4 * t ^ 2 + 1 - eta ^ 2) ^ 2 := by rw [ex]
    have h4 : (2 * eta * cφ) ^ 2 = (1 + eta ^ 2 - 4 * t ^ 2) ^ 2 := by rw [ec]
    linear_combination (-1/4) * h4 + (1/4) * h16
  -- angle sum
  have hsum : α + β = Real.pi - φ := by
    have hcos : Real.cos (α + β) = Real.cos (Real.pi - φ) := by
      rw [Real.cos_add, Real.cos_pi_sub, cα, cβ, sα, sβ, cφ']
      have : x0 * (y0 / eta) - h * (h / eta) = (x0 * y0 - h ^ 2) / eta := by ring
      rw [this, div_eq_iff he.ne', hhs]
      linear_combination x0 * exy + (1/2) * ex + (1/2) * ec
    have hsin : 0 < Real.sin (α + β) := by
      rw [Real.sin_add, cα, cβ, sα, sβ]
      have : h * (y0 / eta) + x0 * (h / eta) = h * (x0 + y0) / eta := by ring
      rw [this, exy]; positivity
    have hlt : α + β ≤ Real.pi := by
      by_contra hc
      push Not at hc
      have := Real.sin_nonpos_of_nonpos_of_neg_pi_le (x := α + β - 2 * Real.pi) (by linarith) (by linarith)
      rw [Real.sin_sub_two_pi] at this
      linarith
    exact Real.injOn_cos ⟨by linarith, hlt⟩ ⟨by linarith, by linarith⟩ hcos
  -- the arctangent
  have hsd : Real.sin (β - α) = h * (1 - eta ^ 2) / (2 * t * eta) := by
    rw [Real.sin_sub, cα, cβ, sα, sβ, ← exm]; field_simp
  have hcd : Real.cos (β - α) = (x0 * y0 + h ^ 2) / eta := by
    rw [Real.cos_sub, cα, cβ, sα, sβ]; field_simp
  have hsdp : 0 < Real.sin (β - α) := by
    rw [hsd]; positivity
  have hβα : 0 < β - α := by
    by_contra hc
    push Not at hc
    have := Real.sin_nonpos_of_nonpos_of_neg_pi_le hc (by linarith)
    linarith
  have half_tan : ∀ y : ℝ, Real.tan (y / 2) = Real.sin y / (1 + Real.cos y) := by
    intro y
    have e1 : Real.sin y = 2 * Real.sin (y / 2) * Real.cos (y / 2) := by
      rw [← Real.sin_two_mul]; congr 1; ring
    have e2 : Real.cos y = 2 * Real.cos (y / 2) ^ 2 - 1 := by
      rw [← Real.cos_two_mul]; congr 1; ring
    rw [e1, e2, Real.tan_eq_sin_div_cos]
    by_cases hz : Real.cos (y / 2) = 0
    · rw [hz]; simp
    · field_simp; ring
  have hne1 : 1 + cφ ≠ 0 := by linarith
  have htan : (1 + eta) * Real.tan (φ / 2) / (1 - eta) = Real.tan ((Real.pi - (β - α)) / 2) := by
    rw [half_tan, half_tan, Real.sin_pi_sub, Real.cos_pi_sub, sφ, cφ', hsd, hcd]
    have h1e : 1 - eta ≠ 0 := by linarith
    have hq : x0 * y0 + h ^ 2 = (1 + eta ^ 2 - ((1 - eta ^ 2) / (2 * t)) ^ 2) / 2 := by
      have : x0 - y0 = (1 - eta ^ 2) / (2 * t) := by rw [eq_div_iff (by positivity)]; linarith
      rw [← this]
      linear_combination (1/2) * hhs + (1/2) * hhy
    have hd1 : 1 + cφ = ((1 + eta) ^ 2 - 4 * t ^ 2) / (2 * eta) := by
      rw [eq_div_iff (by positivity)]; linear_combination ec
    have hd2 : 1 + -((x0 * y0 + h ^ 2) / eta) = (1 - eta) ^ 2 * ((1 + eta) ^ 2 - 4 * t ^ 2) / (8 * t ^ 2 * eta) := by
      rw [hq]; field_simp; ring
    rw [hd1, show (1 : ℝ) + -((x0 * y0 + h ^ 2) / eta) = _ from hd2]
    generalize (1 + eta) ^ 2 - 4 * t ^ 2 = W at hW
    field_simp
    ring
  have harc : Real.arctan ((1 + eta) * Real.tan (φ / 2) / (1 - eta)) = (Real.pi - (β - α)) / 2 := by
    rw [htan, Real.arctan_tan] <;> linarith
  refine ⟨hφ0, hφ1, ?_⟩
  rw [harc]
  have hcross : crossArea eta t = α + eta ^ 2 * β - eta * Real.sin φ := by
    unfold crossArea segArea
    rw [← hx0, ← hy0, div_one, ← hα, ← hβ, one_pow, one_mul, ← hh, ← hhy, Real.sqrt_sq hhp.le, sφ]
    field_simp
    linear_combination (-h) * exy
  rw [hcross]
  have hβe : φ = Real.pi - α - β := by linarith
  rw [show Real.sin φ = Real.sin φ from rfl]
  generalize Real.sin φ = S
  rw [hβe]
  field_simp
  ring

end PyBSM
