import Verif.Lemmas.DoubleOtfRound

/-!
# Rounding errors of the cross term of the diffraction MTF
-/

noncomputable section

open Classical

namespace PyBSM

open Spec

variable {fl sqD acosD sinD tanD atanD : ℝ → ℝ}

theorem abs_arctan_le (x : ℝ) : |Real.arctan x| ≤ |x| := by
  have key : ∀ x : ℝ, 0 ≤ x → Real.arctan x ≤ x := by
    intro x hx
    have h0 := Real.arctan_nonneg.mpr hx
    have := Real.le_tan h0 (Real.arctan_lt_pi_div_two x)
    rwa [Real.tan_arctan] at this
  rcases le_total 0 x with h | h
  · rw [abs_of_nonneg h, abs_of_nonneg (Real.arctan_nonneg.mpr h)]; exact key x h
  · rw [← abs_neg, ← Real.arctan_neg, ← abs_neg x, abs_of_nonneg (by linarith : 0 ≤ -x),
      abs_of_nonneg (Real.arctan_nonneg.mpr (by linarith))]
    exact key _ (by linarith)

theorem arctan_close {r x δ : ℝ} (hx : 0 ≤ x) (hδ0 : 0 ≤ δ) (hδ : δ ≤ 1 / 2) (h : |r - x| ≤ δ * x) :
    |Real.arctan r - Real.arctan x| ≤ δ := by
  obtain ⟨h1, h2⟩ := abs_le.mp h
  have hd : δ * x ≤ 1 / 2 * x := mul_le_mul_of_nonneg_right hδ hx
  have hr : x / 2 ≤ r := by linarith
  have hrx : 0 ≤ r * x := mul_nonneg (by linarith) hx
  have e := Real.arctan_add (x := r) (y := -x) (by linarith)
  rw [Real.arctan_neg, ← sub_eq_add_neg, ← sub_eq_add_neg, mul_neg, sub_neg_eq_add] at e
  rw [e]
  refine (abs_arctan_le _).trans ?_
  rw [abs_div, abs_of_pos (by linarith : 0 < 1 + r * x), div_le_iff₀ (by linarith)]
  refine h.trans (mul_le_mul_of_nonneg_left ?_ hδ0)
  nlinarith [sq_nonneg (x - 1)]

theorem half_pi_below (hfl : RoundsToNearest fl) : fl (Real.pi / 2) < Real.pi / 2 := by
  have h1 := Real.pi_gt_d20
  have h2 := Real.pi_lt_d20
  have := hfl.le_of_lt (m := 7074237752028440) (by norm_num) (by norm_num) (-52) (x := Real.pi / 2) (by norm_num; linarith)
  refine lt_of_le_of_lt this ?_
  norm_num
  linarith

/-- The cross term. -/
theorem cross_value (hfl : RoundsToNearest fl) (hl : TrigLibrary sqD acosD sinD tanD atanD) {eta w : ℝ} (he : 0 < eta)
    (he1 : eta ≤ 0.9) (hw : |w| ≤ 1) :
    ∃ y, crossD fl acosD sinD tanD atanD eta (sqD eta) w = .fin y ∧ |y - crossAngle eta (Real.arccos w)| ≤ 1e-12 := by
  have hpi := Real.pi_pos
  have hpi1 := Real.pi_gt_d2
  have hpi2 := Real.pi_lt_d2
  have hq := hl.sq eta
  have hac := hl.acos w hw
  have hlt := hl.acos_lt w hw
  have ha0 := Real.arccos_nonneg w
  have ha1 := Real.arccos_le_pi w
  unfold crossD arccosD
  rw [if_pos hw]
  refine ⟨_, rfl, ?_⟩
  generalize sqD eta = e2 at *
  generalize acosD w = p at *
  obtain ⟨p1, p2⟩ := abs_le.mp hac
  have hp0 : 0 ≤ p := by linarith
  have hh := hfl.error (p / 2)
  rw [abs_of_nonneg (by linarith : 0 ≤ p / 2)] at hh
  have hh0 : 0 ≤ fl (p / 2) := by rw [← hfl.zero]; exact hfl.mono (by linarith)
  have hhlt : fl (p / 2) < Real.pi / 2 := lt_of_le_of_lt (hfl.mono (by linarith)) (half_pi_below hfl)
  have htan := hl.tan _ hh0 hhlt
  generalize fl (p / 2) = h at *
  obtain ⟨h1, h2⟩ := abs_le.mp hh
  have hph : |p - 2 * h| ≤ 1e-15 := by rw [abs_le]; constructor <;> linarith
  have E2 : Apx 1 e2 (eta ^ 2) (eta ^ 2) := ⟨by linarith, (abs_of_nonneg (sq_nonneg _)).le⟩
  have PI : Apx 1 (fl Real.pi) Real.pi Real.pi := Apx.const hfl hpi.le
  -- first term
  have S : Apx 2 (sinD p) (Real.sin (2 * h)) 1 := by
    refine ⟨?_, Real.abs_sin_le_one _⟩
    have s1 := hl.sin p
    have s2 := Real.abs_sin_le_one p
    have s3 := Real.abs_sin_sub_sin_le p (2 * h)
    have := abs_sub_le (sinD p) (Real.sin p) (Real.sin (2 * h))
    linarith
  have T1 := (((((Apx.const hfl (x := 2 * eta) (by positivity)).mul S (by norm_num) (by norm_num)).round hfl
    (by norm_num)).quot PI hpi (by norm_num) (by norm_num) (by norm_num)).round hfl (by norm_num))
  -- second term
  have P : Apx 1 p (2 * h) Real.pi := by
    refine ⟨hph.trans (by linarith), ?_⟩
    rw [abs_of_nonneg (by linarith)]; linarith
  have O : Apx 2 (fl (1 + e2)) (1 + eta ^ 2) (1 + eta ^ 2) := by
    have := (((Apx.of (x := 1) (m := 1) (by norm_num)).add E2).round hfl (by norm_num))
    exact this.mono (by norm_num)
  have T2 := (((((O.mul P (by norm_num) (by norm_num)).round hfl (by norm_num)).quot PI hpi (by norm_num) (by norm_num)
    (by norm_num)).round hfl (by norm_num)))
  -- third term
  have T3 : Apx 3 (fl (2 * e2)) (2 * eta ^ 2) (2 * eta ^ 2) :=
    (((Apx.of (x := 2) (m := 2) (by norm_num)).mul E2 (by norm_num) (by norm_num)).round hfl (by norm_num)).mono (by norm_num)
  -- fourth term
  have he2 : eta ^ 2 < 1 := by nlinarith
  have M : Apx 2 (fl (1 - e2)) (1 - eta ^ 2) (1 + eta ^ 2) := by
    have := (((Apx.of (x := 1) (m := 1) (by norm_num)).sub E2).round hfl (by norm_num))
    exact this.mono (by norm_num)
  have C4 := (((((Apx.of (x := 2) (m := 2) (by norm_num)).mul M (by norm_num) (by norm_num)).round hfl (by norm_num)).quot PI hpi
    (by norm_num) (by norm_num) (by norm_num)).round hfl (by norm_num))
  have htan0 : 0 ≤ Real.tan h := Real.tan_nonneg_of_nonneg_of_le_pi_div_two hh0 hhlt.le
  have TN : Apx 1 (tanD h) (Real.tan h) (Real.tan h) := ⟨by linarith, (abs_of_nonneg htan0).le⟩
  have ARG := (((((Apx.const hfl (x := 1 + eta) (by positivity)).mul TN (by norm_num) (by norm_num)).round hfl
    (by norm_num)).quot (Apx.const hfl (x := 1 - eta) (by linarith)) (by linarith) (by norm_num) (by norm_num) (by norm_num)).round hfl
    (by norm_num))
  have hk := half_angle he.le (by linarith : eta < 1) (p := 2 * h) (by linarith) (by linarith)
  rw [show 2 * h / 2 = h by ring] at hk
  have AT : Apx 10 (atanD (fl (fl (fl (1 + eta) * tanD h) / fl (1 - eta))))
      (h + Real.arctan (eta * Real.sin (2 * h) / (1 - eta * Real.cos (2 * h)))) 2 := by
    rw [← hk]
    generalize fl (fl (fl (1 + eta) * tanD h) / fl (1 - eta)) = a at *
    have x0 : 0 ≤ (1 + eta) * Real.tan h / (1 - eta) := ARG.size
    have b1 := arctan_close x0 (δ := 7.2e-15) (by norm_num) (by norm_num) (ARG.1.trans (mul_le_mul_of_nonneg_right (by norm_num) x0))
    have b2 := hl.arctan a
    have b3 : ∀ y, |Real.arctan y| ≤ 2 := fun y => by
      rw [abs_le]; constructor <;> linarith [Real.arctan_lt_pi_div_two y, Real.neg_pi_div_two_lt_arctan y]
    refine ⟨?_, b3 _⟩
    have := abs_sub_le (atanD a) (Real.arctan a) (Real.arctan ((1 + eta) * Real.tan h / (1 - eta)))
    linarith [b3 a]
  have T4 := ((C4.mul AT (by norm_num) (by norm_num)).round hfl (by norm_num))
  have TOT := ((((((T1.add T2).round hfl (by norm_num)).sub T3).round hfl (by norm_num)).sub T4).round hfl (by norm_num)).mono (k' := 25)
    (by norm_num)
  have e : 2 * eta * Real.sin (2 * h) / Real.pi + (1 + eta ^ 2) * (2 * h) / Real.pi - 2 * eta ^ 2
      - 2 * (1 - eta ^ 2) / Real.pi * (h + Real.arctan (eta * Real.sin (2 * h) / (1 - eta * Real.cos (2 * h))))
      = crossAngle eta (2 * h) := by
    unfold crossAngle
    rw [show 2 * h / 2 = h by ring]
  rw [e] at TOT
  have hcl := cross_close he.le (by linarith : eta < 1) (p := 2 * h) (q := Real.arccos w) (by linarith) (by linarith) ha0 ha1
  have hd : |2 * h - Real.arccos w| ≤ 1e-14 := by
    rw [abs_le] at hph ⊢
    constructor <;> linarith
  have hL : crossL eta ≤ 6 := by
    unfold crossL
    rw [div_div, div_le_iff₀ (by nlinarith)]
    nlinarith
  have hm : 2 * eta * 1 / Real.pi + (1 + eta ^ 2) * Real.pi / Real.pi + 2 * eta ^ 2 + 2 * (1 + eta ^ 2) / Real.pi * 2 ≤ 10 := by
    have i1 : 1 / Real.pi ≤ 1 / 3 := one_div_le_one_div_of_le (by norm_num) (by linarith)
    have e1 : 2 * eta * 1 / Real.pi + (1 + eta ^ 2) * Real.pi / Real.pi + 2 * eta ^ 2 + 2 * (1 + eta ^ 2) / Real.pi * 2
      = 2 * eta * (1 / Real.pi) + (1 + eta ^ 2) + 2 * eta ^ 2 + 4 * (1 + eta ^ 2) * (1 / Real.pi) := by field_simp; ring
    rw [e1]
    generalize 1 / Real.pi = i at *
    have a1 : 2 * eta * i ≤ 2 * eta * (1 / 3) := by gcongr
    have a2 : 4 * (1 + eta ^ 2) * i ≤ 4 * (1 + eta ^ 2) * (1 / 3) := by gcongr
    linarith
  have hT := TOT.1
  have h5 := abs_sub_le _ (crossAngle eta (2 * h)) (crossAngle eta (Real.arccos w)) |>.trans (add_le_add hT hcl)
  refine h5.trans ?_
  have h6 : crossL eta * |2 * h - Real.arccos w| ≤ 6 * 1e-14 :=
    mul_le_mul hL hd (abs_nonneg _) (by norm_num)
  have h7 := mul_le_mul_of_nonneg_left hm (by norm_num : (0 : ℝ) ≤ 25 * 1e-15)
  linarith

end PyBSM
