import Verif.Lemmas.DoubleOtfCross

/-!
# C117: the diffraction MTF in double precision
-/

noncomputable section

open Classical

namespace PyBSM

open Spec

variable {fl sqD acosD sinD tanD atanD : ℝ → ℝ}

theorem radial_apx (hfl : RoundsToNearest fl) (u v : ℝ) :
    Apx 3 (radialD fl u v) (Real.sqrt (u ^ 2 + v ^ 2)) (Real.sqrt (u ^ 2 + v ^ 2)) := by
  have h := ((Apx.const hfl (sq_nonneg u)).add (Apx.const hfl (sq_nonneg v))).round hfl (by norm_num)
  rw [max_self] at h
  exact ((h.root (by norm_num)).round hfl (by norm_num)).mono (by norm_num)

theorem inner_bound (hfl : RoundsToNearest fl) {eta r0 r0' rho rho' : ℝ} (he : 0 < eta) (he1 : eta ≤ 0.9) (hr : 0 < r0)
    (hr' : Apx 1 r0' r0 r0) (hrho : Apx 3 rho' rho rho) :
    (innerD fl eta r0' rho' → rho / r0 ≤ (1 - eta) / 2 * (1 + 1e-14))
    ∧ (¬ innerD fl eta r0' rho' → (1 - eta) / 2 * (1 - 1e-14) ≤ rho / r0)
    ∧ (outerD fl eta r0' rho' → rho / r0 ≤ (1 + eta) / 2 * (1 + 1e-14))
    ∧ (¬ outerD fl eta r0' rho' → (1 + eta) / 2 * (1 - 1e-14) ≤ rho / r0) := by
  have h0 := hrho.size
  have I := ((((Apx.const hfl (x := 1 - eta) (by linarith)).mul hr' (by norm_num) (by norm_num)).round hfl (by norm_num)).div
    (s := 2) (by norm_num)).round hfl (by norm_num)
  have O := ((((Apx.const hfl (x := 1 + eta) (by linarith)).mul hr' (by norm_num) (by norm_num)).round hfl (by norm_num)).div
    (s := 2) (by norm_num)).round hfl (by norm_num)
  rw [abs_of_pos (by norm_num : (0 : ℝ) < 2)] at I O
  obtain ⟨i1, i2⟩ := abs_le.mp I.1
  obtain ⟨o1, o2⟩ := abs_le.mp O.1
  obtain ⟨r1, r2⟩ := abs_le.mp hrho.1
  have ip : 0 < (1 - eta) * r0 := mul_pos (by linarith) hr
  have op : 0 < (1 + eta) * r0 := mul_pos (by linarith) hr
  unfold innerD outerD
  generalize fl (fl (fl (1 - eta) * r0') / 2) = I' at *
  generalize fl (fl (fl (1 + eta) * r0') / 2) = O' at *
  refine ⟨fun h => ?_, fun h => ?_, fun h => ?_, fun h => ?_⟩
  · rw [div_le_iff₀ hr, show (1 - eta) / 2 * (1 + 1e-14) * r0 = (1 - eta) * r0 / 2 * (1 + 1e-14) by ring]
    generalize (1 - eta) * r0 = X at *
    linarith
  · rw [le_div_iff₀ hr, show (1 - eta) / 2 * (1 - 1e-14) * r0 = (1 - eta) * r0 / 2 * (1 - 1e-14) by ring]
    generalize (1 - eta) * r0 = X at *
    linarith
  · rw [div_le_iff₀ hr, show (1 + eta) / 2 * (1 + 1e-14) * r0 = (1 + eta) * r0 / 2 * (1 + 1e-14) by ring]
    generalize (1 + eta) * r0 = X at *
    linarith
  · rw [le_div_iff₀ hr, show (1 + eta) / 2 * (1 - 1e-14) * r0 = (1 + eta) * r0 / 2 * (1 - 1e-14) by ring]
    generalize (1 + eta) * r0 = X at *
    linarith

theorem arg_bound (hfl : RoundsToNearest fl) {eta e2 r0 r0' rho rho' : ℝ} (he : 0 < eta)
    (h2 : |e2 - eta ^ 2| ≤ 1e-15 * eta ^ 2) (hr : 0 < r0) (hr' : Apx 1 r0' r0 r0) (hrho : Apx 3 rho' rho rho) :
    |crossArgD fl eta e2 r0' rho' - (1 + eta ^ 2 - 4 * (rho / r0) ^ 2) / (2 * eta)|
      ≤ 3e-14 * ((1 + eta ^ 2 + 4 * (rho / r0) ^ 2) / (2 * eta)) := by
  have E2 : Apx 1 e2 (eta ^ 2) (eta ^ 2) := ⟨by linarith, (abs_of_nonneg (sq_nonneg _)).le⟩
  have O : Apx 2 (fl (1 + e2)) (1 + eta ^ 2) (1 + eta ^ 2) := by
    have := (((Apx.of (x := 1) (m := 1) (by norm_num)).add E2).round hfl (by norm_num))
    exact this.mono (by norm_num)
  have S := (((((Apx.of (x := 2) (m := 2) (by norm_num)).mul hrho (by norm_num) (by norm_num)).round hfl (by norm_num)).quot hr' hr
    (by norm_num) (by norm_num) (by norm_num)).round hfl (by norm_num))
  have Q := (S.mul S (by norm_num) (by norm_num)).round hfl (by norm_num)
  rw [← pow_two] at Q
  have W := ((((((O.sub Q).round hfl (by norm_num)).div (s := 2) (by norm_num)).round hfl (by norm_num)).div (s := eta)
    he.ne').round hfl (by norm_num)).mono (k' := 30) (by norm_num)
  rw [abs_of_pos (by norm_num : (0 : ℝ) < 2), abs_of_pos he] at W
  have e1 : (1 + eta ^ 2 - 2 * rho / r0 * (2 * rho / r0)) / 2 / eta = (1 + eta ^ 2 - 4 * (rho / r0) ^ 2) / (2 * eta) := by
    field_simp; ring
  have e3 : (1 + eta ^ 2 + 2 * rho / r0 * (2 * rho / r0)) / 2 / eta = (1 + eta ^ 2 + 4 * (rho / r0) ^ 2) / (2 * eta) := by
    field_simp; ring
  rw [e1, e3] at W
  have := W.1
  unfold crossArgD
  linarith

/-- What the computed decisions say about the frequency, and what is left of the cross term. -/
theorem cross_cases (hfl : RoundsToNearest fl) (hl : TrigLibrary sqD acosD sinD tanD atanD) {eta r0 r0' rho rho' : ℝ}
    (he : 1e-3 ≤ eta) (he1 : eta ≤ 0.9) (hr : 0 < r0) (hr' : Apx 1 r0' r0 r0) (hrho : Apx 3 rho' rho rho) :
    ∃ c1 c2, .fin (fl (-2 * sqD eta)) * boolNum (innerD fl eta r0' rho') = .fin c1
      ∧ (crossD fl acosD sinD tanD atanD eta (sqD eta) (crossArgD fl eta (sqD eta) r0' rho')).nanToNum
        * boolNum (outerD fl eta r0' rho') = .fin c2
      ∧ ((innerD fl eta r0' rho' ↔ 1 < crossArgD fl eta (sqD eta) r0' rho') →
        |c1 + c2 - crossAngle eta (Real.arccos ((1 + eta ^ 2 - 4 * (rho / r0) ^ 2) / (2 * eta)))| ≤ 1e-11)
      ∧ (innerD fl eta r0' rho' → crossArgD fl eta (sqD eta) r0' rho' ≤ 1 →
        |c1 + c2 - (crossAngle eta (Real.arccos ((1 + eta ^ 2 - 4 * (rho / r0) ^ 2) / (2 * eta))) - 2 * eta ^ 2)| ≤ 1e-11
        ∧ |rho / r0 - (1 - eta) / 2| ≤ 1e-11)
      ∧ (¬ innerD fl eta r0' rho' → 1 < crossArgD fl eta (sqD eta) r0' rho' →
        |c1 + c2 - (crossAngle eta (Real.arccos ((1 + eta ^ 2 - 4 * (rho / r0) ^ 2) / (2 * eta))) + 2 * eta ^ 2)| ≤ 1e-11
        ∧ |rho / r0 - (1 - eta) / 2| ≤ 1e-11) := by
  have he0 : 0 < eta := by linarith
  have hlt : eta < 1 := by linarith
  have h2 := hl.sq eta
  have ht : 0 ≤ rho / r0 := div_nonneg hrho.size hr.le
  have harg := arg_bound hfl he0 h2 hr hr' hrho
  obtain ⟨d1, d2, d3, d4⟩ := inner_bound hfl he0 he1 hr hr' hrho
  have hc1 : |fl (-2 * sqD eta) - -2 * eta ^ 2| ≤ 1e-14 := by
    have E2 : Apx 1 (sqD eta) (eta ^ 2) (eta ^ 2) := ⟨by linarith, (abs_of_nonneg (sq_nonneg _)).le⟩
    have h := ((Apx.of (x := -2) (m := 2) (by norm_num)).mul E2 (by norm_num) (by norm_num)).round hfl (by norm_num)
    refine h.1.trans ?_
    have : eta ^ 2 ≤ 1 := by nlinarith
    nlinarith
  have hmono : innerD fl eta r0' rho' → outerD fl eta r0' rho' := by
    intro h
    have hr0 : 0 ≤ r0' := by have := (abs_le.mp hr'.1).1; linarith
    have : fl (fl (fl (1 - eta) * r0') / 2) ≤ fl (fl (fl (1 + eta) * r0') / 2) := by
      apply hfl.mono
      apply div_le_div_of_nonneg_right _ (by norm_num)
      apply hfl.mono
      apply mul_le_mul_of_nonneg_right _ hr0
      apply hfl.mono
      linarith
    exact h.le.trans this
  have hval := fun h => cross_value (w := crossArgD fl eta (sqD eta) r0' rho') hfl hl he0 he1 h
  have hnan : ¬ |crossArgD fl eta (sqD eta) r0' rho'| ≤ 1 →
      (crossD fl acosD sinD tanD atanD eta (sqD eta) (crossArgD fl eta (sqD eta) r0' rho')).nanToNum = .fin 0 := by
    intro h
    unfold crossD arccosD
    rw [if_neg h]; rfl
  generalize innerD fl eta r0' rho' = inn at *
  generalize outerD fl eta r0' rho' = out at *
  generalize fl (-2 * sqD eta) = f at *
  generalize crossArgD fl eta (sqD eta) r0' rho' = w' at *
  generalize crossD fl acosD sinD tanD atanD eta (sqD eta) w' = X at *
  generalize rho / r0 = t at *
  clear hrho hr' hr h2
  set w := (1 + eta ^ 2 - 4 * t ^ 2) / (2 * eta) with hw
  have hweq : w * (2 * eta) = 1 + eta ^ 2 - 4 * t ^ 2 := by rw [hw]; field_simp
  have he2 : eta ^ 2 ≤ 0.81 := by nlinarith
  -- the argument of the arc cosine
  have hsmall : t ≤ 2 → |w' - w| * eta ≤ 3e-13 := by
    intro h
    have : t ^ 2 ≤ 4 := by nlinarith
    have e : (1 + eta ^ 2 + 4 * t ^ 2) / (2 * eta) * eta = (1 + eta ^ 2 + 4 * t ^ 2) / 2 := by field_simp
    have := mul_le_mul_of_nonneg_right harg he0.le
    rw [mul_assoc, e] at this
    linarith
  have hlarge : 2 < t → w' < -1 := by
    intro h
    have : 4 < t ^ 2 := by nlinarith
    have h3 := (abs_le.mp harg).2
    have e : (1 + eta ^ 2 + 4 * t ^ 2) / (2 * eta) * eta = (1 + eta ^ 2 + 4 * t ^ 2) / 2 := by field_simp
    have h4 := mul_le_mul_of_nonneg_right h3 he0.le
    rw [mul_assoc, e] at h4
    by_contra hc
    push Not at hc
    nlinarith
  have hL0 := crossL_nonneg he0.le hlt
  have hL : crossL eta ≤ 7 * eta := by
    unfold crossL
    have := Real.pi_gt_d2
    rw [div_div, div_le_iff₀ (by nlinarith)]
    have h3 : 3.14 * 0.19 ≤ Real.pi * (1 - eta ^ 2) := mul_le_mul this.le (by linarith) (by norm_num) (by linarith)
    nlinarith
  have hlip : ∀ x y b : ℝ, |x - y| * eta ≤ b → |crossAngle eta (Real.arccos x) - crossAngle eta (Real.arccos y)| ≤ 7 * b := by
    intro x y b h
    refine (cross_lip he0.le hlt x y).trans ?_
    have := mul_le_mul_of_nonneg_right hL (abs_nonneg (x - y))
    linarith
  have hin : inn → |crossAngle eta (Real.arccos w) - -2 * eta ^ 2| ≤ 1e-12 := by
    intro h
    have h1 := d1 h
    rcases le_or_gt 1 w with hw1 | hw1
    · rw [Real.arccos_of_one_le hw1, crossAngle_zero, sub_self, abs_zero]; norm_num
    · have := hlip w 1 3e-14 (by
        rw [abs_of_nonpos (by linarith)]
        have : t ^ 2 ≤ ((1 - eta) / 2 * (1 + 1e-14)) ^ 2 := pow_le_pow_left₀ ht h1 2
        nlinarith)
      rw [Real.arccos_one, crossAngle_zero] at this
      linarith
  have hout : ¬ out → |crossAngle eta (Real.arccos w)| ≤ 1e-12 := by
    intro h
    have h1 := d4 h
    rcases le_or_gt w (-1) with hw1 | hw1
    · rw [Real.arccos_of_le_neg_one hw1, crossAngle_pi, abs_zero]; norm_num
    · have := hlip w (-1) 1e-13 (by
        rw [abs_of_nonneg (by linarith)]
        have : ((1 + eta) / 2 * (1 - 1e-14)) ^ 2 ≤ t ^ 2 := pow_le_pow_left₀ (by nlinarith) h1 2
        nlinarith)
      rw [Real.arccos_neg_one, crossAngle_pi, sub_zero] at this
      linarith
  have key : ∀ c1 c2 : ℝ, (if inn then c1 = f else c1 = 0) → (if out then (if |w'| ≤ 1 then |c2 - crossAngle eta (Real.arccos w')| ≤ 1e-12
      else c2 = 0) else c2 = 0) →
      ((inn ↔ 1 < w') → |c1 + c2 - crossAngle eta (Real.arccos w)| ≤ 1e-11)
      ∧ (inn → w' ≤ 1 → |c1 + c2 - (crossAngle eta (Real.arccos w) - 2 * eta ^ 2)| ≤ 1e-11 ∧ |t - (1 - eta) / 2| ≤ 1e-11)
      ∧ (¬ inn → 1 < w' → |c1 + c2 - (crossAngle eta (Real.arccos w) + 2 * eta ^ 2)| ≤ 1e-11
        ∧ |t - (1 - eta) / 2| ≤ 1e-11) := by
    intro c1 c2 hc hc'
    by_cases hi : inn
    · rw [if_pos hi] at hc
      rw [if_pos (hmono hi)] at hc'
      have k1 := hin hi
      have k2 := d1 hi
      have t2 : t ≤ 2 := by linarith
      have k3 := hsmall t2
      have hlow : 1 - 1e-9 ≤ w' := by
        have : t ^ 2 ≤ ((1 - eta) / 2 * (1 + 1e-14)) ^ 2 := pow_le_pow_left₀ ht k2 2
        have h5 : w * (2 * eta) ≥ 2 * eta - 6e-14 := by nlinarith
        have h6 := mul_le_mul_of_nonneg_right (abs_le.mp (le_refl |w' - w|)).1 he0.le
        by_contra hc
        push Not at hc
        have := mul_lt_mul_of_pos_right hc he0
        linarith
      refine ⟨fun h => ?_, fun _ hw1 => ?_, fun h => absurd hi h⟩
      · have h1 := h.mp hi
        rw [if_neg (by rw [abs_of_pos (by linarith)]; linarith)] at hc'
        rw [hc, hc', add_zero]
        refine (abs_sub_le _ (-2 * eta ^ 2) _).trans ?_
        rw [abs_sub_comm (-2 * eta ^ 2)]
        linarith
      · rw [if_pos (by rw [abs_of_pos (by linarith)]; exact hw1)] at hc'
        have k4 := hlip w' w _ k3
        constructor
        · rw [hc, show f + c2 - (crossAngle eta (Real.arccos w) - 2 * eta ^ 2) = (f - -2 * eta ^ 2) +
            ((c2 - crossAngle eta (Real.arccos w')) + (crossAngle eta (Real.arccos w') - crossAngle eta (Real.arccos w))) by ring]
          refine (abs_add_le _ _).trans ?_
          have := abs_add_le (c2 - crossAngle eta (Real.arccos w')) (crossAngle eta (Real.arccos w') - crossAngle eta (Real.arccos w))
          linarith
        · rw [abs_le]
          constructor
          · have h6 := mul_le_mul_of_nonneg_right (abs_le.mp (le_refl |w' - w|)).1 he0.le
            have h7 : w * (2 * eta) ≤ 2 * eta + 6e-13 := by nlinarith
            by_contra hc
            push Not at hc
            nlinarith
          · linarith
    · rw [if_neg hi] at hc
      have k2 := d2 hi
      refine ⟨fun h => ?_, fun h => absurd h hi, fun _ hw1 => ?_⟩
      · have hw1 : w' ≤ 1 := not_lt.mp fun h' => hi (h.mpr h')
        rw [hc, zero_add]
        by_cases ho : out
        · rw [if_pos ho] at hc'
          have k3 := hsmall (by linarith [d3 ho])
          have k4 := hlip w' w _ k3
          by_cases hw0 : |w'| ≤ 1
          · rw [if_pos hw0] at hc'
            refine (abs_sub_le _ (crossAngle eta (Real.arccos w')) _).trans ?_
            linarith
          · rw [if_neg hw0] at hc'
            rw [Real.arccos_of_le_neg_one (by
              by_contra hc
              push Not at hc
              exact hw0 (abs_le.mpr ⟨hc.le, hw1⟩)), crossAngle_pi] at k4
            rw [hc']
            linarith
        · rw [if_neg ho] at hc'
          rw [hc', zero_sub, abs_neg]
          linarith [hout ho]
      · have t2 : t ≤ 2 := by
          by_contra hc
          push Not at hc
          linarith [hlarge hc]
        have k3 := hsmall t2
        have k4 := hlip w' w _ k3
        rw [Real.arccos_of_one_le hw1.le, crossAngle_zero] at k4
        have hc2 : c2 = 0 := by
          have hn : ¬ |w'| ≤ 1 := by rw [abs_of_pos (by linarith)]; linarith
          by_cases ho : out
          · rw [if_pos ho, if_neg hn] at hc'; exact hc'
          · rw [if_neg ho] at hc'; exact hc'
        constructor
        · rw [hc, hc2, add_zero, zero_sub, abs_neg, ← abs_neg]
          rw [show -(crossAngle eta (Real.arccos w) + 2 * eta ^ 2) = -2 * eta ^ 2 - crossAngle eta (Real.arccos w) by ring]
          linarith
        · have h6 := mul_le_mul_of_nonneg_right (abs_le.mp (le_refl |w' - w|)).2 he0.le
          have h7 : 2 * eta - 6e-13 ≤ w * (2 * eta) := by nlinarith
          rw [abs_le]
          constructor
          · linarith
          · by_contra hc
            push Not at hc
            nlinarith
  have hfin1 : XR.fin f * boolNum inn = .fin (if inn then f else 0) := by
    by_cases hi : inn
    · rw [boolNum_true hi, if_pos hi, XR.fin_mul, mul_one]
    · rw [boolNum_false hi, if_neg hi, XR.fin_mul, mul_zero]
  have hX : ∃ y, X.nanToNum = .fin y ∧ (if |w'| ≤ 1 then |y - crossAngle eta (Real.arccos w')| ≤ 1e-12 else y = 0) := by
    by_cases h : |w'| ≤ 1
    · obtain ⟨y, hy, hy'⟩ := hval h
      exact ⟨y, by rw [hy]; rfl, by rw [if_pos h]; exact hy'⟩
    · exact ⟨0, hnan h, by rw [if_neg h]⟩
  obtain ⟨y, hy, hy'⟩ := hX
  refine ⟨if inn then f else 0, if out then y else 0, hfin1, ?_, key _ _ ?_ ?_⟩
  · rw [hy]
    by_cases ho : out
    · rw [boolNum_true ho, if_pos ho, XR.fin_mul, mul_one]
    · rw [boolNum_false ho, if_neg ho, XR.fin_mul, mul_zero]
  · split_ifs <;> rfl
  · by_cases ho : out
    · rw [if_pos ho, if_pos ho]; exact hy'
    · rw [if_neg ho, if_neg ho]

theorem chordAngle_abs (x : ℝ) : |chordAngle (Real.arccos x)| ≤ 4 := by
  have h := angle_lip chordAngle_deriv chordAngle_bound le_rfl (Real.arccos_nonneg x) (Real.arccos_le_pi x)
  have h' := angle_lip chordAngle_deriv chordAngle_bound (Real.arccos_nonneg x) (Real.arccos_le_pi x) le_rfl
  have e0 : chordAngle 0 = 0 := by unfold chordAngle; simp
  have e1 : chordAngle Real.pi = Real.pi := by unfold chordAngle; simp
  rw [e0] at h
  rw [e1] at h'
  rw [abs_of_nonneg (by linarith [h.1])]
  linarith [h'.1, Real.pi_lt_d2]

theorem crossAngle_abs {eta : ℝ} (he : 0 ≤ eta) (he1 : eta < 1) (x : ℝ) : |crossAngle eta (Real.arccos x)| ≤ 2 := by
  have h := angle_lip (crossAngle_deriv he he1) (crossAngle_bound he he1) le_rfl (Real.arccos_nonneg x) (Real.arccos_le_pi x)
  have h' := angle_lip (crossAngle_deriv he he1) (crossAngle_bound he he1) (Real.arccos_nonneg x) (Real.arccos_le_pi x) le_rfl
  rw [crossAngle_zero] at h
  rw [crossAngle_pi] at h'
  have : eta ^ 2 ≤ 1 := by nlinarith
  rw [abs_le]
  constructor <;> linarith [h.1, h'.1]

/-- The last step: adding the parts and dividing by the area. -/
theorem sum_close (hfl : RoundsToNearest fl) {a b c1 c2 A B C d d' : ℝ} (ha : |a - A| ≤ 2e-8) (hb : |b - B| ≤ 2e-8)
    (hc : |c1 + c2 - C| ≤ 1e-11) (hA : |A| ≤ 3) (hB : |B| ≤ 3) (hC : |C| ≤ 4) (hc1 : |c1| ≤ 2) (hd : 0.19 ≤ d)
    (hd' : |d' - d| ≤ 1e-14) (hd1 : d ≤ 1) :
    |fl (fl (fl (fl (a + b) + c1) + c2) / d') - (A + B + C) / d| ≤ 1e-6 := by
  have a0 := abs_sub_abs_le_abs_sub a A
  have b0 := abs_sub_abs_le_abs_sub b B
  have cc := abs_sub_abs_le_abs_sub (c1 + c2) C
  have s1 := fl_close hfl (x := a + b) (B := 7) ((abs_add_le _ _).trans (by linarith))
  have n1 := abs_sub_abs_le_abs_sub (fl (a + b)) (a + b)
  have n1' := abs_add_le a b
  generalize fl (a + b) = p at *
  have s2 := fl_close hfl (x := p + c1) (B := 10) ((abs_add_le _ _).trans (by linarith))
  have n2 := abs_sub_abs_le_abs_sub (fl (p + c1)) (p + c1)
  generalize fl (p + c1) = q at *
  have e : |q + c2 - (A + B + C)| ≤ 5e-8 := by
    rw [show q + c2 - (A + B + C) = ((q - (p + c1)) + (p - (a + b))) + ((a - A) + (b - B) + (c1 + c2 - C)) by ring]
    refine (abs_add_le _ _).trans ?_
    have := abs_add_le (q - (p + c1)) (p - (a + b))
    have := abs_add_le ((a - A) + (b - B)) (c1 + c2 - C)
    have := abs_add_le (a - A) (b - B)
    linarith
  have hS : |A + B + C| ≤ 10 := by
    have := abs_add_le (A + B) C
    have := abs_add_le A B
    linarith
  have n3 := abs_sub_abs_le_abs_sub (q + c2) (A + B + C)
  have s3 := fl_close hfl (x := q + c2) (B := 11) (by linarith)
  generalize A + B + C = S at *
  generalize q + c2 = r at *
  have e3 : |fl r - S| ≤ 6e-8 := by
    have := abs_sub_le (fl r) r S
    linarith
  generalize fl r = r' at *
  obtain ⟨d1, d2⟩ := abs_le.mp hd'
  have hdp : 0.18 ≤ d' := by linarith
  have hd0 : 0 < d' := by linarith
  have hd0' : 0 < d := by linarith
  have e4 : |r' / d' - S / d| ≤ 5e-7 := by
    rw [show r' / d' - S / d = ((r' - S) * d - S * (d' - d)) / (d' * d) by field_simp; ring, abs_div,
      abs_of_pos (mul_pos hd0 hd0'), div_le_iff₀ (mul_pos hd0 hd0')]
    have t1 : |(r' - S) * d| ≤ 6e-8 * d := by
      rw [abs_mul, abs_of_pos hd0']; exact mul_le_mul_of_nonneg_right e3 hd0'.le
    have t2 : |S * (d' - d)| ≤ 10 * 1e-14 := by
      rw [abs_mul]; exact mul_le_mul hS hd' (abs_nonneg _) (by norm_num)
    have t3 := abs_sub ((r' - S) * d) (S * (d' - d))
    have t4 : 0.18 * d ≤ d' * d := mul_le_mul_of_nonneg_right hdp hd0'.le
    linarith
  have hq : |S / d| ≤ 60 := by
    rw [abs_div, abs_of_pos hd0', div_le_iff₀ hd0']; linarith
  have n5 := abs_sub_abs_le_abs_sub (r' / d') (S / d)
  have s5 := fl_close hfl (x := r' / d') (B := 61) (by linarith)
  have := abs_sub_le (fl (r' / d')) (r' / d') (S / d)
  linarith

theorem aperture_value (hfl : RoundsToNearest fl) (hl : TrigLibrary sqD acosD sinD tanD atanD) {lam D eta : ℝ} (hlam : 0 < lam)
    (hD : 0 < D) (he : 1e-3 ≤ eta) (he1 : eta ≤ 0.9) (u v : ℝ) :
    ∃ x, apertureD fl sqD acosD sinD tanD atanD lam D eta u v = .fin x
      ∧ ((innerD fl eta (fl (D / lam)) (radialD fl u v) ↔ 1 < crossArgD fl eta (sqD eta) (fl (D / lam)) (radialD fl u v)) →
        |x - diffractionMTF lam D eta u v| ≤ 1e-6)
      ∧ (innerD fl eta (fl (D / lam)) (radialD fl u v) → crossArgD fl eta (sqD eta) (fl (D / lam)) (radialD fl u v) ≤ 1 →
        |x - (diffractionMTF lam D eta u v - 2 * eta ^ 2 / (1 - eta ^ 2))| ≤ 1e-6
          ∧ |Real.sqrt (u ^ 2 + v ^ 2) / (D / lam) - (1 - eta) / 2| ≤ 1e-11)
      ∧ (¬ innerD fl eta (fl (D / lam)) (radialD fl u v) → 1 < crossArgD fl eta (sqD eta) (fl (D / lam)) (radialD fl u v) →
        |x - (diffractionMTF lam D eta u v + 2 * eta ^ 2 / (1 - eta ^ 2))| ≤ 1e-6
          ∧ |Real.sqrt (u ^ 2 + v ^ 2) / (D / lam) - (1 - eta) / 2| ≤ 1e-11) := by
  have he0 : 0 < eta := by linarith
  have hlt : eta < 1 := by linarith
  have he2 : eta ^ 2 ≤ 0.81 := by nlinarith
  have hpi := Real.pi_pos
  have hpi1 := Real.pi_gt_d2
  have hr : 0 < D / lam := by positivity
  have hr' : Apx 1 (fl (D / lam)) (D / lam) (D / lam) := Apx.const hfl hr.le
  have hrho := radial_apx hfl u v
  obtain ⟨c1, c2, hc1, hc2, k1, k2, k3⟩ := cross_cases hfl hl he he1 hr hr' hrho
  have hq := hl.sq eta
  have E2 : Apx 1 (sqD eta) (eta ^ 2) (eta ^ 2) := ⟨by linarith, (abs_of_nonneg (sq_nonneg _)).le⟩
  have hb1 : |c1| ≤ 2 := by
    have h := ((Apx.of (x := -2) (m := 2) (by norm_num)).mul E2 (by norm_num) (by norm_num)).round hfl (by norm_num)
    have h1 := h.1
    have h2 := abs_sub_abs_le_abs_sub (fl (-2 * sqD eta)) (-2 * eta ^ 2)
    have h3 : |(-2 : ℝ) * eta ^ 2| ≤ 1.62 := by rw [abs_mul, abs_of_nonneg (sq_nonneg eta)]; norm_num; linarith
    by_cases hi : innerD fl eta (fl (D / lam)) (radialD fl u v)
    · rw [boolNum_true hi, XR.fin_mul, mul_one] at hc1
      injection hc1 with hc1
      rw [← hc1]
      nlinarith
    · rw [boolNum_false hi, XR.fin_mul, mul_zero] at hc1
      injection hc1 with hc1
      rw [← hc1]; norm_num
  have PI : Apx 1 (fl Real.pi) Real.pi Real.pi := Apx.const hfl hpi.le
  have ht : 0 ≤ Real.sqrt (u ^ 2 + v ^ 2) / (D / lam) := by positivity
  have Q1 := (hrho.quot hr' hr (by norm_num) (by norm_num) (by norm_num)).round hfl (by norm_num)
  have CA := (((Apx.of (x := 2) (m := 2) (by norm_num)).quot PI hpi le_rfl (by norm_num) (by norm_num)).round hfl
    (by norm_num)).mono (k' := 10) (by norm_num)
  obtain ⟨a, ha, ha'⟩ := chord_value hfl hl ht (Q1.1.trans (mul_le_mul_of_nonneg_right (by norm_num) ht)) CA
  have Q2 := ((((hrho.div (s := eta) he0.ne').round hfl (by norm_num)).quot hr' hr (by norm_num) (by norm_num) (by norm_num)).round hfl
    (by norm_num))
  rw [abs_of_pos he0, div_right_comm] at Q2
  have ht2 : 0 ≤ Real.sqrt (u ^ 2 + v ^ 2) / (D / lam) / eta := by positivity
  have CB := (((((Apx.of (x := 2) (m := 2) (by norm_num)).mul E2 (by norm_num) (by norm_num)).round hfl (by norm_num)).quot PI hpi
    (by norm_num) (by norm_num) (by norm_num)).round hfl (by norm_num)).mono (k' := 10) (by norm_num)
  obtain ⟨b, hb, hb'⟩ := chord_value hfl hl ht2 (Q2.1.trans (mul_le_mul_of_nonneg_right (by norm_num) ht2)) CB
  have hd := ((Apx.of (x := 1) (m := 1) (by norm_num)).sub E2).round hfl (by norm_num)
  have hd' : |fl (1 - sqD eta) - (1 - eta ^ 2)| ≤ 1e-14 := by
    have := hd.1
    norm_num at this
    linarith
  have i1 : 2 / Real.pi ≤ 2 / 3 := by gcongr; linarith
  have i0 : 0 ≤ 2 / Real.pi := by positivity
  have j1 : 2 * eta ^ 2 / Real.pi ≤ 2 / 3 := by
    have : 2 * eta ^ 2 / Real.pi ≤ 2 / Real.pi := by gcongr; linarith
    linarith
  have j0 : 0 ≤ 2 * eta ^ 2 / Real.pi := by positivity
  have hA : |2 / Real.pi * chordAngle (Real.arccos (Real.sqrt (u ^ 2 + v ^ 2) / (D / lam)))| ≤ 3 := by
    rw [abs_mul, abs_of_nonneg i0]
    have := mul_le_mul i1 (chordAngle_abs (Real.sqrt (u ^ 2 + v ^ 2) / (D / lam))) (abs_nonneg _) (by norm_num)
    linarith
  have hB : |2 * eta ^ 2 / Real.pi * chordAngle (Real.arccos (Real.sqrt (u ^ 2 + v ^ 2) / (D / lam) / eta))| ≤ 3 := by
    rw [abs_mul, abs_of_nonneg j0]
    have := mul_le_mul j1 (chordAngle_abs (Real.sqrt (u ^ 2 + v ^ 2) / (D / lam) / eta)) (abs_nonneg _) (by norm_num)
    linarith
  have hC := crossAngle_abs he0.le hlt ((1 + eta ^ 2 - 4 * (Real.sqrt (u ^ 2 + v ^ 2) / (D / lam)) ^ 2) / (2 * eta))
  have hdiff := diffraction_angles hlam hD he0 hlt u v
  have hfin := fun C (hC1 : |c1 + c2 - C| ≤ 1e-11) (hC2 : |C| ≤ 4) => sum_close (d := 1 - eta ^ 2) hfl
    (ha'.trans (by linarith)) (hb'.trans (by linarith)) hC1 hA hB hC2 hb1 (by linarith) hd' (by nlinarith)
  have hval : apertureD fl sqD acosD sinD tanD atanD lam D eta u v
      = .fin (fl (fl (fl (fl (a + b) + c1) + c2) / fl (1 - sqD eta))) := by
    unfold apertureD
    simp only [if_pos he0]
    rw [ha, hb, hc1, hc2, XR.fin_add]
    simp only [XR.rnd, XR.fin_add]
    rw [XR.fin_div]
    have := (abs_le.mp hd').1
    intro h0
    rw [h0] at this
    nlinarith
  have hdne : 1 - eta ^ 2 ≠ 0 := by nlinarith
  have hJ : 2 * eta ^ 2 ≤ 1.62 := by linarith
  have hJ0 : 0 ≤ 2 * eta ^ 2 := by positivity
  obtain ⟨C1, C2⟩ := abs_le.mp hC
  generalize crossAngle eta (Real.arccos ((1 + eta ^ 2 - 4 * (Real.sqrt (u ^ 2 + v ^ 2) / (D / lam)) ^ 2) / (2 * eta))) = K at *
  generalize 2 / Real.pi * chordAngle (Real.arccos (Real.sqrt (u ^ 2 + v ^ 2) / (D / lam))) = A at *
  generalize 2 * eta ^ 2 / Real.pi * chordAngle (Real.arccos (Real.sqrt (u ^ 2 + v ^ 2) / (D / lam) / eta)) = B at *
  refine ⟨_, hval, fun h => ?_, fun h h' => ⟨?_, (k2 h h').2⟩, fun h h' => ⟨?_, (k3 h h').2⟩⟩
  · rw [hdiff]
    exact hfin K (k1 h) (hC.trans (by norm_num))
  · rw [hdiff, show (A + B + K) / (1 - eta ^ 2) - 2 * eta ^ 2 / (1 - eta ^ 2) = (A + B + (K - 2 * eta ^ 2)) / (1 - eta ^ 2) by ring]
    exact hfin _ (k2 h h').1 (abs_le.mpr ⟨by linarith, by linarith⟩)
  · rw [hdiff, show (A + B + K) / (1 - eta ^ 2) + 2 * eta ^ 2 / (1 - eta ^ 2) = (A + B + (K + 2 * eta ^ 2)) / (1 - eta ^ 2) by ring]
    exact hfin _ (k3 h h').1 (abs_le.mpr ⟨by linarith, by linarith⟩)

end PyBSM
