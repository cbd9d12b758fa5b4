import Verif.Lemmas.Giqe
import Mathlib.Topology.Order.Basic

/-!
# C53–C55: the General Image Quality Equations

Arguments may be Python floats or numpy scalars (`Scal`); `.val` is the number.
-/

noncomputable section

open Classical

namespace PyBSM

open Spec

/-! ## C53: GIQE 3 -/

/-- **C53** (value): `giqe3` is the published regression. -/
theorem C53_value {rer gsd eho ng snr : Scal} {r g e n s : ℝ} (hr : rer.val = .fin r) (hg : gsd.val = .fin g)
    (he : eho.val = .fin e) (hn : ng.val = .fin n) (hs : snr.val = .fin s) (r0 : 0 < r) (g0 : 0 < g) (s0 : s ≠ 0) :
    giqe3 rer gsd eho ng snr
      = .ok (.fin (11.81 + 3.32 * Real.logb 10 (r / (g / 0.0254)) - 1.48 * e - n / s)) :=
  giqe3_fin hr hg he hn hs r0 g0 s0

/-- **C53** (monotonicity): a larger RER, smaller GSD, smaller overshoot or larger SNR, the others not
worse, gives a strictly larger NIIRS. -/
theorem C53_monotone {r r' g g' e e' n s s' : ℝ} (r0 : 0 < r) (hr : r ≤ r') (g0 : 0 < g') (hg : g' ≤ g)
    (he : e' ≤ e) (n0 : 0 < n) (s0 : 0 < s) (hs : s ≤ s') (h : r < r' ∨ g' < g ∨ e' < e ∨ s < s') :
    ∃ a b : ℝ, giqe3 (.np (.fin r)) (.np (.fin g)) (.np (.fin e)) (.np (.fin n)) (.np (.fin s)) = .ok (.fin a)
      ∧ giqe3 (.np (.fin r')) (.np (.fin g')) (.np (.fin e')) (.np (.fin n)) (.np (.fin s')) = .ok (.fin b)
      ∧ a < b :=
  ⟨_, _, giqe3_fin rfl rfl rfl rfl rfl r0 (g0.trans_le hg) s0.ne',
    giqe3_fin rfl rfl rfl rfl rfl (r0.trans_le hr) g0 (s0.trans_le hs).ne',
    niirs3_strict r0 hr g0 hg he n0 s0 hs h⟩

/-- **C53** (negative SNR): a negative SNR beats every positive one, and among negative SNRs the one closest
to zero is best. -/
theorem C53_negative_snr {r g e n s s' : ℝ} (r0 : 0 < r) (g0 : 0 < g) (n0 : 0 < n) (s0 : s < 0)
    (h : 0 < s' ∨ s' < s) :
    ∃ a b : ℝ, giqe3 (.np (.fin r)) (.np (.fin g)) (.np (.fin e)) (.np (.fin n)) (.np (.fin s')) = .ok (.fin a)
      ∧ giqe3 (.np (.fin r)) (.np (.fin g)) (.np (.fin e)) (.np (.fin n)) (.np (.fin s)) = .ok (.fin b)
      ∧ a < b := by
  refine ⟨_, _, giqe3_fin rfl rfl rfl rfl rfl r0 g0 (by rcases h with h | h <;> linarith [h]),
    giqe3_fin rfl rfl rfl rfl rfl r0 g0 s0.ne, ?_⟩
  unfold niirs3
  have : n / s < n / s' := by
    rcases h with h | h
    · exact (div_neg_of_pos_of_neg n0 s0).trans (div_pos n0 h)
    · have h1 : n / s' - n / s = n * (s - s') / (s' * s) := by
        have := s0.ne; have := (h.trans s0).ne; field_simp
      have : 0 < n * (s - s') / (s' * s) :=
        div_pos (mul_pos n0 (by linarith)) (mul_pos_of_neg_of_neg (h.trans s0) s0)
      linarith
  linarith

/-- **C53** (zero SNR): with Python floats `ZeroDivisionError`, with numpy scalars minus infinity. -/
theorem C53_zero_snr {r g e n : ℝ} (r0 : 0 < r) (g0 : 0 < g) (n0 : 0 < n) :
    giqe3 (.py (.fin r)) (.py (.fin g)) (.py (.fin e)) (.py (.fin n)) (.py 0) = .error .zeroDivisionError
    ∧ giqe3 (.np (.fin r)) (.np (.fin g)) (.np (.fin e)) (.np (.fin n)) (.np 0) = .ok .ninf := by
  constructor
  · unfold giqe3
    obtain ⟨q1, h1, v1⟩ := Scal.div_fin (a := .py (.fin g)) (b := .py 0.0254) rfl rfl (y := 0.0254) (by norm_num)
    obtain ⟨q2, h2, v2⟩ := Scal.div_fin (a := .py (.fin r)) rfl v1 (by positivity)
    rw [h1, ok_bind, h2, ok_bind, (Scal.div_error_iff (.py (.fin n)) (.py 0) .zeroDivisionError).mpr ⟨rfl, trivial, trivial, rfl⟩, error_bind]
  · unfold giqe3
    obtain ⟨q1, h1, v1⟩ := Scal.div_fin (a := .np (.fin g)) (b := .py 0.0254) rfl rfl (y := 0.0254) (by norm_num)
    obtain ⟨q2, h2, v2⟩ := Scal.div_fin (a := .np (.fin r)) rfl v1 (by positivity)
    obtain ⟨q3, h3, v3⟩ := Scal.div_ok (a := .np (.fin n)) (b := .np 0) (by rintro ⟨h, -⟩; exact h)
    have : XR.fin n / XR.fin 0 = .pinf := by rw [XR.fin_div_zero]; unfold XR.mulInf; rw [if_pos n0]
    rw [h1, ok_bind, h2, ok_bind, h3, ok_bind, v2, v3, Scal.val_np, Scal.val_np, XR.zero_def, Scal.val_np, this,
      XR.fin_log10 (by positivity)]
    rfl

example : ∃ a b : ℝ, giqe3 (.np (.fin 0.3)) (.np (.fin 0.5)) (.np (.fin 1.1)) (.np (.fin 1)) (.np (.fin 20)) = .ok (.fin a)
    ∧ giqe3 (.np (.fin 0.4)) (.np (.fin 0.4)) (.np (.fin 1)) (.np (.fin 1)) (.np (.fin 30)) = .ok (.fin b) ∧ a < b :=
  C53_monotone (by norm_num) (by norm_num) (by norm_num) (by norm_num) (by norm_num) (by norm_num) (by norm_num)
    (by norm_num) (Or.inl (by norm_num))

/-! ## C54: GIQE 4 -/

/-- **C54** (value): the published regression, with one set of coefficients from RER 0.9 on and another below. -/
theorem C54_value {rer gsd eho ng snr : Scal} {r g e n s el : ℝ} (hr : rer.val = .fin r) (hg : gsd.val = .fin g)
    (he : eho.val = .fin e) (hn : ng.val = .fin n) (hs : snr.val = .fin s) (r0 : 0 < r) (g0 : 0 < g) (s0 : s ≠ 0)
    (e0 : 0 < el) (e1 : el ≤ Real.pi / 2) :
    ∃ c1 c2 : ℝ, (0.9 ≤ r → c1 = 3.32 ∧ c2 = 1.559) ∧ (r < 0.9 → c1 = 3.16 ∧ c2 = 2.817)
      ∧ giqe4 rer gsd eho ng snr (.fin el)
        = .ok (.fin (10.251 - c1 * Real.logb 10 (g / Real.sin el ^ (1 / 2 : ℝ) / 0.0254) + c2 * Real.logb 10 r - 0.656 * e
          - 0.334 * n / s), .fin (g / Real.sin el ^ (1 / 2 : ℝ))) := by
  refine ⟨if 0.9 ≤ r then 3.32 else 3.16, if 0.9 ≤ r then 1.559 else 2.817, fun h => ?_, fun h => ?_, ?_⟩
  · rw [if_pos h, if_pos h]; exact ⟨rfl, rfl⟩
  · rw [if_neg (not_le.mpr h), if_neg (not_le.mpr h)]; exact ⟨rfl, rfl⟩
  · rw [giqe4_fin hr hg he hn hs r0 g0 s0 (sin_pos_elev e0 e1)]
    split_ifs <;> rfl

/-- **C54** (monotonicity): as long as both RERs are on the same side of 0.9. -/
theorem C54_monotone {r r' g g' e e' n s s' el el' : ℝ} (r0 : 0 < r) (hr : r ≤ r') (hb : 0.9 ≤ r ↔ 0.9 ≤ r')
    (g0 : 0 < g') (hg : g' ≤ g) (he : e' ≤ e) (n0 : 0 < n) (s0 : 0 < s) (hs : s ≤ s')
    (e0 : 0 < el) (hel : el ≤ el') (e1 : el' ≤ Real.pi / 2)
    (h : r < r' ∨ g' < g ∨ e' < e ∨ s < s' ∨ el < el') :
    ∃ a b G G' : ℝ,
      giqe4 (.np (.fin r)) (.np (.fin g)) (.np (.fin e)) (.np (.fin n)) (.np (.fin s)) (.fin el) = .ok (.fin a, .fin G)
      ∧ giqe4 (.np (.fin r')) (.np (.fin g')) (.np (.fin e')) (.np (.fin n)) (.np (.fin s')) (.fin el')
        = .ok (.fin b, .fin G')
      ∧ a < b ∧ G' ≤ G := by
  refine ⟨_, _, _, _, giqe4_fin rfl rfl rfl rfl rfl r0 (g0.trans_le hg) s0.ne' (sin_pos_elev e0 (hel.trans e1)),
    giqe4_fin rfl rfl rfl rfl rfl (r0.trans_le hr) g0 (s0.trans_le hs).ne' (sin_pos_elev (e0.trans_le hel) e1), ?_,
    projectedGsd_le (by norm_num) g0 hg e0 hel e1⟩
  by_cases h9 : 0.9 ≤ r
  · rw [if_pos h9, if_pos (hb.mp h9)]
    exact niirs4_strict (by norm_num) (by norm_num) r0 hr g0 hg he n0 s0 hs e0 hel e1 h
  · rw [if_neg h9, if_neg (fun h => h9 (hb.mpr h))]
    exact niirs4_strict (by norm_num) (by norm_num) r0 hr g0 hg he n0 s0 hs e0 hel e1 h

/-- **C54** (jump): as RER increases to 0.9 the NIIRS tends to a limit from which the value at 0.9 differs
by `-0.16 log10 G - 1.258 log10 0.9`, `G` the ground-plane GSD in inches. -/
theorem C54_jump {g n s el : ℝ} (e : ℝ) (g0 : 0 < g) (s0 : s ≠ 0) (e0 : 0 < el) (e1 : el ≤ Real.pi / 2) :
    ∃ (N : ℝ → ℝ) (L G : ℝ),
      (∀ r, 0 < r → giqe4 (.np (.fin r)) (.np (.fin g)) (.np (.fin e)) (.np (.fin n)) (.np (.fin s)) (.fin el)
        = .ok (.fin (N r), .fin G))
      ∧ Filter.Tendsto N (nhdsWithin 0.9 (Set.Iio 0.9)) (nhds L)
      ∧ N 0.9 - L = -0.16 * Real.logb 10 (G / 0.0254) - 1.258 * Real.logb 10 0.9 := by
  refine ⟨fun r => if 0.9 ≤ r then niirs4 3.32 1.559 r g e n s el else niirs4 3.16 2.817 r g e n s el,
    niirs4 3.16 2.817 0.9 g e n s el, projectedGsd (1 / 2) g el,
    fun r r0 => giqe4_fin rfl rfl rfl rfl rfl r0 g0 s0 (sin_pos_elev e0 e1), ?_, ?_⟩
  · have hc : ContinuousAt (fun r => niirs4 3.16 2.817 r g e n s el) 0.9 := by
      unfold niirs4 lg
      have : ContinuousAt (fun r : ℝ => Real.logb 10 r) 0.9 := by
        unfold Real.logb
        exact (Real.continuousAt_log (by norm_num)).div_const _
      exact ((((continuousAt_const).add (continuousAt_const.mul this)).sub continuousAt_const).sub continuousAt_const)
    refine Filter.Tendsto.congr' ?_ (hc.tendsto.mono_left nhdsWithin_le_nhds)
    filter_upwards [self_mem_nhdsWithin] with r hr
    exact (if_neg (not_le.mpr hr)).symm
  · simp only [le_refl, if_true]
    unfold niirs4 lg
    ring

/-- **C54** (the break is a defect): whenever the ground-plane GSD exceeds ten inches some RER below 0.9
is rated strictly better than 0.9, everything else equal. -/
theorem C54_larger_rer_can_lower_niirs {g n s el : ℝ} (e : ℝ) (g0 : 0 < g) (s0 : s ≠ 0) (e0 : 0 < el) (e1 : el ≤ Real.pi / 2)
    (hG : 10 * 0.0254 ≤ g / Real.sin el ^ (1 / 2 : ℝ)) :
    ∃ r a b G : ℝ, 0 < r ∧ r < 0.9
      ∧ giqe4 (.np (.fin r)) (.np (.fin g)) (.np (.fin e)) (.np (.fin n)) (.np (.fin s)) (.fin el) = .ok (.fin a, .fin G)
      ∧ giqe4 (.np (.fin 0.9)) (.np (.fin g)) (.np (.fin e)) (.np (.fin n)) (.np (.fin s)) (.fin el) = .ok (.fin b, .fin G)
      ∧ b < a := by
  have hsin := sin_pos_elev e0 e1
  refine ⟨0.85, _, _, _, by norm_num, by norm_num, giqe4_fin rfl rfl rfl rfl rfl (by norm_num) g0 s0 hsin,
    giqe4_fin rfl rfl rfl rfl rfl (by norm_num) g0 s0 hsin, ?_⟩
  rw [if_pos le_rfl, if_neg (by norm_num)]
  have hl : 1 ≤ lg (projectedGsd (1 / 2) g el / 0.0254) := by
    have : lg 10 ≤ lg (projectedGsd (1 / 2) g el / 0.0254) := by
      apply lg_le (by norm_num)
      unfold projectedGsd
      rw [le_div_iff₀ (by norm_num)]; exact hG
    rwa [show lg 10 = 1 from Real.logb_self_eq_one (by norm_num)] at this
  have h9 : lg 0.9 < 0 := Real.logb_neg (by norm_num) (by norm_num) (by norm_num)
  have h85 : -0.072 < lg 0.85 := by
    have h1 : lg (10 ^ 9)⁻¹ < lg (0.85 ^ 125) := lg_lt (by norm_num) (by norm_num)
    unfold lg at h1 ⊢
    rw [Real.logb_pow, Real.logb_inv, Real.logb_pow, Real.logb_self_eq_one (by norm_num)] at h1
    norm_num at h1 ⊢
    linarith
  have h90 : lg 0.9 < -0.04 := by
    have h1 : lg (0.9 ^ 25) < lg (10 ^ 1)⁻¹ := lg_lt (by norm_num) (by norm_num)
    unfold lg at h1 ⊢
    rw [Real.logb_pow, Real.logb_inv, Real.logb_pow, Real.logb_self_eq_one (by norm_num)] at h1
    norm_num at h1 ⊢
    linarith
  unfold niirs4
  linarith

example : ∃ r a b G : ℝ, 0 < r ∧ r < 0.9
    ∧ giqe4 (.np (.fin r)) (.np (.fin 1)) (.np (.fin 1)) (.np (.fin 1)) (.np (.fin 50)) (.fin (Real.pi / 2)) = .ok (.fin a, .fin G)
    ∧ giqe4 (.np (.fin 0.9)) (.np (.fin 1)) (.np (.fin 1)) (.np (.fin 1)) (.np (.fin 50)) (.fin (Real.pi / 2)) = .ok (.fin b, .fin G)
    ∧ b < a :=
  C54_larger_rer_can_lower_niirs 1 (by norm_num) (by norm_num) (by positivity) le_rfl (by
    rw [Real.sin_pi_div_two, Real.one_rpow]; norm_num)

/-! ## C55: GIQE 5 -/

/-- **C55** (value): the published regression, the combined RER being the cube root of the larger times
the square of the smaller. -/
theorem C55_value {snr : Scal} {r1 r2 g s el : ℝ} (hs : snr.val = .fin s) (h1 : 0 < r1) (h2 : 0 < r2)
    (g0 : 0 < g) (s0 : s ≠ 0) (e0 : 0 < el) (e1 : el ≤ Real.pi / 2) :
    ∃ R G : ℝ, R = (max r1 r2 * min r1 r2 ^ 2) ^ (1 / 3 : ℝ) ∧ G = g / Real.sin el ^ (1 / 4 : ℝ)
      ∧ giqe5 (.fin r1) (.fin r2) (.fin g) snr (.fin el)
        = .ok (.fin (9.57 - 3.32 * Real.logb 10 (G / 0.0254) + 3.32 * (1 - Real.exp (-1.9 / s)) * Real.logb 10 R
          - 2 * Real.logb 10 R ^ 4 - 1.8 / s), .fin G, .fin R) :=
  ⟨_, _, rfl, rfl, giqe5_fin hs h1 h2 g0 s0 (sin_pos_elev e0 e1)⟩

/-- **C55** (monotonicity): for RERs in (0, 1] and elevations in (0, pi/2], a larger RER on either axis, a
smaller GSD, a larger SNR or a larger elevation, the others not worse, gives a strictly larger NIIRS. -/
theorem C55_monotone {a b a' b' g g' s s' el el' : ℝ} (ha : 0 < a) (hb : 0 < b) (h1 : a ≤ a') (h2 : b ≤ b')
    (ha1 : a' ≤ 1) (hb1 : b' ≤ 1) (g0 : 0 < g') (hg : g' ≤ g) (s0 : 0 < s) (hs : s ≤ s')
    (e0 : 0 < el) (he : el ≤ el') (e1 : el' ≤ Real.pi / 2)
    (h : a < a' ∨ b < b' ∨ g' < g ∨ s < s' ∨ el < el') :
    ∃ x y G G' R R' : ℝ,
      giqe5 (.fin a) (.fin b) (.fin g) (.np (.fin s)) (.fin el) = .ok (.fin x, .fin G, .fin R)
      ∧ giqe5 (.fin a') (.fin b') (.fin g') (.np (.fin s')) (.fin el') = .ok (.fin y, .fin G', .fin R')
      ∧ x < y ∧ G' ≤ G ∧ R ≤ R' :=
  ⟨_, _, _, _, _, _, giqe5_fin rfl ha hb (g0.trans_le hg) s0.ne' (sin_pos_elev e0 (he.trans e1)),
    giqe5_fin rfl (ha.trans_le h1) (hb.trans_le h2) g0 (s0.trans_le hs).ne' (sin_pos_elev (e0.trans_le he) e1),
    niirs5_strict ha hb h1 h2 ha1 hb1 g0 hg s0 hs e0 he e1 h,
    projectedGsd_le (by norm_num) g0 hg e0 he e1, rer5_mono ha hb h1 h2⟩

/-- **C55** (combined RER): between the two axis values, and the whole result does not depend on the order
of the axes. -/
theorem C55_combined_rer {snr : Scal} {r1 r2 g s el : ℝ} (hs : snr.val = .fin s) (h1 : 0 < r1) (h2 : 0 < r2)
    (g0 : 0 < g) (s0 : s ≠ 0) (e0 : 0 < el) (e1 : el ≤ Real.pi / 2) :
    ∃ N G R : ℝ, giqe5 (.fin r1) (.fin r2) (.fin g) snr (.fin el) = .ok (.fin N, .fin G, .fin R)
      ∧ giqe5 (.fin r2) (.fin r1) (.fin g) snr (.fin el) = .ok (.fin N, .fin G, .fin R)
      ∧ min r1 r2 ≤ R ∧ R ≤ max r1 r2 := by
  refine ⟨_, _, _, giqe5_fin hs h1 h2 g0 s0 (sin_pos_elev e0 e1), ?_, rer5_between h1 h2⟩
  rw [giqe5_fin hs h2 h1 g0 s0 (sin_pos_elev e0 e1)]
  unfold Spec.niirs5
  rw [rer5_comm]

example : ∃ x y G G' R R' : ℝ,
    giqe5 (.fin 0.3) (.fin 0.35) (.fin 0.52832) (.np (.fin 50)) (.fin (Real.pi / 3)) = .ok (.fin x, .fin G, .fin R)
    ∧ giqe5 (.fin 0.35) (.fin 0.35) (.fin 0.52832) (.np (.fin 50)) (.fin (Real.pi / 2)) = .ok (.fin y, .fin G', .fin R')
    ∧ x < y ∧ G' ≤ G ∧ R ≤ R' :=
  C55_monotone (by norm_num) (by norm_num) (by norm_num) le_rfl (by norm_num) (by norm_num) (by norm_num) le_rfl
    (by norm_num) le_rfl (by positivity) (by linarith [Real.pi_pos]) le_rfl (Or.inl (by norm_num))

end PyBSM
