import Verif.Spec.Giqe
import Verif.Lemmas.Scal
import Verif.Lemmas.Arr
import Verif.Lemmas.Sensor
import Verif.Model.Metrics

/-!
# GIQE 3, 4 and 5 over the reals
-/

noncomputable section

open Classical

namespace PyBSM

open Spec

theorem lg_lt {a b : ℝ} (ha : 0 < a) (h : a < b) : lg a < lg b := Real.logb_lt_logb (by norm_num) ha h
theorem lg_le {a b : ℝ} (ha : 0 < a) (h : a ≤ b) : lg a ≤ lg b := Real.logb_le_logb_of_le (by norm_num) ha h

theorem giqe3_fin {rer gsd eho ng snr : Scal} {r g e n s : ℝ} (hr : rer.val = .fin r) (hg : gsd.val = .fin g)
    (he : eho.val = .fin e) (hn : ng.val = .fin n) (hs : snr.val = .fin s) (r0 : 0 < r) (g0 : 0 < g) (s0 : s ≠ 0) :
    giqe3 rer gsd eho ng snr = .ok (.fin (niirs3 r g e n s)) := by
  unfold giqe3
  obtain ⟨q1, h1, v1⟩ := Scal.div_fin (a := gsd) (b := .py 0.0254) hg rfl (y := 0.0254) (by norm_num)
  obtain ⟨q2, h2, v2⟩ := Scal.div_fin hr v1 (by positivity)
  obtain ⟨q3, h3, v3⟩ := Scal.div_fin hn hs s0
  rw [h1, ok_bind, h2, ok_bind, h3, ok_bind, v2, v3, he, XR.fin_log10 (by positivity)]
  xr_simp
  rfl

theorem giqe4_fin {rer gsd eho ng snr : Scal} {r g e n s el : ℝ} (hr : rer.val = .fin r) (hg : gsd.val = .fin g)
    (he : eho.val = .fin e) (hn : ng.val = .fin n) (hs : snr.val = .fin s) (r0 : 0 < r) (g0 : 0 < g) (s0 : s ≠ 0)
    (hel : 0 < Real.sin el) :
    giqe4 rer gsd eho ng snr (.fin el) = .ok (.fin (if 0.9 ≤ r then niirs4 3.32 1.559 r g e n s el
        else niirs4 3.16 2.817 r g e n s el), .fin (projectedGsd (1 / 2) g el)) := by
  unfold giqe4
  obtain ⟨q3, h3, v3⟩ := Scal.div_fin (a := Scal.py 0.334 * ng) (x := 0.334 * n)
    (by rw [Scal.val_mul, hn]; rfl) hs s0
  have hp : (0 : ℝ) < Real.sin el ^ (0.5 : ℝ) := Real.rpow_pos_of_pos hel _
  have hG : (gsd.val / (XR.fin el).sin.rpow 0.5) = .fin (projectedGsd (1 / 2) g el) := by
    rw [hg, XR.fin_sin, XR.fin_rpow _ hel, XR.fin_div _ hp.ne']
    unfold projectedGsd; norm_num
  have hG0 : 0 < projectedGsd (1 / 2) g el := by
    unfold projectedGsd; exact div_pos g0 (Real.rpow_pos_of_pos hel _)
  have hi : (XR.fin (projectedGsd (1 / 2) g el) / 0.0254).log10
      = .fin (lg (projectedGsd (1 / 2) g el / 0.0254)) := by
    rw [XR.sci_def, XR.fin_div _ (by norm_num), XR.fin_log10 (by positivity)]; rfl
  dsimp only
  rw [h3, ok_bind, hG, hi, hr, he, v3, XR.fin_log10 r0]
  by_cases h : 0.9 ≤ r
  · have : XR.le 0.9 (.fin r) := h
    rw [if_pos this, if_pos h]
    dsimp only
    xr_simp
    rfl
  · have : ¬ XR.le 0.9 (.fin r) := h
    rw [if_neg this, if_neg h]
    dsimp only
    xr_simp
    rfl

theorem giqe5_fin {snr : Scal} {r1 r2 g s el : ℝ} (hs : snr.val = .fin s) (h1 : 0 < r1) (h2 : 0 < r2)
    (g0 : 0 < g) (s0 : s ≠ 0) (hel : 0 < Real.sin el) :
    giqe5 (.fin r1) (.fin r2) (.fin g) snr (.fin el)
      = .ok (.fin (Spec.niirs5 r1 r2 g s el), .fin (projectedGsd (1 / 4) g el), .fin (rer5 r1 r2)) := by
  unfold giqe5
  obtain ⟨q1, e1, v1⟩ := Scal.div_fin (a := .py (-(1.9 : XR))) (x := -1.9) rfl hs s0
  obtain ⟨q2, e2, v2⟩ := Scal.div_fin (a := .py 1.8) (x := 1.8) rfl hs s0
  have hp : (0 : ℝ) < Real.sin el ^ (0.25 : ℝ) := Real.rpow_pos_of_pos hel _
  have hG : (XR.fin g / (XR.fin el).sin.rpow 0.25) = .fin (projectedGsd (1 / 4) g el) := by
    rw [XR.fin_sin, XR.fin_rpow _ hel, XR.fin_div _ hp.ne']
    unfold projectedGsd; norm_num
  have hG0 : 0 < projectedGsd (1 / 4) g el := by
    unfold projectedGsd; exact div_pos g0 (Real.rpow_pos_of_pos hel _)
  have hi : (XR.fin (projectedGsd (1 / 4) g el) / 0.0254).log10
      = .fin (lg (projectedGsd (1 / 4) g el / 0.0254)) := by
    rw [XR.sci_def, XR.fin_div _ (by norm_num), XR.fin_log10 (by positivity)]; rfl
  have hm : 0 < max r1 r2 * min r1 r2 ^ 2 := mul_pos (lt_max_of_lt_left h1) (pow_pos (lt_min h1 h2) 2)
  have hr : (XR.max (.fin r1) (.fin r2) * XR.min (.fin r1) (.fin r2) ^ 2).rpow (1 / 3) = .fin (rer5 r1 r2) := by
    rw [XR.fin_max, XR.fin_min, XR.fin_pow, XR.fin_mul, XR.fin_rpow _ hm]; rfl
  have hr0 : 0 < rer5 r1 r2 := Real.rpow_pos_of_pos hm _
  dsimp only
  rw [e1, ok_bind, e2, ok_bind, hG, hi, hr, v1, v2, XR.fin_log10 hr0]
  xr_simp
  rfl

theorem projectedGsd_pos {p g el : ℝ} (hg : 0 < g) (hel : 0 < Real.sin el) : 0 < projectedGsd p g el :=
  div_pos hg (Real.rpow_pos_of_pos hel _)

theorem sin_pos_elev {el : ℝ} (h0 : 0 < el) (h1 : el ≤ Real.pi / 2) : 0 < Real.sin el :=
  Real.sin_pos_of_pos_of_lt_pi h0 (by linarith [Real.pi_pos])

theorem projectedGsd_le {p g g' el el' : ℝ} (hp : 0 < p) (hg' : 0 < g') (hg : g' ≤ g) (h0 : 0 < el) (h : el ≤ el')
    (h1 : el' ≤ Real.pi / 2) : projectedGsd p g' el' ≤ projectedGsd p g el := by
  unfold projectedGsd
  have s0 := sin_pos_elev h0 (h.trans h1)
  have : Real.sin el ≤ Real.sin el' := Real.sin_le_sin_of_le_of_le_pi_div_two (by linarith [Real.pi_pos]) h1 h
  have h3 : Real.sin el ^ p ≤ Real.sin el' ^ p := Real.rpow_le_rpow s0.le this hp.le
  exact div_le_div₀ (by linarith) hg (Real.rpow_pos_of_pos s0 _) h3

theorem projectedGsd_lt {p g g' el el' : ℝ} (hp : 0 < p) (hg' : 0 < g') (hg : g' ≤ g) (h0 : 0 < el) (h : el ≤ el')
    (h1 : el' ≤ Real.pi / 2) (hlt : g' < g ∨ el < el') : projectedGsd p g' el' < projectedGsd p g el := by
  unfold projectedGsd
  have s0 := sin_pos_elev h0 (h.trans h1)
  have p0 := Real.rpow_pos_of_pos s0 p
  have hle : Real.sin el ≤ Real.sin el' := Real.sin_le_sin_of_le_of_le_pi_div_two (by linarith [Real.pi_pos]) h1 h
  have h3 : Real.sin el ^ p ≤ Real.sin el' ^ p := Real.rpow_le_rpow s0.le hle hp.le
  rcases hlt with hlt | hlt
  · exact div_lt_div₀ hlt h3 (by linarith) p0
  · have : Real.sin el < Real.sin el' :=
      Real.sin_lt_sin_of_lt_of_le_pi_div_two (by linarith [Real.pi_pos]) h1 hlt
    have h4 : Real.sin el ^ p < Real.sin el' ^ p := Real.rpow_lt_rpow s0.le this hp
    exact div_lt_div₀' hg h4 (by linarith) p0

theorem rer5_comm (r1 r2 : ℝ) : rer5 r1 r2 = rer5 r2 r1 := by
  unfold rer5; rw [max_comm, min_comm]

theorem rer5_base_mono {a b a' b' : ℝ} (ha : 0 < a) (hb : 0 < b) (h1 : a ≤ a') (h2 : b ≤ b') :
    max a b * min a b ^ 2 ≤ max a' b' * min a' b' ^ 2 := by
  have hm : max a b ≤ max a' b' := max_le_max h1 h2
  have hn : min a b ≤ min a' b' := min_le_min h1 h2
  have := lt_min ha hb
  have := (lt_max_of_lt_left ha : 0 < max a b).le.trans hm
  gcongr

theorem rer5_base_strict {a b a' b' : ℝ} (ha : 0 < a) (hb : 0 < b) (h1 : a ≤ a') (h2 : b ≤ b')
    (h : a < a' ∨ b < b') : max a b * min a b ^ 2 < max a' b' * min a' b' ^ 2 := by
  have hm : max a b ≤ max a' b' := max_le_max h1 h2
  have hn : min a b ≤ min a' b' := min_le_min h1 h2
  have n0 := lt_min ha hb
  have m0 : 0 < max a b := lt_max_of_lt_left ha
  have hs : max a b < max a' b' ∨ min a b < min a' b' := by
    by_contra hc
    push Not at hc
    have e1 : max a b = max a' b' := le_antisymm hm hc.1
    have e2 : min a b = min a' b' := le_antisymm hn hc.2
    have := max_add_min a b
    have := max_add_min a' b'
    rcases h with h | h <;> linarith
  rcases hs with hs | hs
  · calc max a b * min a b ^ 2 < max a' b' * min a b ^ 2 := by gcongr
      _ ≤ _ := by have := m0.le.trans hm; gcongr
  · calc max a b * min a b ^ 2 < max a b * min a' b' ^ 2 := by gcongr
      _ ≤ _ := by gcongr

theorem rer5_pos {a b : ℝ} (ha : 0 < a) (hb : 0 < b) : 0 < rer5 a b :=
  Real.rpow_pos_of_pos (mul_pos (lt_max_of_lt_left ha) (pow_pos (lt_min ha hb) 2)) _

theorem rer5_mono {a b a' b' : ℝ} (ha : 0 < a) (hb : 0 < b) (h1 : a ≤ a') (h2 : b ≤ b') : rer5 a b ≤ rer5 a' b' := by
  unfold rer5
  exact Real.rpow_le_rpow (mul_pos (lt_max_of_lt_left ha) (pow_pos (lt_min ha hb) 2)).le
    (rer5_base_mono ha hb h1 h2) (by norm_num)

theorem rer5_strict {a b a' b' : ℝ} (ha : 0 < a) (hb : 0 < b) (h1 : a ≤ a') (h2 : b ≤ b')
    (h : a < a' ∨ b < b') : rer5 a b < rer5 a' b' := by
  unfold rer5
  exact Real.rpow_lt_rpow (mul_pos (lt_max_of_lt_left ha) (pow_pos (lt_min ha hb) 2)).le
    (rer5_base_strict ha hb h1 h2 h) (by norm_num)

theorem rer5_self {a : ℝ} (ha : 0 < a) : rer5 a a = a := by
  unfold rer5
  rw [max_self, min_self, show a * a ^ 2 = a ^ (3 : ℕ) by ring, ← Real.rpow_natCast, ← Real.rpow_mul ha.le]
  norm_num

theorem rer5_between {a b : ℝ} (ha : 0 < a) (hb : 0 < b) : min a b ≤ rer5 a b ∧ rer5 a b ≤ max a b := by
  have n0 := lt_min ha hb
  constructor
  · calc min a b = rer5 (min a b) (min a b) := (rer5_self n0).symm
      _ ≤ rer5 a b := rer5_mono n0 n0 (min_le_left _ _) (min_le_right _ _)
  · calc rer5 a b ≤ rer5 (max a b) (max a b) := rer5_mono ha hb (le_max_left _ _) (le_max_right _ _)
      _ = max a b := rer5_self (lt_max_of_lt_left ha)

theorem niirs5_strict {a b a' b' g g' s s' el el' : ℝ} (ha : 0 < a) (hb : 0 < b) (h1 : a ≤ a') (h2 : b ≤ b')
    (ha1 : a' ≤ 1) (hb1 : b' ≤ 1) (hg' : 0 < g') (hg : g' ≤ g) (hs0 : 0 < s) (hs : s ≤ s')
    (he0 : 0 < el) (he : el ≤ el') (he1 : el' ≤ Real.pi / 2)
    (h : a < a' ∨ b < b' ∨ g' < g ∨ s < s' ∨ el < el') :
    Spec.niirs5 a b g s el < Spec.niirs5 a' b' g' s' el' := by
  have r0 := rer5_pos ha hb
  have hr := rer5_mono ha hb h1 h2
  have hr1 : rer5 a' b' ≤ 1 := (rer5_between (ha.trans_le h1) (hb.trans_le h2)).2.trans (max_le ha1 hb1)
  have L1 : lg (rer5 a' b') ≤ 0 := by
    have := lg_le (r0.trans_le hr) hr1
    rwa [show lg 1 = 0 from Real.logb_one] at this
  have L2 := lg_le r0 hr
  have P0 := projectedGsd_pos (p := 1 / 4) hg' (sin_pos_elev (he0.trans_le he) he1)
  have P1 := projectedGsd_le (p := 1 / 4) (by norm_num) hg' hg he0 he he1
  have LP := lg_le (a := projectedGsd (1 / 4) g' el' / 0.0254) (by positivity) (div_le_div_of_nonneg_right P1 (by norm_num))
  have hs1 : 1.8 / s' ≤ 1.8 / s := div_le_div_of_nonneg_left (by norm_num) hs0 hs
  have hs2 : -1.9 / s ≤ -1.9 / s' := by
    rw [neg_div, neg_div]; exact neg_le_neg (div_le_div_of_nonneg_left (by norm_num) hs0 hs)
  have E1 := Real.exp_le_exp.mpr hs2
  have E2 : Real.exp (-1.9 / s') < 1 := by
    rw [Real.exp_lt_one_iff]
    exact div_neg_of_neg_of_pos (by norm_num) (hs0.trans_le hs)
  have hL4 : lg (rer5 a' b') ^ 4 ≤ lg (rer5 a b) ^ 4 := by
    have : (-lg (rer5 a' b')) ^ 4 ≤ (-lg (rer5 a b)) ^ 4 := by
      apply pow_le_pow_left₀ (by linarith) (by linarith)
    rwa [Even.neg_pow (by decide), Even.neg_pow (by decide)] at this
  have hmix : (1 - Real.exp (-1.9 / s)) * lg (rer5 a b) ≤ (1 - Real.exp (-1.9 / s')) * lg (rer5 a' b') := by
    nlinarith
  unfold Spec.niirs5
  have main : (1 - Real.exp (-1.9 / s)) * lg (rer5 a b) < (1 - Real.exp (-1.9 / s')) * lg (rer5 a' b')
      ∨ lg (projectedGsd (1 / 4) g' el' / 0.0254) < lg (projectedGsd (1 / 4) g el / 0.0254) ∨ 1.8 / s' < 1.8 / s := by
    have hrs : (a < a' ∨ b < b') → (1 - Real.exp (-1.9 / s)) * lg (rer5 a b) < (1 - Real.exp (-1.9 / s')) * lg (rer5 a' b') := by
      intro h
      have := lg_lt r0 (rer5_strict ha hb h1 h2 h)
      nlinarith
    have hps : (g' < g ∨ el < el') → lg (projectedGsd (1 / 4) g' el' / 0.0254) < lg (projectedGsd (1 / 4) g el / 0.0254) := by
      intro h
      exact lg_lt (by positivity) (div_lt_div_of_pos_right (projectedGsd_lt (by norm_num) hg' hg he0 he he1 h) (by norm_num))
    rcases h with h | h | h | h | h
    · exact Or.inl (hrs (Or.inl h))
    · exact Or.inl (hrs (Or.inr h))
    · exact Or.inr (Or.inl (hps (Or.inl h)))
    · exact Or.inr (Or.inr (div_lt_div_of_pos_left (by norm_num) hs0 h))
    · exact Or.inr (Or.inl (hps (Or.inr h)))
  rcases main with h | h | h <;> linarith

theorem niirs4_strict {c1 c2 r r' g g' e e' n s s' el el' : ℝ} (hc1 : 0 < c1) (hc2 : 0 < c2) (hr0 : 0 < r)
    (hr : r ≤ r') (hg' : 0 < g') (hg : g' ≤ g) (hee : e' ≤ e) (hn : 0 < n) (hs0 : 0 < s) (hs : s ≤ s')
    (he0 : 0 < el) (he : el ≤ el') (he1 : el' ≤ Real.pi / 2)
    (h : r < r' ∨ g' < g ∨ e' < e ∨ s < s' ∨ el < el') :
    niirs4 c1 c2 r g e n s el < niirs4 c1 c2 r' g' e' n s' el' := by
  have P0 := projectedGsd_pos (p := 1 / 2) hg' (sin_pos_elev (he0.trans_le he) he1)
  have P1 := projectedGsd_le (p := 1 / 2) (by norm_num) hg' hg he0 he he1
  have LP := lg_le (a := projectedGsd (1 / 2) g' el' / 0.0254) (by positivity) (div_le_div_of_nonneg_right P1 (by norm_num))
  have LR := lg_le hr0 hr
  have hN : 0.334 * n / s' ≤ 0.334 * n / s := div_le_div_of_nonneg_left (by positivity) hs0 hs
  have m1 := mul_le_mul_of_nonneg_left LP hc1.le
  have m2 := mul_le_mul_of_nonneg_left LR hc2.le
  have hps : (g' < g ∨ el < el') → c1 * lg (projectedGsd (1 / 2) g' el' / 0.0254)
      < c1 * lg (projectedGsd (1 / 2) g el / 0.0254) := by
    intro h
    exact mul_lt_mul_of_pos_left (lg_lt (by positivity)
      (div_lt_div_of_pos_right (projectedGsd_lt (by norm_num) hg' hg he0 he he1 h) (by norm_num))) hc1
  unfold niirs4
  rcases h with h | h | h | h | h
  · have := mul_lt_mul_of_pos_left (lg_lt hr0 h) hc2
    linarith
  · have := hps (Or.inl h); linarith
  · linarith
  · have : 0.334 * n / s' < 0.334 * n / s := div_lt_div_of_pos_left (by positivity) hs0 h
    linarith
  · have := hps (Or.inr h); linarith

theorem niirs3_strict {r r' g g' e e' n s s' : ℝ} (hr0 : 0 < r)
    (hr : r ≤ r') (hg' : 0 < g') (hg : g' ≤ g) (hee : e' ≤ e) (hn : 0 < n) (hs0 : 0 < s) (hs : s ≤ s')
    (h : r < r' ∨ g' < g ∨ e' < e ∨ s < s') : niirs3 r g e n s < niirs3 r' g' e' n s' := by
  have hq : r / (g / 0.0254) ≤ r' / (g' / 0.0254) := by
    apply div_le_div₀ (by linarith) hr (by positivity); gcongr
  have L := lg_le (by have := hg'.trans_le hg; positivity) hq
  have hN : n / s' ≤ n / s := div_le_div_of_nonneg_left hn.le hs0 hs
  unfold niirs3
  rcases h with h | h | h | h
  · have : r / (g / 0.0254) < r' / (g' / 0.0254) := by
      apply div_lt_div₀ h (by gcongr) (by linarith) (by positivity)
    have := lg_lt (by have := hg'.trans_le hg; positivity) this
    linarith
  · have : r / (g / 0.0254) < r' / (g' / 0.0254) := by
      apply div_lt_div₀' hr (by gcongr) (by linarith) (by positivity)
    have := lg_lt (by have := hg'.trans_le hg; positivity) this
    linarith
  · linarith
  · have : n / s' < n / s := div_lt_div_of_pos_left hn hs0 h
    linarith

end PyBSM
