import Verif.Lemmas.Diffraction
import Mathlib.Analysis.SpecialFunctions.Trigonometric.Arctan
import Mathlib.Analysis.SpecialFunctions.Trigonometric.ArctanDeriv
import Mathlib.Analysis.SpecialFunctions.Trigonometric.InverseDeriv
import Mathlib.Analysis.Calculus.Deriv.MeanValue

/-!
# The diffraction MTF as a function of angles

Both parts of the diffraction MTF are functions of an arc cosine, and depend on the cosine in a Lipschitz way although
the arc cosine does not.
-/

noncomputable section

open Classical

namespace PyBSM

open Spec

theorem cos_arccos_clip (x : ℝ) : Real.cos (Real.arccos x) = max (-1) (min 1 x) := by
  rcases le_total x (-1) with h | h
  · rw [Real.arccos_of_le_neg_one h, Real.cos_pi, max_eq_left ((min_le_right _ _).trans h)]
  · rcases le_total x 1 with h' | h'
    · rw [Real.cos_arccos h h', min_eq_right h', max_eq_right h]
    · rw [Real.arccos_of_one_le h', Real.cos_zero, min_eq_left h', max_eq_right (by norm_num)]

theorem cos_arccos_sub_le {x y : ℝ} (h : x ≤ y) : Real.cos (Real.arccos y) - Real.cos (Real.arccos x) ≤ y - x := by
  rw [cos_arccos_clip, cos_arccos_clip]
  have := abs_max_sub_max_le_abs (min 1 y) (min 1 x) (-1)
  have h2 := abs_min_sub_min_le_max 1 y 1 x
  rw [sub_self, abs_zero, max_eq_right (abs_nonneg _), abs_of_nonneg (sub_nonneg.mpr h)] at h2
  rw [max_comm, max_comm (-1)]
  exact (le_abs_self _).trans (this.trans h2)

/-- A function that grows slower than `-L cos` does not change much with the cosine. -/
theorem angle_lip {f f' : ℝ → ℝ} {L : ℝ} (hd : ∀ p, HasDerivAt f (f' p) p)
    (hb : ∀ p, 0 ≤ p → p ≤ Real.pi → 0 ≤ f' p ∧ f' p ≤ L * Real.sin p) {p q : ℝ} (hp : 0 ≤ p) (hpq : p ≤ q) (hq : q ≤ Real.pi) :
    0 ≤ f q - f p ∧ f q - f p ≤ L * (Real.cos p - Real.cos q) := by
  have hc : ContinuousOn f (Set.Icc 0 Real.pi) := fun x _ => (hd x).continuousAt.continuousWithinAt
  have m1 : MonotoneOn f (Set.Icc 0 Real.pi) := by
    refine monotoneOn_of_deriv_nonneg (convex_Icc _ _) hc (fun x _ => (hd x).differentiableAt.differentiableWithinAt) ?_
    intro x hx
    rw [interior_Icc] at hx
    rw [(hd x).deriv]
    exact (hb x hx.1.le hx.2.le).1
  have hg : ∀ x, HasDerivAt (fun x => f x + L * Real.cos x) (f' x + L * -Real.sin x) x := fun x =>
    (hd x).add ((Real.hasDerivAt_cos x).const_mul L)
  have m2 : AntitoneOn (fun x => f x + L * Real.cos x) (Set.Icc 0 Real.pi) := by
    refine antitoneOn_of_deriv_nonpos (convex_Icc _ _) (fun x _ => (hg x).continuousAt.continuousWithinAt)
      (fun x _ => (hg x).differentiableAt.differentiableWithinAt) ?_
    intro x hx
    rw [interior_Icc] at hx
    rw [(hg x).deriv]
    have := (hb x hx.1.le hx.2.le).2
    linarith
  have i1 : p ∈ Set.Icc 0 Real.pi := ⟨hp, hpq.trans hq⟩
  have i2 : q ∈ Set.Icc 0 Real.pi := ⟨hp.trans hpq, hq⟩
  have a1 := m1 i1 i2 hpq
  have a2 := m2 i1 i2 hpq
  simp only at a2
  constructor <;> linarith

theorem arccos_lip {f f' : ℝ → ℝ} {L : ℝ} (hL : 0 ≤ L) (hd : ∀ p, HasDerivAt f (f' p) p)
    (hb : ∀ p, 0 ≤ p → p ≤ Real.pi → 0 ≤ f' p ∧ f' p ≤ L * Real.sin p) (x y : ℝ) :
    |f (Real.arccos x) - f (Real.arccos y)| ≤ L * |x - y| := by
  have key : ∀ x y : ℝ, x ≤ y → |f (Real.arccos x) - f (Real.arccos y)| ≤ L * |x - y| := by
    intro x y h
    obtain ⟨h1, h2⟩ := angle_lip hd hb (Real.arccos_nonneg y) (Real.arccos_le_arccos h) (Real.arccos_le_pi x)
    rw [abs_of_nonneg h1, abs_sub_comm, abs_of_nonneg (sub_nonneg.mpr h)]
    exact h2.trans (mul_le_mul_of_nonneg_left (cos_arccos_sub_le h) hL)
  rcases le_total x y with h | h
  · exact key x y h
  · rw [abs_sub_comm, abs_sub_comm x]; exact key y x h

theorem angle_close {f f' : ℝ → ℝ} {L : ℝ} (hL : 0 ≤ L) (hd : ∀ p, HasDerivAt f (f' p) p)
    (hb : ∀ p, 0 ≤ p → p ≤ Real.pi → 0 ≤ f' p ∧ f' p ≤ L * Real.sin p) {p q : ℝ} (hp : 0 ≤ p) (hp' : p ≤ Real.pi)
    (hq : 0 ≤ q) (hq' : q ≤ Real.pi) : |f p - f q| ≤ L * |p - q| := by
  have := arccos_lip hL hd hb (Real.cos p) (Real.cos q)
  rw [Real.arccos_cos hp hp', Real.arccos_cos hq hq'] at this
  refine this.trans (mul_le_mul_of_nonneg_left ?_ hL)
  exact Real.abs_cos_sub_cos_le _ _

/-- The chord term as a function of the angle. -/
def chordAngle (p : ℝ) : ℝ := p - Real.cos p * Real.sin p

theorem chordAngle_deriv (p : ℝ) : HasDerivAt chordAngle (2 * Real.sin p ^ 2) p := by
  have h := (hasDerivAt_id p).sub ((Real.hasDerivAt_cos p).mul (Real.hasDerivAt_sin p))
  refine h.congr_deriv ?_
  have := Real.sin_sq_add_cos_sq p
  linear_combination -this

theorem chordAngle_bound (p : ℝ) (h0 : 0 ≤ p) (h1 : p ≤ Real.pi) :
    0 ≤ 2 * Real.sin p ^ 2 ∧ 2 * Real.sin p ^ 2 ≤ 2 * Real.sin p := by
  have := Real.sin_nonneg_of_nonneg_of_le_pi h0 h1
  have := Real.sin_le_one p
  constructor
  · positivity
  · nlinarith

theorem segArea_angle {t : ℝ} (ht : 0 ≤ t) : segArea 1 t = chordAngle (Real.arccos t) := by
  unfold segArea chordAngle
  rcases le_total t 1 with h | h
  · rw [Real.cos_arccos (by linarith) h, Real.sin_arccos]; simp
  · rw [div_one, Real.arccos_of_one_le h, Real.sqrt_eq_zero_of_nonpos (by nlinarith)]; simp

theorem chord_lip (x y : ℝ) : |chordAngle (Real.arccos x) - chordAngle (Real.arccos y)| ≤ 2 * |x - y| :=
  arccos_lip (by norm_num) chordAngle_deriv chordAngle_bound x y

/-- The cross term as a function of the angle. -/
def crossAngle (eta p : ℝ) : ℝ :=
  2 * eta * Real.sin p / Real.pi + (1 + eta ^ 2) * p / Real.pi - 2 * eta ^ 2
    - 2 * (1 - eta ^ 2) / Real.pi * (p / 2 + Real.arctan (eta * Real.sin p / (1 - eta * Real.cos p)))

theorem cross_den {eta : ℝ} (he : 0 ≤ eta) (he1 : eta < 1) (p : ℝ) : 0 < 1 - eta * Real.cos p := by
  have := Real.cos_le_one p
  nlinarith

theorem half_angle {eta : ℝ} (he : 0 ≤ eta) (he1 : eta < 1) {p : ℝ} (h0 : 0 ≤ p) (h1 : p < Real.pi) :
    Real.arctan ((1 + eta) * Real.tan (p / 2) / (1 - eta)) =
      p / 2 + Real.arctan (eta * Real.sin p / (1 - eta * Real.cos p)) := by
  have hd := cross_den he he1 p
  have hc : 0 < Real.cos (p / 2) := Real.cos_pos_of_mem_Ioo ⟨by linarith, by linarith⟩
  have hcp : Real.cos p = 2 * Real.cos (p / 2) ^ 2 - 1 := by rw [← Real.cos_two_mul]; congr 1; ring
  have hsp : Real.sin p = 2 * Real.sin (p / 2) * Real.cos (p / 2) := by rw [← Real.sin_two_mul]; congr 1; ring
  have hss := Real.sin_sq_add_cos_sq (p / 2)
  have hx : Real.tan (p / 2) * (1 + Real.cos p) = Real.sin p := by
    rw [Real.tan_eq_sin_div_cos, hsp, hcp]; field_simp; ring
  have hy : Real.tan (p / 2) * Real.sin p = 1 - Real.cos p := by
    rw [Real.tan_eq_sin_div_cos, hsp, hcp]; field_simp; linear_combination 2 * hss
  have e : Real.arctan (Real.tan (p / 2)) = p / 2 := Real.arctan_tan (by linarith) (by linarith)
  have hlt : Real.tan (p / 2) * (eta * Real.sin p / (1 - eta * Real.cos p)) < 1 := by
    rw [mul_div_assoc', div_lt_one hd, mul_left_comm, hy]; nlinarith
  have h := Real.arctan_add hlt
  rw [e] at h
  rw [h]
  congr 1
  have hne : 1 - eta ≠ 0 := by linarith
  have e1 : 1 - Real.tan (p / 2) * (eta * Real.sin p / (1 - eta * Real.cos p)) = (1 - eta) / (1 - eta * Real.cos p) := by
    rw [mul_div_assoc', mul_left_comm, hy]; field_simp; ring
  have e2 : Real.tan (p / 2) + eta * Real.sin p / (1 - eta * Real.cos p) = (1 + eta) * Real.tan (p / 2) / (1 - eta * Real.cos p) := by
    rw [← hx]; field_simp; ring
  rw [e1, e2]
  field_simp

theorem cross_E {eta : ℝ} (he : 0 ≤ eta) (he1 : eta < 1) (p : ℝ) : 0 < 1 + eta ^ 2 - 2 * eta * Real.cos p := by
  have h1 := Real.cos_sq_add_sin_sq p
  have : 1 + eta ^ 2 - 2 * eta * Real.cos p = (1 - eta * Real.cos p) ^ 2 + (eta * Real.sin p) ^ 2 := by
    linear_combination -eta ^ 2 * h1
  rw [this]
  have := cross_den he he1 p
  positivity

theorem crossAngle_deriv {eta : ℝ} (he : 0 ≤ eta) (he1 : eta < 1) (p : ℝ) :
    HasDerivAt (crossAngle eta) (4 * eta ^ 2 / Real.pi * (Real.sin p ^ 2 / (1 + eta ^ 2 - 2 * eta * Real.cos p))) p := by
  have hd := cross_den he he1 p
  have hE := cross_E he he1 p
  have hpi := Real.pi_pos.ne'
  have g := (((Real.hasDerivAt_sin p).const_mul eta).div
    (((Real.hasDerivAt_cos p).const_mul eta).const_sub 1) hd.ne').arctan
  have h := (((((Real.hasDerivAt_sin p).const_mul (2 * eta)).div_const Real.pi).add
    (((hasDerivAt_id p).const_mul (1 + eta ^ 2)).div_const Real.pi)).sub_const (2 * eta ^ 2)).sub
    ((((hasDerivAt_id p).div_const 2).add g).const_mul (2 * (1 - eta ^ 2) / Real.pi))
  refine h.congr_deriv ?_
  have h1 := Real.cos_sq_add_sin_sq p
  have e1 : 1 + (eta * Real.sin p / (1 - eta * Real.cos p)) ^ 2 = (1 + eta ^ 2 - 2 * eta * Real.cos p) / (1 - eta * Real.cos p) ^ 2 := by
    field_simp
    linear_combination eta ^ 2 * h1
  simp only [Pi.div_apply]
  rw [e1]
  have e2 : 1 / ((1 + eta ^ 2 - 2 * eta * Real.cos p) / (1 - eta * Real.cos p) ^ 2) *
      ((eta * Real.cos p * (1 - eta * Real.cos p) - eta * Real.sin p * -(eta * -Real.sin p)) / (1 - eta * Real.cos p) ^ 2)
      = (eta * Real.cos p - eta ^ 2) / (1 + eta ^ 2 - 2 * eta * Real.cos p) := by
    have e3 : eta * Real.cos p * (1 - eta * Real.cos p) - eta * Real.sin p * -(eta * -Real.sin p) = eta * Real.cos p - eta ^ 2 := by
      linear_combination -eta ^ 2 * h1
    rw [e3]
    field_simp
  rw [e2]
  have hs : Real.sin p ^ 2 = 1 - Real.cos p ^ 2 := by linear_combination h1
  rw [hs]
  field_simp
  ring

theorem crossAngle_bound {eta : ℝ} (he : 0 ≤ eta) (he1 : eta < 1) (p : ℝ) (h0 : 0 ≤ p) (h1 : p ≤ Real.pi) :
    0 ≤ 4 * eta ^ 2 / Real.pi * (Real.sin p ^ 2 / (1 + eta ^ 2 - 2 * eta * Real.cos p))
    ∧ 4 * eta ^ 2 / Real.pi * (Real.sin p ^ 2 / (1 + eta ^ 2 - 2 * eta * Real.cos p))
      ≤ 4 * eta ^ 2 / Real.pi / (1 - eta ^ 2) * Real.sin p := by
  have hE := cross_E he he1 p
  have hpi := Real.pi_pos
  have hs := Real.sin_nonneg_of_nonneg_of_le_pi h0 h1
  have hd : 0 < 1 - eta ^ 2 := by nlinarith
  refine ⟨by positivity, ?_⟩
  rw [show 4 * eta ^ 2 / Real.pi / (1 - eta ^ 2) * Real.sin p = 4 * eta ^ 2 / Real.pi * (Real.sin p / (1 - eta ^ 2)) by ring]
  refine mul_le_mul_of_nonneg_left ?_ (by positivity)
  rw [div_le_div_iff₀ hE hd, pow_two, mul_assoc]
  refine mul_le_mul_of_nonneg_left ?_ hs
  have h2 := Real.cos_sq_add_sin_sq p
  have h3 : (Real.sin p * (1 - eta ^ 2) + 2 * eta * Real.cos p) ^ 2 ≤ (1 + eta ^ 2) ^ 2 := by
    have : (1 + eta ^ 2) ^ 2 - (Real.sin p * (1 - eta ^ 2) + 2 * eta * Real.cos p) ^ 2
        = (Real.cos p * (1 - eta ^ 2) - 2 * eta * Real.sin p) ^ 2 := by
      linear_combination -(1 + eta ^ 2) ^ 2 * h2
    nlinarith [sq_nonneg (Real.cos p * (1 - eta ^ 2) - 2 * eta * Real.sin p)]
  have h4 := abs_le_of_sq_le_sq h3 (by positivity : (0 : ℝ) ≤ 1 + eta ^ 2)
  linarith [(abs_le.mp h4).2]

/-- The Lipschitz constant of the cross term. -/
def crossL (eta : ℝ) : ℝ := 4 * eta ^ 2 / Real.pi / (1 - eta ^ 2)

theorem crossL_nonneg {eta : ℝ} (he : 0 ≤ eta) (he1 : eta < 1) : 0 ≤ crossL eta := by
  have hd : 0 < 1 - eta ^ 2 := by nlinarith
  have := Real.pi_pos
  unfold crossL; positivity

theorem cross_lip {eta : ℝ} (he : 0 ≤ eta) (he1 : eta < 1) (x y : ℝ) :
    |crossAngle eta (Real.arccos x) - crossAngle eta (Real.arccos y)| ≤ crossL eta * |x - y| :=
  arccos_lip (crossL_nonneg he he1) (crossAngle_deriv he he1) (crossAngle_bound he he1) x y

theorem cross_close {eta : ℝ} (he : 0 ≤ eta) (he1 : eta < 1) {p q : ℝ} (hp : 0 ≤ p) (hp' : p ≤ Real.pi)
    (hq : 0 ≤ q) (hq' : q ≤ Real.pi) : |crossAngle eta p - crossAngle eta q| ≤ crossL eta * |p - q| :=
  angle_close (crossL_nonneg he he1) (crossAngle_deriv he he1) (crossAngle_bound he he1) hp hp' hq hq'

theorem crossAngle_zero (eta : ℝ) : crossAngle eta 0 = -2 * eta ^ 2 := by
  unfold crossAngle; simp

theorem crossAngle_pi (eta : ℝ) : crossAngle eta Real.pi = 0 := by
  have := Real.pi_pos.ne'
  unfold crossAngle
  simp only [Real.sin_pi, mul_zero, zero_div, Real.arctan_zero, add_zero]
  field_simp
  ring

/-- The diffraction MTF with an obscuration, as a function of angles. -/
theorem diffraction_angles {lam D eta : ℝ} (hl : 0 < lam) (hD : 0 < D) (he : 0 < eta) (he1 : eta < 1) (u v : ℝ) :
    diffractionMTF lam D eta u v =
      (2 / Real.pi * chordAngle (Real.arccos (Real.sqrt (u ^ 2 + v ^ 2) / (D / lam)))
        + 2 * eta ^ 2 / Real.pi * chordAngle (Real.arccos (Real.sqrt (u ^ 2 + v ^ 2) / (D / lam) / eta))
        + crossAngle eta (Real.arccos ((1 + eta ^ 2 - 4 * (Real.sqrt (u ^ 2 + v ^ 2) / (D / lam)) ^ 2) / (2 * eta))))
      / (1 - eta ^ 2) := by
  have hr : 0 < D / lam := by positivity
  have h1 := aperture_diffraction hl hD he.le he1 u v
  rw [aperture_obscured hr he he1] at h1
  injection h1 with h1
  rw [← h1]
  set rho := Real.sqrt (u ^ 2 + v ^ 2) with hrho
  have hr0 : 0 ≤ rho := Real.sqrt_nonneg _
  have ht : 0 ≤ rho / (D / lam) := by positivity
  have hz : rho = 0 ↔ rho / (D / lam) = 0 := by
    constructor
    · intro h; rw [h, zero_div]
    · intro h; exact (div_eq_zero_iff.mp h).resolve_right hr.ne'
  rw [if_congr hz rfl rfl]
  set t := rho / (D / lam) with htd
  clear_value t
  have hb : segArea eta t = eta ^ 2 * chordAngle (Real.arccos (t / eta)) := by
    rw [← segArea_angle (by positivity)]
    have := segArea_scale he 1 (t / eta)
    rw [mul_one, show eta * (t / eta) = t by field_simp] at this
    exact this
  have hpi := Real.pi_pos.ne'
  have hc : (if t = 0 then -2 * eta ^ 2 else -2 * crossArea eta t / Real.pi)
      = crossAngle eta (Real.arccos ((1 + eta ^ 2 - 4 * t ^ 2) / (2 * eta))) := by
    rcases le_or_gt t ((1 - eta) / 2) with c | c
    · rw [Real.arccos_of_one_le (by rw [le_div_iff₀ (by positivity)]; nlinarith), crossAngle_zero]
      split_ifs with h
      · rfl
      · rw [cross_small he (lt_of_le_of_ne ht (Ne.symm h)) c]; field_simp
    · rw [if_neg (by intro h; rw [h] at c; linarith)]
      rcases le_or_gt ((1 + eta) / 2) t with c' | c'
      · rw [cross_large he he1 c', Real.arccos_of_le_neg_one (by rw [div_le_iff₀ (by positivity)]; nlinarith), crossAngle_pi]
        simp
      · obtain ⟨f0, f1, hf⟩ := cross_mid he he1 c c'
        rw [hf, half_angle he.le he1 f0.le f1]
        rfl
  rw [hc, segArea_angle ht, hb]
  congr 1
  ring

theorem diffraction_angle {lam D : ℝ} (hl : 0 < lam) (hD : 0 < D) (u v : ℝ) :
    diffractionMTF lam D 0 u v = 2 / Real.pi * chordAngle (Real.arccos (Real.sqrt (u ^ 2 + v ^ 2) / (D / lam))) := by
  have hr : 0 < D / lam := by positivity
  have h1 := aperture_diffraction hl hD le_rfl zero_lt_one u v
  rw [← XR.zero_def, aperture_noObscuration hr] at h1
  injection h1 with h1
  rw [← h1, segArea_angle (by positivity)]

end PyBSM
