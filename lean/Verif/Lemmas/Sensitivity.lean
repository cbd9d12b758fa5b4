import Verif.Lemmas.DoubleMtf
import Verif.Lemmas.DoubleOtf
import Verif.Lemmas.Weighted

/-!
# How the exact system MTF depends on frequency, exposure and weights

Both frequencies are multiplied by the same factor `κ` close to 1, the exposure time and the weights of the band by factors
close to 1. The coherence diameter is changed by a factor close to 1 too.
-/

noncomputable section

open Classical

namespace PyBSM

open Spec

theorem factor_one {δ κ : ℝ} (h : WithinFactor δ κ 1) (hd : δ ≤ 0.02) : |κ - 1| ≤ 1.02 * δ := by
  have := h.error hd
  linarith

theorem prod_diff {a a' b b' d e : ℝ} (ha : |a' - a| ≤ d) (hb : |b' - b| ≤ e) (ha1 : |a| ≤ 1) (hb1 : |b'| ≤ 1) :
    |a' * b' - a * b| ≤ d + e := by
  rw [show a' * b' - a * b = (a' - a) * b' + a * (b' - b) by ring]
  refine (abs_add_le _ _).trans (add_le_add ?_ ?_)
  · rw [abs_mul]
    exact (mul_le_mul ha hb1 (abs_nonneg _) ((abs_nonneg _).trans ha)).trans (mul_one d).le
  · rw [abs_mul]
    exact (mul_le_mul ha1 hb (abs_nonneg _) zero_le_one).trans (one_mul e).le

theorem prod_le_one {a b : ℝ} (ha : |a| ≤ 1) (hb : |b| ≤ 1) : |a * b| ≤ 1 := by
  rw [abs_mul]
  exact (mul_le_mul ha hb (abs_nonneg _) zero_le_one).trans (one_mul 1).le

theorem sinc_scale {δ κ : ℝ} (h : WithinFactor δ κ 1) (hd : δ ≤ 0.02) (x : ℝ) : |Real.sinc (κ * x) - Real.sinc x| ≤ 3.1 * δ := by
  have h0 := h.nonneg
  by_cases hx : x = 0
  · rw [hx, mul_zero, sub_self, abs_zero]; linarith
  · have hk := factor_one h hd
    have e : |κ * x - x| ≤ 1.02 * δ * |x| := by
      rw [show κ * x - x = (κ - 1) * x by ring, abs_mul]
      exact mul_le_mul_of_nonneg_right hk (abs_nonneg _)
    obtain ⟨c1, c2⟩ := sinc_close hx e (by linarith)
    rw [Real.sinc_of_ne_zero c2, Real.sinc_of_ne_zero hx]
    linarith

/-- Frequencies scaled along the radius. -/
theorem radius_scale {κ : ℝ} (hk : 0 < κ) (u v : ℝ) : Real.sqrt ((κ * u) ^ 2 + (κ * v) ^ 2) = κ * Real.sqrt (u ^ 2 + v ^ 2) := by
  rw [show (κ * u) ^ 2 + (κ * v) ^ 2 = κ ^ 2 * (u ^ 2 + v ^ 2) by ring, Real.sqrt_mul (sq_nonneg _), Real.sqrt_sq hk.le]

theorem detector_scale {δ κ : ℝ} (h : WithinFactor δ κ 1) (hd : δ ≤ 0.02) (s : RealSensor) (u v : ℝ) :
    |detectorAt s (κ * u) (κ * v) - detectorAt s u v| ≤ 6.2 * δ := by
  unfold detectorAt
  have e : ∀ w x : ℝ, Real.pi * (w * (κ * x) / s.f) = κ * (Real.pi * (w * x / s.f)) := fun w x => by ring
  rw [e, e]
  exact (prod_diff (sinc_scale h hd _) (sinc_scale h hd _) (abs_sinc_le _) (abs_sinc_le _)).trans (by linarith)

theorem drift_scale {δ κ τ t δt : ℝ} (h : WithinFactor δ κ 1) (ht : WithinFactor δt τ t) (hd : δ + δt ≤ 0.02) (s : RealSensor) (u v : ℝ) :
    |driftAt s τ (κ * u) (κ * v) - driftAt s t u v| ≤ 6.2 * (δ + δt) := by
  unfold driftAt
  have hq : WithinFactor (δ + δt) (κ * (τ / t)) 1 := by
    have := h.mul (ht.div (WithinFactor.refl ht.2.1))
    rw [div_self ht.2.1.ne', add_zero, mul_one] at this
    exact this
  have ht0 := ht.2.1.ne'
  have e : ∀ a x : ℝ, Real.pi * (a * τ * s.nTdi * (κ * x)) = κ * (τ / t) * (Real.pi * (a * t * s.nTdi * x)) := fun a x => by
    field_simp
  rw [e, e]
  exact (prod_diff (sinc_scale hq hd _) (sinc_scale hq hd _) (abs_sinc_le _) (abs_sinc_le _)).trans (by linarith)

/-- An exponential of a nonnegative exponent scaled by the square of `κ`. -/
theorem exp_sq_scale {δ κ a : ℝ} (h : WithinFactor δ κ 1) (hd : δ ≤ 0.01) (ha : 0 ≤ a) :
    |Real.exp (-(κ ^ 2 * a)) - Real.exp (-a)| ≤ 0.76 * δ := by
  have h0 := h.nonneg
  rcases ha.eq_or_lt with e | hp
  · rw [← e, mul_zero, sub_self, abs_zero]; linarith
  · have h2 := (h.mul h).mul (WithinFactor.refl hp)
    rw [mul_one, one_mul, ← sq, add_zero] at h2
    exact (h2.exp_neg (by linarith)).trans (by linarith)

theorem jitter_scale {δ κ : ℝ} (h : WithinFactor δ κ 1) (hd : δ ≤ 0.01) (s : RealSensor) (u v : ℝ) :
    |jitterAt s (κ * u) (κ * v) - jitterAt s u v| ≤ 0.76 * δ := by
  unfold jitterAt
  rw [show 2 * Real.pi ^ 2 * ((s.sX * (κ * u)) ^ 2 + (s.sY * (κ * v)) ^ 2) = κ ^ 2 * (2 * Real.pi ^ 2 * ((s.sX * u) ^ 2 + (s.sY * v) ^ 2)) by ring]
  exact exp_sq_scale h hd (by positivity)

theorem exp_neg_close {x y d : ℝ} (hx : 0 ≤ x) (hy : 0 ≤ y) (h : |x - y| ≤ d) : |Real.exp (-x) - Real.exp (-y)| ≤ d := by
  have key : ∀ x y : ℝ, 0 ≤ x → x ≤ y → |x - y| ≤ d → |Real.exp (-x) - Real.exp (-y)| ≤ d := by
    intro x y hx hxy h
    have h1 := exp_neg_lip hxy
    have h2 : Real.exp (-x) ≤ 1 := Real.exp_le_one_iff.mpr (by linarith)
    have h3 : Real.exp (-y) ≤ Real.exp (-x) := Real.exp_le_exp.mpr (by linarith)
    rw [abs_of_nonneg (by linarith)]
    rw [abs_sub_comm, abs_of_nonneg (by linarith)] at h
    nlinarith
  rcases le_total x y with c | c
  · exact key x y hx c h
  · rw [abs_sub_comm]; exact key y x hy c (by rw [abs_sub_comm]; exact h)

theorem wavefrontMtf_scale {δ κ : ℝ} (h : WithinFactor δ κ 1) (hd : δ ≤ 0.01) {s : RealSensor} (hp : 0 ≤ s.pv) {l : ℝ}
    (hw : s.pv * (s.pvWavelength / l) ^ 2 ≤ 100) (u v : ℝ) :
    |wavefrontMtf s l (κ * u) (κ * v) - wavefrontMtf s l u v| ≤ 76 * δ := by
  have h0 := h.nonneg
  unfold wavefrontMtf
  rw [show l ^ 2 * ((κ * u / s.lX) ^ 2 + (κ * v / s.lY) ^ 2) = κ ^ 2 * (l ^ 2 * ((u / s.lX) ^ 2 + (v / s.lY) ^ 2)) by ring]
  have hq : 0 ≤ l ^ 2 * ((u / s.lX) ^ 2 + (v / s.lY) ^ 2) := by positivity
  generalize l ^ 2 * ((u / s.lX) ^ 2 + (v / s.lY) ^ 2) = q at *
  have hW : 0 ≤ s.pv * (s.pvWavelength / l) ^ 2 := by positivity
  generalize s.pv * (s.pvWavelength / l) ^ 2 = W at *
  have e := exp_sq_scale h hd hq
  have e1 : Real.exp (-q) ≤ 1 := Real.exp_le_one_iff.mpr (by linarith)
  have e2 : Real.exp (-(κ ^ 2 * q)) ≤ 1 := Real.exp_le_one_iff.mpr (by nlinarith [sq_nonneg κ, mul_nonneg (sq_nonneg κ) hq])
  refine exp_neg_close (mul_nonneg hW (by linarith)) (mul_nonneg hW (by linarith)) ?_
  rw [show W * (1 - Real.exp (-(κ ^ 2 * q))) - W * (1 - Real.exp (-q)) = W * -(Real.exp (-(κ ^ 2 * q)) - Real.exp (-q)) by ring,
    abs_mul, abs_neg, abs_of_nonneg hW]
  calc W * |Real.exp (-(κ ^ 2 * q)) - Real.exp (-q)| ≤ 100 * (0.76 * δ) := mul_le_mul hw e (abs_nonneg _) (by norm_num)
    _ = 76 * δ := by ring

theorem diffraction_scale {δ κ : ℝ} (h : WithinFactor δ κ 1) (hd : δ ≤ 0.01) {l D eta : ℝ} (hl : 0 < l) (hD : 0 < D)
    (he : eta = 0 ∨ 0 < eta ∧ eta ≤ 0.9) {u v : ℝ} (hx : Real.sqrt (u ^ 2 + v ^ 2) / (D / l) ≤ 3) :
    |diffractionMTF l D eta (κ * u) (κ * v) - diffractionMTF l D eta u v| ≤ 1400 * δ := by
  have h0 := h.nonneg
  have hk := factor_one h (by linarith)
  have hx0 : 0 ≤ Real.sqrt (u ^ 2 + v ^ 2) / (D / l) := by positivity
  have ex : Real.sqrt ((κ * u) ^ 2 + (κ * v) ^ 2) / (D / l) = κ * (Real.sqrt (u ^ 2 + v ^ 2) / (D / l)) := by
    rw [radius_scale h.1]; ring
  have hpi3 := Real.pi_gt_three
  have hpi := Real.pi_pos
  have dx : ∀ x : ℝ, 0 ≤ x → x ≤ 3 → |κ * x - x| ≤ 3.06 * δ := by
    intro x x0 x3
    rw [show κ * x - x = (κ - 1) * x by ring, abs_mul, abs_of_nonneg x0]
    calc |κ - 1| * x ≤ 1.02 * δ * 3 := mul_le_mul hk x3 x0 (by linarith)
      _ = 3.06 * δ := by ring
  have h2pi : 2 / Real.pi ≤ 2 / 3 := by
    apply div_le_div_of_nonneg_left (by norm_num) (by norm_num) hpi3.le
  rcases he with e | ⟨e0, e9⟩
  · rw [e, diffraction_angle hl hD, diffraction_angle hl hD, ex]
    generalize Real.sqrt (u ^ 2 + v ^ 2) / (D / l) = x at *
    rw [← mul_sub, abs_mul, abs_of_pos (by positivity)]
    have c := chord_lip (κ * x) x
    have := dx x hx0 hx
    calc 2 / Real.pi * |_| ≤ 2 / 3 * (2 * (3.06 * δ)) := mul_le_mul h2pi (by linarith) (abs_nonneg _) (by norm_num)
      _ ≤ 1400 * δ := by linarith
  · rw [diffraction_angles hl hD e0 (by linarith), diffraction_angles hl hD e0 (by linarith), ex]
    generalize Real.sqrt (u ^ 2 + v ^ 2) / (D / l) = x at *
    have c1 := chord_lip (κ * x) x
    have c2 := chord_lip (κ * x / eta) (x / eta)
    have c3 := cross_lip e0.le (by linarith : eta < 1) ((1 + eta ^ 2 - 4 * (κ * x) ^ 2) / (2 * eta)) ((1 + eta ^ 2 - 4 * x ^ 2) / (2 * eta))
    have d1 := dx x hx0 hx
    have hden : 0.19 ≤ 1 - eta ^ 2 := by nlinarith
    rw [← sub_div, abs_div, abs_of_pos (by linarith : 0 < 1 - eta ^ 2), div_le_iff₀ (by linarith)]
    have t1 : |2 / Real.pi * chordAngle (Real.arccos (κ * x)) - 2 / Real.pi * chordAngle (Real.arccos x)| ≤ 4.1 * δ := by
      rw [← mul_sub, abs_mul, abs_of_pos (by positivity)]
      calc 2 / Real.pi * |_| ≤ 2 / 3 * (2 * (3.06 * δ)) := mul_le_mul h2pi (by linarith) (abs_nonneg _) (by norm_num)
        _ ≤ 4.1 * δ := by linarith
    have t2 : |2 * eta ^ 2 / Real.pi * chordAngle (Real.arccos (κ * x / eta)) - 2 * eta ^ 2 / Real.pi * chordAngle (Real.arccos (x / eta))| ≤ 4.1 * δ := by
      rw [← mul_sub, abs_mul, abs_of_pos (by positivity)]
      rw [← sub_div, abs_div, abs_of_pos e0] at c2
      calc 2 * eta ^ 2 / Real.pi * |_| ≤ 2 * eta ^ 2 / Real.pi * (2 * (3.06 * δ / eta)) := by
            refine mul_le_mul_of_nonneg_left (c2.trans ?_) (by positivity)
            gcongr
        _ = 2 / Real.pi * (6.12 * δ) * eta := by field_simp; ring
        _ ≤ 2 / 3 * (6.12 * δ) * 1 := by
            refine mul_le_mul (mul_le_mul_of_nonneg_right h2pi (by linarith)) (by linarith) e0.le (by positivity)
        _ ≤ 4.1 * δ := by linarith
    have t3 : |crossAngle eta (Real.arccos ((1 + eta ^ 2 - 4 * (κ * x) ^ 2) / (2 * eta)))
        - crossAngle eta (Real.arccos ((1 + eta ^ 2 - 4 * x ^ 2) / (2 * eta)))| ≤ 241 * δ := by
      refine c3.trans ?_
      have ds : |x ^ 2 - (κ * x) ^ 2| ≤ 18.9 * δ := by
        rw [show x ^ 2 - (κ * x) ^ 2 = -((κ * x - x) * (κ * x - x + 2 * x)) by ring, abs_neg, abs_mul]
        have : |κ * x - x + 2 * x| ≤ 6.05 := by
          refine (abs_add_le _ _).trans ?_
          rw [abs_of_nonneg (by linarith : 0 ≤ 2 * x)]
          linarith
        calc |κ * x - x| * |κ * x - x + 2 * x| ≤ 3.06 * δ * 6.05 := mul_le_mul d1 this (abs_nonneg _) (by linarith)
          _ ≤ 18.9 * δ := by linarith
      rw [show (1 + eta ^ 2 - 4 * (κ * x) ^ 2) / (2 * eta) - (1 + eta ^ 2 - 4 * x ^ 2) / (2 * eta) = 2 * (x ^ 2 - (κ * x) ^ 2) / eta by
        field_simp; ring, abs_div, abs_of_pos e0, abs_mul, abs_of_pos (by norm_num : (0:ℝ) < 2)]
      unfold crossL
      calc 4 * eta ^ 2 / Real.pi / (1 - eta ^ 2) * (2 * |x ^ 2 - (κ * x) ^ 2| / eta)
          = 2 / Real.pi * (4 * eta * |x ^ 2 - (κ * x) ^ 2| / (1 - eta ^ 2)) := by field_simp
        _ ≤ 2 / 3 * (4 * 0.9 * (18.9 * δ) / 0.19) := by
            refine mul_le_mul h2pi ?_ (div_nonneg (by positivity) (by linarith)) (by norm_num)
            refine div_le_div₀ (by positivity) ?_ (by norm_num) hden
            refine mul_le_mul (by linarith) ds (abs_nonneg _) (by norm_num)
        _ = (2 / 3 * (4 * 0.9 * 18.9 / 0.19)) * δ := by ring
        _ ≤ 241 * δ := mul_le_mul_of_nonneg_right (by norm_num) h0
    have hsum : |2 / Real.pi * chordAngle (Real.arccos (κ * x)) + 2 * eta ^ 2 / Real.pi * chordAngle (Real.arccos (κ * x / eta))
        + crossAngle eta (Real.arccos ((1 + eta ^ 2 - 4 * (κ * x) ^ 2) / (2 * eta)))
        - (2 / Real.pi * chordAngle (Real.arccos x) + 2 * eta ^ 2 / Real.pi * chordAngle (Real.arccos (x / eta))
        + crossAngle eta (Real.arccos ((1 + eta ^ 2 - 4 * x ^ 2) / (2 * eta))))| ≤ 4.1 * δ + 4.1 * δ + 241 * δ := by
      rw [add_sub_add_comm, add_sub_add_comm]
      exact (abs_add_le _ _).trans (add_le_add ((abs_add_le _ _).trans (add_le_add t1 t2)) t3)
    refine hsum.trans ?_
    nlinarith

/-! ## Turbulence -/

theorem turbMix_scale {δ κ δt τ t δr r' r : ℝ} (h : WithinFactor δ κ 1) (ht : WithinFactor δt τ t) (hr : WithinFactor δr r' r)
    (hd : δ + δt + δr ≤ 0.001) {l D vel n : ℝ} (hl : 0 < l) (hD : 0 < D) (hv : 0 ≤ vel) (hn : 0 ≤ n) {u v : ℝ}
    (hx : l * Real.sqrt (u ^ 2 + v ^ 2) / D ≤ 3) :
    |turbMix l D r' (τ * n) vel (κ * u) (κ * v) - turbMix l D r (t * n) vel u v| ≤ 4 * (δ + δt + δr)
      ∧ |turbMix l D r (t * n) vel u v| ≤ 1 := by
  have h0 := h.nonneg
  have t0 := ht.nonneg
  have r0 := hr.nonneg
  unfold turbMix
  rw [radius_scale h.1]
  have hρ : 0 ≤ Real.sqrt (u ^ 2 + v ^ 2) := Real.sqrt_nonneg _
  generalize Real.sqrt (u ^ 2 + v ^ 2) = ρ at *
  dsimp only
  -- the share of short exposure
  have hw : |Real.exp (-(vel * (τ * n) / r')) - Real.exp (-(vel * (t * n) / r))| ≤ 0.38 * (δt + δr) := by
    rcases (mul_nonneg hv hn).eq_or_lt with e | hp
    · rw [show vel * (τ * n) / r' = vel * n * τ / r' by ring, show vel * (t * n) / r = vel * n * t / r by ring, ← e]
      simp only [zero_mul, zero_div, sub_self, abs_zero]
      linarith
    · have := ((WithinFactor.refl hp).mul ht).div hr
      rw [zero_add] at this
      rw [show vel * (τ * n) / r' = vel * n * τ / r' by ring, show vel * (t * n) / r = vel * n * t / r by ring]
      exact this.exp_neg (by linarith)
  have w1 : Real.exp (-(vel * (τ * n) / r')) ≤ 1 := Real.exp_le_one_iff.mpr (by
    have := mul_nonneg hv (mul_nonneg ht.1.le hn)
    have := div_nonneg this hr.1.le
    linarith)
  have w1' : Real.exp (-(vel * (t * n) / r)) ≤ 1 := Real.exp_le_one_iff.mpr (by
    have := mul_nonneg hv (mul_nonneg ht.2.1.le hn)
    have := div_nonneg this hr.2.1.le
    linarith)
  have w0 := Real.exp_pos (-(vel * (τ * n) / r'))
  have w0' := Real.exp_pos (-(vel * (t * n) / r))
  generalize Real.exp (-(vel * (τ * n) / r')) = w' at *
  generalize Real.exp (-(vel * (t * n) / r)) = w at *
  have comb : ∀ a' a b' b d : ℝ, |a' - a| ≤ d → |b' - b| ≤ d → 0 ≤ a → a ≤ 1 → 0 ≤ b → b ≤ 1 → d + 0.38 * (δt + δr) ≤ 4 * (δ + δt + δr) →
      |w' * a' + (1 - w') * b' - (w * a + (1 - w) * b)| ≤ 4 * (δ + δt + δr) ∧ |w * a + (1 - w) * b| ≤ 1 := by
    intro a' a b' b d ha hb a0 a1 b0 b1 hdd
    constructor
    · have e : w' * a' + (1 - w') * b' - (w * a + (1 - w) * b) = w' * (a' - a) + (1 - w') * (b' - b) + (w' - w) * (a - b) := by ring
      rw [e]
      have e1 : |w' * (a' - a)| ≤ w' * d := by rw [abs_mul, abs_of_pos w0]; exact mul_le_mul_of_nonneg_left ha w0.le
      have e2 : |(1 - w') * (b' - b)| ≤ (1 - w') * d := by
        rw [abs_mul, abs_of_nonneg (by linarith)]; exact mul_le_mul_of_nonneg_left hb (by linarith)
      have e3 : |(w' - w) * (a - b)| ≤ 0.38 * (δt + δr) := by
        rw [abs_mul]
        have : |a - b| ≤ 1 := by rw [abs_le]; constructor <;> linarith
        exact (mul_le_mul hw this (abs_nonneg _) (by linarith)).trans (mul_one _).le
      have := (abs_add_le (w' * (a' - a) + (1 - w') * (b' - b)) ((w' - w) * (a - b))).trans
        (add_le_add ((abs_add_le _ _).trans (add_le_add e1 e2)) e3)
      linarith
    · rw [abs_le]
      constructor <;> nlinarith
  rcases hρ.eq_or_lt with e | hp
  · rw [← e]
    simp only [mul_zero, zero_div, ne_eq, OfNat.ofNat_ne_zero, one_ne_zero, not_false_eq_true, div_eq_zero_iff, or_self, Real.zero_rpow,
      sub_zero, zero_mul, neg_zero, Real.exp_zero]
    exact comb 1 1 1 1 0 (by simp) (by simp) zero_le_one le_rfl zero_le_one le_rfl (by linarith)
  · have X : WithinFactor (δ + δr) (l * (κ * ρ) / r') (l * ρ / r) := by
      have := ((WithinFactor.refl hl).mul (h.mul (WithinFactor.refl hp))).div hr
      rw [one_mul] at this
      exact this.mono (by linarith)
    have Y : WithinFactor δ (l * (κ * ρ) / D) (l * ρ / D) := by
      have := ((WithinFactor.refl hl).mul (h.mul (WithinFactor.refl hp))).div (WithinFactor.refl hD)
      rw [one_mul] at this
      exact this.mono (by linarith)
    have X' := X.rpow (p := 5 / 3) (by norm_num)
    have Y' := Y.rpow (p := 1 / 3) (by norm_num)
    have hy : (l * ρ / D) ^ ((1 : ℝ) / 3) ≤ 1.45 := by
      have h1 : (l * ρ / D) ^ ((1 : ℝ) / 3) ≤ (1.45 ^ (3 : ℝ)) ^ ((1 : ℝ) / 3) := by
        refine Real.rpow_le_rpow Y.2.1.le (hx.trans ?_) (by norm_num)
        rw [show (3 : ℝ) = ((3 : ℕ) : ℝ) by norm_num, Real.rpow_natCast]
        norm_num
      rwa [← Real.rpow_mul (by norm_num), show (3 : ℝ) * (1 / 3) = 1 by norm_num, Real.rpow_one] at h1
    generalize (l * ρ / D) ^ ((1 : ℝ) / 3) = y at *
    generalize (l * (κ * ρ) / D) ^ ((1 : ℝ) / 3) = y' at *
    generalize (l * ρ / r) ^ ((5 : ℝ) / 3) = x at *
    generalize (l * (κ * ρ) / r') ^ ((5 : ℝ) / 3) = x' at *
    have hy' := Y'.error (by linarith)
    have hz : |1 - 0.5 * y' - (1 - 0.5 * y)| ≤ 0.95 * δ * (1 - 0.5 * y) := by
      rw [show 1 - 0.5 * y' - (1 - 0.5 * y) = -(0.5 * (y' - y)) by ring, abs_neg, abs_mul, abs_of_pos (by norm_num)]
      have : 1.02 * (1 / 3 * δ) * y ≤ 1.02 * (1 / 3 * δ) * 1.45 := mul_le_mul_of_nonneg_left hy (by linarith)
      have : 0.95 * δ * 0.275 ≤ 0.95 * δ * (1 - 0.5 * y) := mul_le_mul_of_nonneg_left (by linarith) (by linarith)
      linarith
    have Z := within_of_rel (by linarith : 0 < 1 - 0.5 * y) (by linarith) hz
    have A := (((WithinFactor.refl (by norm_num : (0:ℝ) < 3.44)).mul X').mul Z).exp_neg (by linarith)
    have B := ((WithinFactor.refl (by norm_num : (0:ℝ) < 3.44)).mul X').exp_neg (by linarith)
    refine comb _ _ _ _ (1.4 * δ + 0.64 * δr) (A.trans (by linarith)) (B.trans (by linarith)) (Real.exp_nonneg _)
      (Real.exp_le_one_iff.mpr ?_) (Real.exp_nonneg _) (Real.exp_le_one_iff.mpr ?_) (by linarith)
    · have := mul_pos (mul_pos (by norm_num : (0:ℝ) < 3.44) X'.2.1) Z.2.1
      linarith
    · have := mul_pos (by norm_num : (0:ℝ) < 3.44) X'.2.1
      linarith

/-! ## Weighted means -/

theorem sums_close {δ : ℝ} {pairs pairs' : List (ℝ × ℝ)} (hd : δ ≤ 0.02)
    (h : List.Forall₂ (fun p q : ℝ × ℝ => p.1 = q.1 ∧ WithinFactor δ p.2 q.2) pairs' pairs) (F : ℝ → ℝ)
    (hF : ∀ p ∈ pairs, |F p.1| ≤ 1) :
    |(pairs'.map fun p => p.2 * F p.1).sum - (pairs.map fun p => p.2 * F p.1).sum| ≤ 1.02 * δ * (pairs.map (·.2)).sum := by
  induction h with
  | nil => simp
  | cons hpq _ ih =>
    rename_i p q l l' _
    simp only [List.map_cons, List.sum_cons]
    have h1 := ih fun p hp => hF p (List.mem_cons_of_mem _ hp)
    have h2 := hpq.2.error hd
    have h3 := hF q (by simp)
    rw [hpq.1]
    rw [show p.2 * F q.1 + (l.map fun p => p.2 * F p.1).sum - (q.2 * F q.1 + (l'.map fun p => p.2 * F p.1).sum)
      = (p.2 - q.2) * F q.1 + ((l.map fun p => p.2 * F p.1).sum - (l'.map fun p => p.2 * F p.1).sum) by ring]
    have h4 : |(p.2 - q.2) * F q.1| ≤ 1.02 * δ * q.2 := by
      rw [abs_mul]
      exact (mul_le_mul h2 h3 (abs_nonneg _) ((abs_nonneg _).trans h2)).trans (mul_one _).le
    refine (abs_add_le _ _).trans ?_
    linarith

theorem wmean_weights {δ : ℝ} {pairs pairs' : List (ℝ × ℝ)} (hd : δ ≤ 0.02)
    (h : List.Forall₂ (fun p q : ℝ × ℝ => p.1 = q.1 ∧ WithinFactor δ p.2 q.2) pairs' pairs)
    (hw : ∀ p ∈ pairs, 0 ≤ p.2) (hS : 0 < (pairs.map (·.2)).sum) {F : ℝ → ℝ} (hF : ∀ p ∈ pairs, |F p.1| ≤ 1) :
    |wmean pairs' F - wmean pairs F| ≤ 2.2 * δ ∧ 0 < (pairs'.map (·.2)).sum := by
  have h1 := sums_close hd h F hF
  have h2 := sums_close hd h (fun _ => 1) (by simp)
  simp only [mul_one] at h2
  have hu : wmean pairs F ≤ 1 := wmean_le hw hS fun p hp => (abs_le.mp (hF p hp)).2
  have hl : -1 ≤ wmean pairs F := le_wmean hw hS fun p hp => (abs_le.mp (hF p hp)).1
  unfold wmean at *
  generalize (pairs.map fun p => p.2 * F p.1).sum = A at *
  generalize (pairs'.map fun p => p.2 * F p.1).sum = A' at *
  have eS : (pairs.map fun p => p.2).sum = (pairs.map (·.2)).sum := rfl
  generalize (pairs.map (·.2)).sum = S at *
  generalize (pairs'.map (·.2)).sum = S' at *
  have hd0 : 0 ≤ δ := by
    by_contra hc
    have := (abs_nonneg _).trans h2
    nlinarith
  obtain ⟨s1, s2⟩ := abs_le.mp h2
  have hS' : 0.97 * S ≤ S' := by nlinarith
  have hp : 0 < S' := by linarith
  refine ⟨?_, hp⟩
  have e : A' / S' - A / S = ((A' - A) - A / S * (S' - S)) / S' := by
    field_simp
    ring
  rw [e, abs_div, abs_of_pos hp, div_le_iff₀ hp]
  have h3 : |A / S * (S' - S)| ≤ 1 * (1.02 * δ * S) := by
    rw [abs_mul]
    exact mul_le_mul (abs_le.mpr ⟨hl, hu⟩) h2 (abs_nonneg _) zero_le_one
  have h4 := abs_sub (A' - A) (A / S * (S' - S))
  nlinarith

theorem wmean_close {ε : ℝ} {pairs : List (ℝ × ℝ)} (hw : ∀ p ∈ pairs, 0 ≤ p.2) (hS : 0 < (pairs.map (·.2)).sum) {F' F : ℝ → ℝ}
    (h : ∀ p ∈ pairs, |F' p.1 - F p.1| ≤ ε) : |wmean pairs F' - wmean pairs F| ≤ ε := by
  have e : wmean pairs F' - wmean pairs F = wmean pairs fun l => F' l - F l := by
    unfold wmean
    rw [← sub_div]
    congr 1
    clear hw hS h
    induction pairs with
    | nil => simp
    | cons p t ih =>
      simp only [List.map_cons, List.sum_cons] at ih ⊢
      rw [← ih]; ring
  rw [e, abs_le]
  exact ⟨le_wmean hw hS fun p hp => (abs_le.mp (h p hp)).1, wmean_le hw hS fun p hp => (abs_le.mp (h p hp)).2⟩

/-- The mean of a function with a small error, with weights that have small errors. -/
theorem wmean_change {ε δ : ℝ} {pairs pairs' : List (ℝ × ℝ)} (hd : δ ≤ 0.02)
    (h : List.Forall₂ (fun p q : ℝ × ℝ => p.1 = q.1 ∧ WithinFactor δ p.2 q.2) pairs' pairs)
    (hw : ∀ p ∈ pairs, 0 ≤ p.2) (hS : 0 < (pairs.map (·.2)).sum) {F' F : ℝ → ℝ} (hF : ∀ p ∈ pairs, |F p.1| ≤ 1)
    (hF' : ∀ p ∈ pairs, |F' p.1| ≤ 1) (hc : ∀ p ∈ pairs, |F' p.1 - F p.1| ≤ ε) :
    |wmean pairs' F' - wmean pairs F| ≤ ε + 2.2 * δ ∧ |wmean pairs F| ≤ 1 ∧ |wmean pairs' F'| ≤ 1 := by
  obtain ⟨h1, h2⟩ := wmean_weights hd h hw hS hF'
  have h3 := wmean_close hw hS hc
  refine ⟨?_, ?_, ?_⟩
  · have := abs_sub_le (wmean pairs' F') (wmean pairs F') (wmean pairs F)
    linarith
  · exact abs_le.mpr ⟨le_wmean hw hS fun p hp => (abs_le.mp (hF p hp)).1, wmean_le hw hS fun p hp => (abs_le.mp (hF p hp)).2⟩
  · have hm : ∀ p ∈ pairs', 0 ≤ p.2 ∧ |F' p.1| ≤ 1 := by
      clear h1 h2 h3 hw hS hF hc
      induction h with
      | nil => simp
      | cons hpq _ ih =>
        intro p hp
        rcases List.mem_cons.mp hp with e | hp
        · rw [e]
          exact ⟨hpq.2.1.le, by rw [hpq.1]; exact hF' _ (by simp)⟩
        · exact ih (fun p hp => hF' p (List.mem_cons_of_mem _ hp)) p hp
    exact abs_le.mpr ⟨le_wmean (fun p hp => (hm p hp).1) h2 fun p hp => (abs_le.mp (hm p hp).2).1,
      wmean_le (fun p hp => (hm p hp).1) h2 fun p hp => (abs_le.mp (hm p hp).2).2⟩

/-! ## The whole system -/

theorem wavefrontMtf_range {s : RealSensor} (hp : 0 ≤ s.pv) (l u v : ℝ) : |wavefrontMtf s l u v| ≤ 1 := by
  unfold wavefrontMtf
  rw [abs_of_pos (Real.exp_pos _)]
  apply Real.exp_le_one_iff.mpr
  have h1 : Real.exp (-(l ^ 2 * ((u / s.lX) ^ 2 + (v / s.lY) ^ 2))) ≤ 1 := by
    apply Real.exp_le_one_iff.mpr
    have : 0 ≤ l ^ 2 * ((u / s.lX) ^ 2 + (v / s.lY) ^ 2) := by positivity
    linarith
  have : 0 ≤ s.pv * (s.pvWavelength / l) ^ 2 * (1 - Real.exp (-(l ^ 2 * ((u / s.lX) ^ 2 + (v / s.lY) ^ 2)))) :=
    mul_nonneg (mul_nonneg hp (sq_nonneg _)) (by linarith)
  linarith

theorem turbMix_unit {l D r t vel u v : ℝ} (hl : 0 < l) (hD : 0 < D) (hr : 0 < r) (hv : 0 ≤ vel) (ht : 0 < t)
    {n : ℝ} (hn : 0 ≤ n) (hx : l * Real.sqrt (u ^ 2 + v ^ 2) / D ≤ 3) : |turbMix l D r (t * n) vel u v| ≤ 1 :=
  (turbMix_scale (δ := 0) (κ := 1) (WithinFactor.refl one_pos) (WithinFactor.refl ht) (WithinFactor.refl hr) (by norm_num) hl hD hv hn hx).2

/-- The system MTF at frequencies, with an exposure time and with weights that have small errors. -/
theorem system_change {δ κ δt τ t δw : ℝ} (h : WithinFactor δ κ 1) (ht : WithinFactor δt τ t) (hd : δ + δt ≤ 0.0005) (hdw : δw ≤ 0.02)
    {s : RealSensor} {pairs pairs' : List (ℝ × ℝ)} (hb : Band pairs)
    (hw : List.Forall₂ (fun p q : ℝ × ℝ => p.1 = q.1 ∧ WithinFactor δw p.2 q.2) pairs' pairs) (hD : 0 < s.D)
    (he : s.eta = 0 ∨ 0 < s.eta ∧ s.eta ≤ 0.9) (hp : 0 ≤ s.pv) (hph : ∀ p ∈ pairs, s.pv * (s.pvWavelength / p.1) ^ 2 ≤ 100)
    {cn2 vel : ℝ} {r : ℝ → ℝ} {u v : ℝ} (hx : ∀ p ∈ pairs, p.1 * Real.sqrt (u ^ 2 + v ^ 2) / s.D ≤ 2.9)
    (hturb : 0 < cn2 → 0 ≤ vel ∧ 0 ≤ s.nTdi ∧ ∀ p ∈ pairs, 0 < r p.1) :
    |systemAt s pairs' cn2 vel τ r (κ * u) (κ * v) - systemAt s pairs cn2 vel t r u v| ≤ 1500 * δ + 11 * δt + 7 * δw := by
  have h0 := h.nonneg
  have t0 := ht.nonneg
  have hk := factor_one h (by linarith)
  have w0 : 0 ≤ δw := by
    cases hw with
    | nil => exact absurd hb.total (by simp)
    | cons hpq _ => exact hpq.2.nonneg
  have heta : 0 ≤ s.eta ∧ s.eta < 1 := by
    rcases he with e | ⟨e1, e2⟩
    · rw [e]; norm_num
    · constructor <;> linarith
  have hρ : 0 ≤ Real.sqrt (u ^ 2 + v ^ 2) := Real.sqrt_nonneg _
  have hx' : ∀ p ∈ pairs, p.1 * Real.sqrt ((κ * u) ^ 2 + (κ * v) ^ 2) / s.D ≤ 3 := by
    intro p hp
    rw [radius_scale h.1, show p.1 * (κ * Real.sqrt (u ^ 2 + v ^ 2)) / s.D = κ * (p.1 * Real.sqrt (u ^ 2 + v ^ 2) / s.D) by ring]
    have hk2 : κ ≤ 1.01 := by have := (abs_le.mp hk).2; linarith
    have h29 := hx p hp
    have : 0 ≤ p.1 * Real.sqrt (u ^ 2 + v ^ 2) / s.D := div_nonneg (mul_nonneg (hb.positive p hp).le hρ) hD.le
    calc κ * (p.1 * Real.sqrt (u ^ 2 + v ^ 2) / s.D) ≤ 1.01 * 2.9 := mul_le_mul hk2 h29 this (by norm_num)
      _ ≤ 3 := by norm_num
  have AP := wmean_change (ε := 1400 * δ) hdw hw hb.weights hb.total (F' := fun l => diffractionMTF l s.D s.eta (κ * u) (κ * v))
    (F := fun l => diffractionMTF l s.D s.eta u v)
    (fun p _ => by have := mtf_range (lam := p.1) hD heta.1 heta.2 u v; rw [abs_of_nonneg this.1]; exact this.2)
    (fun p _ => by have := mtf_range (lam := p.1) hD heta.1 heta.2 (κ * u) (κ * v); rw [abs_of_nonneg this.1]; exact this.2)
    (fun p hp => diffraction_scale h (by linarith) (hb.positive p hp) hD he (by
      have := hx p hp
      rw [show Real.sqrt (u ^ 2 + v ^ 2) / (s.D / p.1) = p.1 * Real.sqrt (u ^ 2 + v ^ 2) / s.D by
        have := (hb.positive p hp).ne'; field_simp]
      linarith))
  have TU : |(if 0 < cn2 then wmean pairs' fun l => turbMix l s.D (r l) (τ * s.nTdi) vel (κ * u) (κ * v) else 1)
      - (if 0 < cn2 then wmean pairs fun l => turbMix l s.D (r l) (t * s.nTdi) vel u v else 1)| ≤ 4 * (δ + δt) + 2.2 * δw
      ∧ |(if 0 < cn2 then wmean pairs fun l => turbMix l s.D (r l) (t * s.nTdi) vel u v else 1)| ≤ 1
      ∧ |(if 0 < cn2 then wmean pairs' fun l => turbMix l s.D (r l) (τ * s.nTdi) vel (κ * u) (κ * v) else 1)| ≤ 1 := by
    by_cases hc : 0 < cn2
    · simp only [if_pos hc]
      obtain ⟨t1, t2, t3⟩ := hturb hc
      have T := fun p (hp : p ∈ pairs) => turbMix_scale h ht (WithinFactor.refl (t3 p hp)) (by linarith) (hb.positive p hp) hD t1 t2
        (u := u) (v := v) (by have := hx p hp; linarith)
      exact wmean_change hdw hw hb.weights hb.total (fun p hp => (T p hp).2)
        (fun p hp => turbMix_unit (hb.positive p hp) hD (t3 p hp) t1 ht.1 t2 (hx' p hp))
        (fun p hp => (T p hp).1.trans (by linarith))
    · simp only [if_neg hc, sub_self, abs_zero, abs_one, le_refl, and_true]
      linarith
  have WA := wmean_change (ε := 76 * δ) hdw hw hb.weights hb.total (F' := fun l => wavefrontMtf s l (κ * u) (κ * v))
    (F := fun l => wavefrontMtf s l u v) (fun p _ => wavefrontMtf_range hp _ _ _) (fun p _ => wavefrontMtf_range hp _ _ _)
    (fun p hpp => wavefrontMtf_scale h (by linarith) hp (hph p hpp) u v)
  have DE := detector_scale h (by linarith) s u v
  have JI := jitter_scale h (by linarith) s u v
  have DR := drift_scale h ht (by linarith) s u v
  have bde : ∀ u v, |detectorAt s u v| ≤ 1 := fun u v => prod_le_one (abs_sinc_le _) (abs_sinc_le _)
  have bdr : ∀ t u v, |driftAt s t u v| ≤ 1 := fun t u v => prod_le_one (abs_sinc_le _) (abs_sinc_le _)
  have bji : ∀ u v, |jitterAt s u v| ≤ 1 := by
    intro u v
    unfold jitterAt
    rw [abs_of_pos (Real.exp_pos _)]
    apply Real.exp_le_one_iff.mpr
    have : 0 ≤ 2 * Real.pi ^ 2 * ((s.sX * u) ^ 2 + (s.sY * v) ^ 2) := by positivity
    linarith
  have hwav : ∀ P u v, wavefrontAt s P u v = wmean P fun l => wavefrontMtf s l u v := fun _ _ _ => rfl
  unfold systemAt apertureAt
  rw [hwav, hwav]
  have m1 := prod_diff AP.1 TU.1 AP.2.1 TU.2.2
  have m2 := prod_diff m1 DE (prod_le_one AP.2.1 TU.2.1) (bde _ _)
  have m3 := prod_diff m2 JI (prod_le_one (prod_le_one AP.2.1 TU.2.1) (bde _ _)) (bji _ _)
  have m4 := prod_diff m3 DR (prod_le_one (prod_le_one (prod_le_one AP.2.1 TU.2.1) (bde _ _)) (bji _ _)) (bdr _ _ _)
  have m5 := prod_diff m4 WA.1 (prod_le_one (prod_le_one (prod_le_one (prod_le_one AP.2.1 TU.2.1) (bde _ _)) (bji _ _)) (bdr _ _ _)) WA.2.2
  exact m5.trans (by linarith)

end PyBSM
