import Verif.Lemmas.DoublePath
import Verif.Lemmas.DoubleMtf
import Verif.Props.DoubleEdge
import Verif.Spec.DoubleTurbulence

/-!
# Rounding errors of the turbulence profile and of the coherence diameter
-/

noncomputable section

open Classical

namespace PyBSM

open Spec

variable {fl : ℝ → ℝ} {L : MathLib}

/-- The exponential. -/
theorem Spec.MathLibrary.exp_within (hL : MathLibrary L) {z z' d : ℝ} (hd : |z' - z| ≤ d) :
    WithinFactor (d + 2e-15) (L.exp z') (Real.exp z) := by
  have h1 : WithinFactor d (Real.exp z') (Real.exp z) := ⟨Real.exp_pos _, Real.exp_pos _, by rw [Real.log_exp, Real.log_exp]; exact hd⟩
  have h2 : WithinFactor (2 * 1e-15) (L.exp z') (Real.exp z') := within_of_rel (Real.exp_pos _) (by norm_num) (hL.exp z')
  exact (h2.trans h1).mono (by linarith)

/-- Adding something small on both sides. -/
theorem within_add_small {δ a' a b' b : ℝ} (h : WithinFactor δ b' b) (a0 : 0 ≤ a) (a0' : 0 ≤ a') (ha : a ≤ 1e-13 * b)
    (ha' : a' ≤ 1e-13 * b') : WithinFactor (δ + 4e-13) (a' + b') (a + b) := by
  have h1 : WithinFactor (2 * 1e-13) (a + b) b := within_of_rel h.2.1 (by norm_num) (by
    rw [add_sub_cancel_right, abs_of_nonneg a0]; exact ha)
  have h2 : WithinFactor (2 * 1e-13) (a' + b') b' := within_of_rel h.1 (by norm_num) (by
    rw [add_sub_cancel_right, abs_of_nonneg a0']; exact ha')
  exact ((h2.trans h).trans h1.symm).mono (by linarith)

/-- The squares of the library. -/
theorem Spec.MathLibrary.sq_within (hL : MathLibrary L) {δ x' x : ℝ} (h : WithinFactor δ x' x) :
    WithinFactor (2 * δ + 2e-15) (L.sq x') (x ^ 2) := by
  have h1 : WithinFactor (2 * 1e-15) (L.sq x') (x' ^ 2) := within_of_rel (pow_pos h.1 2) (by norm_num) (hL.trig.sq x')
  have h2 : WithinFactor (2 * δ) (x' ^ (2 : ℝ)) (x ^ (2 : ℝ)) := h.rpow (by norm_num)
  rw [Real.rpow_two, Real.rpow_two] at h2
  exact (h1.trans h2).mono (by linarith)

/-- The powers of the library, with a rounded exponent. -/
theorem Spec.MathLibrary.pow_within (hL : MathLibrary L) {δ x' x p' p B : ℝ} (h : WithinFactor δ x' x) (hB : |Real.log x| ≤ B)
    (hp : |p' - p| ≤ 1.2e-16 * |p|) (p2 : |p| ≤ 2) (hd : δ ≤ 1) : WithinFactor (|p| * δ + 3e-16 * (B + 1) + 2e-15) (L.pow x' p') (x ^ p) := by
  have h1 : WithinFactor (2 * 1e-15) (L.pow x' p') (x' ^ p') :=
    within_of_rel (Real.rpow_pos_of_pos h.1 _) (by norm_num) (hL.pow x' p' h.1.le)
  have h2 : WithinFactor (|p| * δ + 2.4e-16 * (B + 1)) (x' ^ p') (x ^ p) := by
    refine ⟨Real.rpow_pos_of_pos h.1 _, Real.rpow_pos_of_pos h.2.1 _, ?_⟩
    rw [Real.log_rpow h.1, Real.log_rpow h.2.1]
    have h3 := h.2.2
    have hB' : |Real.log x'| ≤ B + 1 := by
      have := abs_sub_le (Real.log x') (Real.log x) 0
      simp only [sub_zero] at this
      linarith
    rw [show p' * Real.log x' - p * Real.log x = p * (Real.log x' - Real.log x) + (p' - p) * Real.log x' by ring]
    refine (abs_add_le _ _).trans ?_
    rw [abs_mul, abs_mul]
    have e1 : |p| * |Real.log x' - Real.log x| ≤ |p| * δ := mul_le_mul_of_nonneg_left h3 (abs_nonneg _)
    have e2 : |p' - p| * |Real.log x'| ≤ 2.4e-16 * (B + 1) :=
      mul_le_mul (hp.trans (by linarith)) hB' (abs_nonneg _) (by norm_num)
    linarith
  have hB0 : 0 ≤ B := (abs_nonneg _).trans hB
  exact (h1.trans h2).mono (by linarith)

/-- The exponentials of the profile. -/
theorem profile_exp (hfl : RoundsToNearest fl) (hL : MathLibrary L) {h' h c : ℝ} (hh : |h' - h| ≤ 5e-8) (l0 : -78200 ≤ h)
    (l1 : h ≤ 1000000) (hc : 100 ≤ c) : WithinFactor 6e-10 (L.exp (fl (-h' / c))) (Real.exp (-h / c)) := by
  have c0 : 0 < c := by linarith
  obtain ⟨a1, a2⟩ := abs_le.mp hh
  have e1 : |-h' / c| ≤ 1.1e4 := by
    rw [abs_div, abs_of_pos c0, div_le_iff₀ c0, abs_neg, abs_le]
    constructor <;> nlinarith
  have e2 := hfl.error_le e1
  have e3 : |-h' / c - -h / c| ≤ 5e-10 := by
    rw [← sub_div, abs_div, abs_of_pos c0, div_le_iff₀ c0, show -h' - -h = -(h' - h) by ring, abs_neg]
    linarith
  have := abs_sub_le (fl (-h' / c)) (-h' / c) (-h / c)
  exact (hL.exp_within (d := 5.1e-10) (by linarith)).mono (by norm_num)

/-- The tenth power of a height. -/
theorem tenth_power (hT : TenthPower L) {h' h : ℝ} (hh : |h' - h| ≤ 5e-8) (hb : 100 ≤ |h|) :
    WithinFactor 1.1e-8 (L.pow h' 10) (h ^ 10) := by
  have h0 : 0 < h ^ 2 := by
    rw [← sq_abs]
    exact pow_pos (by linarith) 2
  have e1 : |h' ^ 2 - h ^ 2| ≤ 1.01e-9 * h ^ 2 := by
    rw [show h' ^ 2 - h ^ 2 = (h' - h) * (h' + h) by ring, abs_mul, ← sq_abs h]
    have e : |h' + h| ≤ 2.01 * |h| := by
      have := abs_add_le (h' - h) (2 * h)
      rw [show h' - h + 2 * h = h' + h by ring, abs_mul, abs_two] at this
      linarith
    calc _ ≤ 5e-8 * (2.01 * |h|) := mul_le_mul hh e (abs_nonneg _) (by norm_num)
      _ ≤ 1.01e-9 * |h| ^ 2 := by nlinarith
  have h1 : WithinFactor (2 * 1.01e-9) (h' ^ 2) (h ^ 2) := within_of_rel h0 (by norm_num) e1
  have h2 : WithinFactor (5 * (2 * 1.01e-9)) ((h' ^ 2) ^ (5 : ℝ)) ((h ^ 2) ^ (5 : ℝ)) := h1.rpow (by norm_num)
  rw [show (5 : ℝ) = ((5 : ℕ) : ℝ) by norm_num, Real.rpow_natCast, Real.rpow_natCast, ← pow_mul, ← pow_mul] at h2
  norm_num at h2
  have h10 : 0 < h' ^ 10 := h2.1
  have h3 : WithinFactor (2 * 1e-15) (L.pow h' 10) (h' ^ 10) := within_of_rel h10 (by norm_num) (hT h')
  exact (h3.trans h2).mono (by norm_num)

theorem fl_up (hfl : RoundsToNearest fl) {x M : ℝ} (h0 : 0 ≤ x) (h1 : x ≤ M) : 0 ≤ fl x ∧ fl x ≤ 1.001 * M := by
  have := hfl.error x
  rw [abs_of_nonneg h0] at this
  obtain ⟨a1, a2⟩ := abs_le.mp this
  constructor <;> linarith

theorem mul_up {x y M N : ℝ} (h0 : 0 ≤ x) (h1 : x ≤ M) (k0 : 0 ≤ y) (k1 : y ≤ N) : 0 ≤ x * y ∧ x * y ≤ M * N :=
  ⟨mul_nonneg h0 k0, mul_le_mul h1 k1 k0 (h0.trans h1)⟩

/-- Close to the ground the wind term is negligible. -/
theorem wind_small (hfl : RoundsToNearest fl) (hL : MathLibrary L) (hT : TenthPower L) {v y e : ℝ} (v0 : 0 ≤ v) (v1 : v ≤ 1000)
    (hy : |y| ≤ 100.1) (e0 : 0 ≤ e) (e1 : e ≤ 1.15) :
    (0 ≤ fl (fl (fl (fl 5.94e-53 * L.sq (fl (v / 27))) * L.pow y 10) * e)
      ∧ fl (fl (fl (fl 5.94e-53 * L.sq (fl (v / 27))) * L.pow y 10) * e) ≤ 1e-29)
    ∧ 5.94e-53 * (v / 27) ^ 2 * y ^ 10 * e ≤ 1e-29 := by
  have p0 : 0 ≤ y ^ 10 := by
    rw [show y ^ 10 = (y ^ 5) ^ 2 by ring]
    positivity
  have p1 : y ^ 10 ≤ 100.1 ^ 10 := by
    have := pow_le_pow_left₀ (abs_nonneg y) hy 10
    rwa [← abs_pow, abs_of_nonneg p0] at this
  have hc := fl_up hfl (x := 5.94e-53) (by norm_num) le_rfl
  have hq := fl_up hfl (x := v / 27) (by positivity) (M := 1000 / 27) (by linarith)
  have hs : 0 ≤ L.sq (fl (v / 27)) ∧ L.sq (fl (v / 27)) ≤ 1.001 * (1.001 * (1000 / 27)) ^ 2 := by
    have h1 := abs_le.mp (hL.trig.sq (fl (v / 27)))
    have h2 := pow_le_pow_left₀ hq.1 hq.2 2
    have h3 := sq_nonneg (fl (v / 27))
    constructor <;> linarith
  have ht : 0 ≤ L.pow y 10 ∧ L.pow y 10 ≤ 1.001 * 100.1 ^ 10 := by
    have h1 := abs_le.mp (hT y)
    constructor <;> linarith
  have m1 := mul_up hc.1 hc.2 hs.1 hs.2
  have m2 := fl_up hfl m1.1 m1.2
  have m3 := mul_up m2.1 m2.2 ht.1 ht.2
  have m4 := fl_up hfl m3.1 m3.2
  have m5 := mul_up m4.1 m4.2 e0 e1
  have m6 := fl_up hfl m5.1 m5.2
  refine ⟨⟨m6.1, m6.2.trans (by norm_num)⟩, ?_⟩
  have n0 : (v / 27) ^ 2 ≤ (1000 / 27) ^ 2 := pow_le_pow_left₀ (by positivity) (by linarith) 2
  have n1 := mul_up (x := 5.94e-53) (by norm_num) le_rfl (sq_nonneg (v / 27)) n0
  have n2 := mul_up n1.1 n1.2 p0 p1
  have n3 := mul_up n2.1 n2.2 e0 e1
  exact n3.2.trans (by norm_num)

/-- The turbulence profile. -/
theorem profile_within (hfl : RoundsToNearest fl) (hL : MathLibrary L) (hT : TenthPower L) {v cn2 h' h : ℝ} (v0 : 0 ≤ v)
    (v1 : v ≤ 1000) (c0 : 0 < cn2) (hh : |h' - h| ≤ 5e-8) (l0 : -78200 ≤ h) (l1 : h ≤ 1000000) :
    WithinFactor 1.2e-8 (hvD fl L v cn2 h') (hv v cn2 h) := by
  have E1 := profile_exp hfl hL hh l0 l1 (c := 1000) (by norm_num)
  have E2 := profile_exp hfl hL hh l0 l1 (c := 1500) (by norm_num)
  have E3 := profile_exp hfl hL hh l0 l1 (c := 100) (by norm_num)
  have A2 := ((fl_within hfl (x := 2.7e-16) (by norm_num)).mul E2).round hfl
  have A3 := ((Spec.WithinFactor.refl c0).mul E3).round hfl
  have hA1 : 0 ≤ 5.94e-53 * (v / 27) ^ 2 * h ^ 10 * Real.exp (-h / 1000) := by
    have : 0 ≤ h ^ 10 := by
      rw [show h ^ 10 = (h ^ 5) ^ 2 by ring]
      positivity
    positivity
  unfold hvD hv
  have key : WithinFactor 1.19e-8 (fl (fl (fl (fl (fl 5.94e-53 * L.sq (fl (v / 27))) * L.pow h' 10) * L.exp (fl (-h' / 1000)))
      + fl (fl 2.7e-16 * L.exp (fl (-h' / 1500))))) (5.94e-53 * (v / 27) ^ 2 * h ^ 10 * Real.exp (-h / 1000)
        + 2.7e-16 * Real.exp (-h / 1500)) := by
    by_cases hv : 0 < v ∧ 100 ≤ |h|
    · have S := hL.sq_within (fl_within hfl (x := v / 27) (by linarith [hv.1]))
      have A1 := ((((((fl_within hfl (x := 5.94e-53) (by norm_num)).mul S).round hfl).mul (tenth_power hT hh hv.2)).round hfl).mul E1).round hfl
      exact (((A1.mono (δ' := 1.18e-8) (by norm_num)).add (A2.mono (by norm_num))).round hfl).mono (by norm_num)
    · rcases v0.eq_or_lt with hz | hz
      · -- no wind
        have hsq : L.sq 0 = 0 := by
          have := hL.trig.sq 0
          norm_num at this
          exact this
        rw [← hz]
        simp only [zero_div, hfl.zero, hsq, mul_zero, zero_mul, zero_add, ne_eq, OfNat.ofNat_ne_zero, not_false_eq_true, zero_pow]
        exact (A2.round hfl).mono (by norm_num)
      · -- low heights, where the wind term is negligible
        have hlow : |h| < 100 := by
          by_contra hc
          exact hv ⟨hz, not_lt.mp hc⟩
        obtain ⟨q1, q2⟩ := abs_lt.mp hlow
        obtain ⟨q3, q4⟩ := abs_le.mp hh
        have x1 : Real.exp (-h / 1000) ≤ 1.12 := by
          have k1 := Real.add_one_le_exp (h / 1000)
          have k2 : Real.exp (-h / 1000) * Real.exp (h / 1000) = 1 := by
            rw [← Real.exp_add]
            have : -h / 1000 + h / 1000 = 0 := by ring
            rw [this, Real.exp_zero]
          have k3 := Real.exp_pos (-h / 1000)
          nlinarith
        have x2 : (0.93 : ℝ) ≤ Real.exp (-h / 1500) := by
          have := Real.add_one_le_exp (-h / 1500)
          linarith
        have x3 := abs_le.mp (E1.error (by norm_num))
        have x4 := Real.exp_pos (-h / 1000)
        have x5 := abs_le.mp (A2.error (by norm_num))
        have w' := (wind_small hfl hL hT v0 v1 (y := h') (e := L.exp (fl (-h' / 1000))) (by rw [abs_le]; constructor <;> linarith) E1.1.le
          (by linarith)).1
        have w := (wind_small hfl hL hT v0 v1 (y := h) (by rw [abs_le]; constructor <;> linarith) x4.le (by linarith)).2
        refine ((within_add_small A2 hA1 w'.1 (w.trans ?_) (w'.2.trans ?_)).round hfl).mono (by norm_num)
        · linarith
        · linarith
  exact ((key.mono (δ' := 1.195e-8) (by norm_num)).add (A3.mono (by norm_num))).round hfl |>.mono (by norm_num)

end PyBSM
