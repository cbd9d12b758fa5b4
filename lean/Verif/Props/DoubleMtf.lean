import Verif.Lemmas.DoubleMtf
import Verif.Props.DoubleOtf
import Verif.Props.DoubleOtfClaims
import Verif.Props.SystemValue
import Verif.Props.DoubleEdge

/-!
# C118: the system MTF in double precision
-/

noncomputable section

open Classical

namespace PyBSM

open Spec

variable {fl : ℝ → ℝ} {L : MathLib}

/-! ## Detector, drift and jitter -/

theorem prod_apx (hfl : RoundsToNearest fl) (a b : ℝ) : Apx 1 (fl (a * b)) (a * b) |a * b| := by
  have := (Apx.of (le_refl |a * b|)).round hfl (by norm_num)
  simpa using this

/-- **C118** (detector). The computed detector MTF is within `10^-13` of the exact one at every frequency. -/
theorem C118_detector (hfl : RoundsToNearest fl) (hL : MathLibrary L) (s : RealSensor) (hf : s.f ≠ 0) (u v : ℝ) :
    |detectorD fl L s.wX s.wY s.f u v - detectorAt s u v| ≤ 1e-13 := by
  have key : ∀ w x : ℝ, |sincD fl L (fl (fl (w * x) / s.f)) - Real.sinc (Real.pi * (w * x / s.f))| ≤ 2.1e-14 := by
    intro w x
    have h := ((prod_apx hfl w x).div hf).round hfl (by norm_num)
    rw [← abs_div] at h
    exact (sinc_value hfl hL h (by norm_num) (by norm_num)).trans (by norm_num)
  have := mul_close hfl (key s.wX u) (key s.wY v) (abs_sinc_le _) (abs_sinc_le _) (by norm_num) (by norm_num)
  exact this.trans (by norm_num)

/-- **C118** (drift). The computed drift MTF is within `10^-13` of the exact one at every frequency, for every exposure. -/
theorem C118_drift (hfl : RoundsToNearest fl) (hL : MathLibrary L) (s : RealSensor) (t u v : ℝ) :
    |driftD fl L (fl (fl (s.daX * t) * s.nTdi)) (fl (fl (s.daY * t) * s.nTdi)) u v - driftAt s t u v| ≤ 1e-13 := by
  have key : ∀ a x : ℝ, |sincD fl L (fl (fl (fl (a * t) * s.nTdi) * x)) - Real.sinc (Real.pi * (a * t * s.nTdi * x))| ≤ 3.4e-14 := by
    intro a x
    have h := (((prod_apx hfl a t).mul (Apx.of (le_refl |s.nTdi|)) (by norm_num) (by norm_num)).round hfl (by norm_num))
    have h' := (h.mul (Apx.of (le_refl |x|)) (by norm_num) (by norm_num)).round hfl (by norm_num)
    rw [← abs_mul, ← abs_mul] at h'
    exact (sinc_value hfl hL h' (by norm_num) (by norm_num)).trans (by norm_num)
  have := mul_close hfl (key s.daX u) (key s.daY v) (abs_sinc_le _) (abs_sinc_le _) (by norm_num) (by norm_num)
  exact this.trans (by norm_num)

theorem sq_apx (hL : MathLibrary L) (x : ℝ) : Apx 1 (L.sq x) (x ^ 2) (x ^ 2) :=
  ⟨by have := hL.trig.sq x; linarith, (abs_of_nonneg (sq_nonneg x)).le⟩

theorem sq_lib (hL : MathLibrary L) {x' x : ℝ} (h : Apx 1 x' x |x|) : Apx 6 (L.sq x') (x ^ 2) (x ^ 2) := by
  have h1 := h.mul h (by norm_num) (by norm_num)
  rw [← sq, ← sq, ← sq, sq_abs] at h1
  have h2 := hL.trig.sq x'
  refine ⟨?_, (abs_of_nonneg (sq_nonneg _)).le⟩
  have h3 := h1.1
  have h4 := abs_sub_le (L.sq x') (x' ^ 2) (x ^ 2)
  have hb : 0 ≤ x ^ 2 := sq_nonneg _
  generalize x' ^ 2 = a at *
  generalize x ^ 2 = b at *
  have h5 := (abs_le.mp h3).2
  norm_num at *
  linarith

/-- **C118** (jitter). The computed jitter MTF is within `10^-13` of the exact one at every frequency. -/
theorem C118_jitter (hfl : RoundsToNearest fl) (hL : MathLibrary L) (s : RealSensor) (u v : ℝ) :
    |jitterD fl L s.sX s.sY u v - jitterAt s u v| ≤ 1e-13 := by
  have hpi := Real.pi_pos
  have PI : Apx 1 (fl Real.pi) Real.pi Real.pi := Apx.const hfl hpi.le
  have P2 : Apx 6 (L.sq (fl Real.pi)) (Real.pi ^ 2) (Real.pi ^ 2) := by
    exact sq_lib hL (by rw [abs_of_pos hpi]; exact PI)
  have C := ((Apx.of (x := -2) (m := 2) (by norm_num)).mul P2 (by norm_num) (by norm_num)).round hfl (by norm_num)
  have S : ∀ w x : ℝ, Apx 4 (fl (L.sq w * fl (x ^ 2))) ((w * x) ^ 2) ((w * x) ^ 2) := by
    intro w x
    have := ((sq_apx hL w).mul (Apx.const hfl (sq_nonneg x)) (by norm_num) (by norm_num)).round hfl (by norm_num)
    rw [mul_pow]
    exact this.mono (by norm_num)
  have A := ((S s.sX u).add (S s.sY v)).round hfl (by norm_num)
  rw [max_self] at A
  have Z := (C.mul A (by norm_num) (by norm_num)).round hfl (by norm_num)
  have := hL.exp_rel (k := 20) (z' := fl (fl (-2 * L.sq (fl Real.pi)) * fl (fl (L.sq s.sX * fl (u ^ 2)) + fl (L.sq s.sY * fl (v ^ 2)))))
    (a := 2 * Real.pi ^ 2 * ((s.sX * u) ^ 2 + (s.sY * v) ^ 2)) (by
      have Z' := Z.mono (k' := 20) (by norm_num)
      rw [show -2 * Real.pi ^ 2 * ((s.sX * u) ^ 2 + (s.sY * v) ^ 2) = -(2 * Real.pi ^ 2 * ((s.sX * u) ^ 2 + (s.sY * v) ^ 2)) by ring] at Z'
      exact Z') (by norm_num) (by norm_num)
  exact this.1.trans (by norm_num)

/-! ## Wavefront errors -/

theorem quot_sq_apx (hfl : RoundsToNearest fl) (x : ℝ) {d : ℝ} : Apx 4 (fl (fl (x / d) ^ 2)) ((x / d) ^ 2) ((x / d) ^ 2) := by
  have h := (Apx.of (le_refl |x / d|)).round hfl (by norm_num)
  have := (h.mul h (by norm_num) (by norm_num)).round hfl (by norm_num)
  rw [← sq, ← sq, ← sq, sq_abs] at this
  exact this.mono (by norm_num)

/-- **C118** (wavefront errors). The computed wavefront MTF at one wavelength is within `10^-11` of the exact one, for a phase
variance of at most 100 at that wavelength. -/
theorem C118_wavefront (hfl : RoundsToNearest fl) (hL : MathLibrary L) (s : RealSensor) (hp : 0 ≤ s.pv) {l : ℝ}
    (hpv : s.pv * (s.pvWavelength / l) ^ 2 ≤ 100) (u v : ℝ) :
    |wavefrontD fl L l (fl (s.pv * L.sq (fl (s.pvWavelength / l)))) s.lX s.lY u v - wavefrontMtf s l u v| ≤ 1e-11 := by
  unfold wavefrontD wavefrontMtf
  dsimp only
  have A := ((quot_sq_apx hfl u (d := s.lX)).add (quot_sq_apx hfl v (d := s.lY))).round hfl (by norm_num)
  rw [max_self] at A
  have Z := ((sq_apx hL l).neg.mul A (by norm_num) (by norm_num)).round hfl (by norm_num)
  rw [show -l ^ 2 * ((u / s.lX) ^ 2 + (v / s.lY) ^ 2) = -(l ^ 2 * ((u / s.lX) ^ 2 + (v / s.lY) ^ 2)) by ring] at Z
  obtain ⟨h1, -⟩ := hL.exp_rel Z (by norm_num) (by norm_num)
  have ha0 : 0 ≤ l ^ 2 * ((u / s.lX) ^ 2 + (v / s.lY) ^ 2) := by positivity
  have hc0 := Real.exp_pos (-(l ^ 2 * ((u / s.lX) ^ 2 + (v / s.lY) ^ 2)))
  have hc1 : Real.exp (-(l ^ 2 * ((u / s.lX) ^ 2 + (v / s.lY) ^ 2))) ≤ 1 := Real.exp_le_one_iff.mpr (by linarith)
  have P2 : Apx 6 (L.sq (fl (s.pvWavelength / l))) ((s.pvWavelength / l) ^ 2) ((s.pvWavelength / l) ^ 2) := by
    have h := (Apx.of (le_refl |s.pvWavelength / l|)).round hfl (by norm_num)
    exact sq_lib hL (h.mono (by norm_num))
  have P := ((Apx.of (abs_of_nonneg hp).le).mul P2 (by norm_num) (by norm_num)).round hfl (by norm_num)
  have hP0 : 0 ≤ s.pv * (s.pvWavelength / l) ^ 2 := by positivity
  have hP := P.1
  generalize fl (s.pv * L.sq (fl (s.pvWavelength / l))) = P' at *
  generalize s.pv * (s.pvWavelength / l) ^ 2 = p at *
  generalize L.exp _ = c' at *
  generalize Real.exp (-(l ^ 2 * ((u / s.lX) ^ 2 + (v / s.lY) ^ 2))) = c at *
  have hd : |1 - c' - (1 - c)| ≤ 1.5e-14 := by
    rw [show 1 - c' - (1 - c) = -(c' - c) by ring, abs_neg]
    exact h1.trans (by norm_num)
  have hd1 : |1 - c'| ≤ 1.1 := by
    obtain ⟨b1, b2⟩ := abs_le.mp hd
    rw [abs_le]; constructor <;> linarith
  have hh : |fl (1 - c') - (1 - c)| ≤ 2e-14 := by
    have := fl_close hfl hd1
    have := abs_sub_le (fl (1 - c')) (1 - c') (1 - c)
    linarith
  have hh1 : |fl (1 - c')| ≤ 1.1 := by
    obtain ⟨b1, b2⟩ := abs_le.mp hh
    rw [abs_le]; constructor <;> linarith
  generalize fl (1 - c') = h' at *
  have hm : |-P' * h' - -(p * (1 - c))| ≤ 2.9e-12 := by
    have e : -P' * h' - -(p * (1 - c)) = -((P' - p) * h' + p * (h' - (1 - c))) := by ring
    rw [e, abs_neg]
    refine (abs_add_le _ _).trans ?_
    rw [abs_mul, abs_mul, abs_of_nonneg hP0]
    have e1 : |P' - p| * |h'| ≤ 8e-13 * 1.1 := mul_le_mul (by linarith) hh1 (abs_nonneg _) (by norm_num)
    have e2 : p * |h' - (1 - c)| ≤ 100 * 2e-14 := mul_le_mul hpv hh (abs_nonneg _) (by norm_num)
    linarith
  have hz0 : -(p * (1 - c)) ≤ 0 := by
    have : 0 ≤ p * (1 - c) := mul_nonneg hP0 (by linarith)
    linarith
  have hz1 : |-P' * h'| ≤ 101 := by
    have : p * (1 - c) ≤ 100 := by nlinarith
    obtain ⟨b1, b2⟩ := abs_le.mp hm
    rw [abs_le]; constructor <;> linarith
  have hz : |fl (-P' * h') - -(p * (1 - c))| ≤ 3e-12 := by
    have := fl_close hfl hz1
    have := abs_sub_le (fl (-P' * h')) (-P' * h') (-(p * (1 - c)))
    linarith
  have hfin := hL.exp_abs hz hz0 (by norm_num)
  linarith

/-! ## Turbulence -/

theorem libpow_within (hfl : RoundsToNearest fl) (hL : MathLibrary L) {x' x p : ℝ} (h : WithinFactor 2e-14 x' x) (hx : Ordinary x) (hp : 0 < p)
    (hp2 : p ≤ 2) : WithinFactor 1e-13 (L.pow x' (fl p)) (x ^ p) := by
  have hfp : |fl p - p| ≤ 2.4e-16 := (fl_close hfl (B := 2) (by rw [abs_of_pos hp]; exact hp2)).trans (by norm_num)
  obtain ⟨f1, f2⟩ := abs_le.mp hfp
  have hfp0 : 0 ≤ fl p := by have := hfl.mono hp.le; rwa [hfl.zero] at this
  have h1 : WithinFactor 2e-15 (L.pow x' (fl p)) (x' ^ fl p) := by
    have := within_of_rel (Real.rpow_pos_of_pos h.1 _) (by norm_num) (hL.pow x' (fl p) h.1.le)
    exact this.mono (by norm_num)
  have h2 : WithinFactor (5e-14) (x' ^ fl p) (x ^ fl p) := (h.rpow hfp0).mono (by nlinarith)
  have h3 : WithinFactor (2.4e-14) (x ^ fl p) (x ^ p) := by
    have hx0 := h.2.1
    refine ⟨Real.rpow_pos_of_pos hx0 _, Real.rpow_pos_of_pos hx0 _, ?_⟩
    rw [Real.log_rpow hx0, Real.log_rpow hx0, ← sub_mul, abs_mul]
    have hlog : |Real.log x| ≤ 70 := by
      have l30 : Real.log 1e30 ≤ 70 := by
        rw [show (1e30 : ℝ) = 10 ^ 30 by norm_num, Real.log_pow]
        have := log_ten_le
        push_cast
        linarith
      have u := Real.log_le_log hx0 hx.2
      have l := Real.log_le_log (by norm_num) hx.1
      rw [show (1e-30 : ℝ) = (1e30)⁻¹ by norm_num, Real.log_inv] at l
      rw [abs_le]; constructor <;> linarith
    calc |fl p - p| * |Real.log x| ≤ 2.4e-16 * 70 := mul_le_mul hfp hlog (abs_nonneg _) (by norm_num)
      _ ≤ 2.4e-14 := by norm_num
  exact ((h1.trans h2).trans h3).mono (by norm_num)

/-- The computed turbulence MTF for the exposures used. -/
theorem turbulence_value (hfl : RoundsToNearest fl) (hL : MathLibrary L) {l D r alpha u v : ℝ} (ha : 0 ≤ alpha) (ha1 : alpha ≤ 0.5)
    (ho : OrdinaryTurbulence l D r (Real.sqrt (u ^ 2 + v ^ 2))) :
    |turbulenceD fl L l D r alpha u v - Real.exp (-(3.44 * (l * Real.sqrt (u ^ 2 + v ^ 2) / r) ^ ((5 : ℝ) / 3)
      * (1 - alpha * (l * Real.sqrt (u ^ 2 + v ^ 2) / D) ^ ((1 : ℝ) / 3))))| ≤ 9e-13 := by
  obtain ⟨hl0, hD0, hr0, hcase⟩ := ho
  unfold turbulenceD
  dsimp only
  have R := radial_apx hfl u v
  have M := ((Apx.of (abs_of_pos hl0).le).mul R (by norm_num) (by norm_num)).round hfl (by norm_num)
  rcases hcase with h0 | ⟨hX, hY, hY3⟩
  · have hm0 : fl (l * radialD fl u v) = 0 := by
      have := M.1
      rw [h0, mul_zero, mul_zero, sub_zero] at this
      exact abs_nonpos_iff.mp this
    have z : ∀ p : ℝ, 0 < p → L.pow 0 p = 0 := by
      intro p hp
      have := hL.pow 0 p le_rfl
      rw [Real.zero_rpow hp.ne', mul_zero, sub_zero] at this
      exact abs_nonpos_iff.mp this
    have hp5 : 0 < fl (5 / 3) := by
      obtain ⟨b, -⟩ := abs_le.mp (hfl.error (5 / 3))
      norm_num at b
      linarith
    simp only [hm0, zero_div, hfl.zero, z _ hp5, mul_zero, zero_mul, h0]
    rw [Real.zero_rpow (by norm_num)]
    have := hL.exp 0
    simp only [Real.exp_zero, mul_zero, zero_mul, neg_zero] at this ⊢
    exact this.trans (by norm_num)
  · have hs0 := Real.sqrt_nonneg (u ^ 2 + v ^ 2)
    have hρ : 0 < l * Real.sqrt (u ^ 2 + v ^ 2) := by
      rcases hs0.eq_or_lt with h | h
      · rw [← h, mul_zero, zero_div] at hX
        have := hX.1
        norm_num at this
      · exact mul_pos hl0 h
    have W : WithinFactor 1.2e-14 (fl (l * radialD fl u v)) (l * Real.sqrt (u ^ 2 + v ^ 2)) :=
      (within_of_rel (ε := 5e-15) hρ (by norm_num) (by have := M.1; norm_num at this ⊢; linarith)).mono (by norm_num)
    have WX : WithinFactor 2e-14 (fl (fl (l * radialD fl u v) / r)) (l * Real.sqrt (u ^ 2 + v ^ 2) / r) :=
      ((W.div (WithinFactor.refl hr0)).round hfl).mono (by norm_num)
    have WY : WithinFactor 2e-14 (fl (fl (l * radialD fl u v) / D)) (l * Real.sqrt (u ^ 2 + v ^ 2) / D) :=
      ((W.div (WithinFactor.refl hD0)).round hfl).mono (by norm_num)
    have PX := (libpow_within hfl hL WX hX (by norm_num : (0 : ℝ) < 5 / 3) (by norm_num)).error (by norm_num)
    have PY := (libpow_within hfl hL WY hY (by norm_num : (0 : ℝ) < 1 / 3) (by norm_num)).error (by norm_num)
    have hY13 : (l * Real.sqrt (u ^ 2 + v ^ 2) / D) ^ ((1 : ℝ) / 3) ≤ 1.45 := by
      have h1 : (l * Real.sqrt (u ^ 2 + v ^ 2) / D) ^ ((1 : ℝ) / 3) ≤ ((1.45 : ℝ) ^ (3 : ℝ)) ^ ((1 : ℝ) / 3) :=
        Real.rpow_le_rpow (by positivity) (hY3.trans (by norm_num)) (by norm_num)
      rwa [← Real.rpow_mul (by norm_num), show (3 : ℝ) * (1 / 3) = 1 by norm_num, Real.rpow_one] at h1
    have hX0 : 0 ≤ (l * Real.sqrt (u ^ 2 + v ^ 2) / r) ^ ((5 : ℝ) / 3) := by positivity
    have hY0 : 0 ≤ (l * Real.sqrt (u ^ 2 + v ^ 2) / D) ^ ((1 : ℝ) / 3) := by positivity
    generalize L.pow (fl (fl (l * radialD fl u v) / r)) (fl (5 / 3)) = X' at *
    generalize L.pow (fl (fl (l * radialD fl u v) / D)) (fl (1 / 3)) = Y' at *
    generalize (l * Real.sqrt (u ^ 2 + v ^ 2) / r) ^ ((5 : ℝ) / 3) = X at *
    generalize (l * Real.sqrt (u ^ 2 + v ^ 2) / D) ^ ((1 : ℝ) / 3) = Y at *
    have AX : Apx 102 X' X X := ⟨PX.trans (by nlinarith), (abs_of_nonneg hX0).le⟩
    have AY : Apx 102 Y' Y Y := ⟨PY.trans (by nlinarith), (abs_of_nonneg hY0).le⟩
    have C := (((Apx.const hfl (x := 3.44) (by norm_num)).neg.mul AX (by norm_num) (by norm_num)).round hfl (by norm_num))
    have B := ((Apx.of (abs_of_nonneg ha).le).mul AY (by norm_num) (by norm_num)).round hfl (by norm_num)
    have hB1 : alpha * Y ≤ 0.725 := by nlinarith
    have hB0 : 0 ≤ alpha * Y := mul_nonneg ha hY0
    have F0 := ((Apx.of (x := 1) (m := 1) (by norm_num)).sub B).round hfl (by norm_num)
    have hq : 0.275 ≤ 1 - alpha * Y := by linarith
    have F : Apx 700 (fl (1 - fl (alpha * Y'))) (1 - alpha * Y) (1 - alpha * Y) := by
      refine ⟨?_, (abs_of_nonneg (by linarith)).le⟩
      have := F0.1
      have e : max 0 (0 + 102 + 1 + 1) + 1 = (105 : ℝ) := by norm_num
      rw [e] at this
      linarith
    have Z := (C.mul F (by norm_num) (by norm_num)).round hfl (by norm_num)
    have := hL.exp_rel (k := 850) (a := 3.44 * X * (1 - alpha * Y)) (by
      have Z' := Z.mono (k' := 850) (by norm_num)
      rw [show -3.44 * X * (1 - alpha * Y) = -(3.44 * X * (1 - alpha * Y)) by ring] at Z'
      exact Z') (by norm_num) (by norm_num)
    have hfin := this.1
    linarith

/-- **C118** (turbulence). The computed turbulence MTF at one wavelength is within `10^-11` of the exact one for the
coherence diameter `r` the program uses. -/
theorem C118_turbulence (hfl : RoundsToNearest fl) (hL : MathLibrary L) {l D r t n vel u v : ℝ} (hv : 0 ≤ vel) (ht : 0 ≤ t * n)
    (ho : OrdinaryTurbulence l D r (Real.sqrt (u ^ 2 + v ^ 2))) :
    |windD fl L l D r (fl (t * n)) vel u v - turbMix l D r (t * n) vel u v| ≤ 1e-11 ∧ |turbMix l D r (t * n) vel u v| ≤ 1 := by
  have T5 := turbulence_value hfl hL (alpha := 0.5) (by norm_num) le_rfl ho
  have T0 := turbulence_value hfl hL (alpha := 0) le_rfl (by norm_num) ho
  rw [zero_mul, sub_zero, mul_one] at T0
  have hr0 := ho.2.2.1
  have W := ((((Apx.of (abs_of_nonneg hv).le).neg.mul (Apx.const hfl ht) (by norm_num) (by norm_num)).round hfl (by norm_num)).div
    hr0.ne').round hfl (by norm_num)
  rw [abs_of_pos hr0, show -vel * (t * n) / r = -(vel * (t * n) / r) by ring] at W
  obtain ⟨w1, -⟩ := hL.exp_rel W (by norm_num) (by norm_num)
  have ha0 : 0 ≤ vel * (t * n) / r := by positivity
  have hw0 := Real.exp_pos (-(vel * (t * n) / r))
  have hw1 : Real.exp (-(vel * (t * n) / r)) ≤ 1 := Real.exp_le_one_iff.mpr (by linarith)
  have hX : 0 ≤ (l * Real.sqrt (u ^ 2 + v ^ 2) / r) ^ ((5 : ℝ) / 3) := by
    have := ho.1
    positivity
  have hY : (l * Real.sqrt (u ^ 2 + v ^ 2) / D) ^ ((1 : ℝ) / 3) ≤ 1.45 := by
    have hD0 := ho.2.1
    have hl0 := ho.1
    have hq : l * Real.sqrt (u ^ 2 + v ^ 2) / D ≤ 3 := by
      rcases ho.2.2.2 with h | h
      · rw [h]; norm_num
      · exact h.2.2
    have h1 : (l * Real.sqrt (u ^ 2 + v ^ 2) / D) ^ ((1 : ℝ) / 3) ≤ ((1.45 : ℝ) ^ (3 : ℝ)) ^ ((1 : ℝ) / 3) :=
      Real.rpow_le_rpow (by positivity) (hq.trans (by norm_num)) (by norm_num)
    rwa [← Real.rpow_mul (by norm_num), show (3 : ℝ) * (1 / 3) = 1 by norm_num, Real.rpow_one] at h1
  unfold windD turbMix
  dsimp only
  have e5 : Real.exp (-(3.44 * (l * Real.sqrt (u ^ 2 + v ^ 2) / r) ^ ((5 : ℝ) / 3)
      * (1 - 0.5 * (l * Real.sqrt (u ^ 2 + v ^ 2) / D) ^ ((1 : ℝ) / 3)))) ≤ 1 := by
    apply Real.exp_le_one_iff.mpr
    have : 0 ≤ 3.44 * (l * Real.sqrt (u ^ 2 + v ^ 2) / r) ^ ((5 : ℝ) / 3)
      * (1 - 0.5 * (l * Real.sqrt (u ^ 2 + v ^ 2) / D) ^ ((1 : ℝ) / 3)) :=
      mul_nonneg (by positivity) (by linarith)
    linarith
  have e0 : Real.exp (-(3.44 * (l * Real.sqrt (u ^ 2 + v ^ 2) / r) ^ ((5 : ℝ) / 3))) ≤ 1 := by
    apply Real.exp_le_one_iff.mpr
    linarith
  have p5 := Real.exp_pos (-(3.44 * (l * Real.sqrt (u ^ 2 + v ^ 2) / r) ^ ((5 : ℝ) / 3)
      * (1 - 0.5 * (l * Real.sqrt (u ^ 2 + v ^ 2) / D) ^ ((1 : ℝ) / 3))))
  have p0 := Real.exp_pos (-(3.44 * (l * Real.sqrt (u ^ 2 + v ^ 2) / r) ^ ((5 : ℝ) / 3)))
  generalize Real.exp (-(3.44 * (l * Real.sqrt (u ^ 2 + v ^ 2) / r) ^ ((5 : ℝ) / 3)
      * (1 - 0.5 * (l * Real.sqrt (u ^ 2 + v ^ 2) / D) ^ ((1 : ℝ) / 3)))) = E5 at *
  generalize Real.exp (-(3.44 * (l * Real.sqrt (u ^ 2 + v ^ 2) / r) ^ ((5 : ℝ) / 3))) = E0 at *
  generalize turbulenceD fl L l D r 0.5 u v = T5' at *
  generalize turbulenceD fl L l D r 0 u v = T0' at *
  generalize L.exp (fl (fl (-vel * fl (t * n)) / r)) = w' at *
  generalize Real.exp (-(vel * (t * n) / r)) = w at *
  have w2 : |w' - w| ≤ 1e-14 := w1.trans (by norm_num)
  obtain ⟨w3, w4⟩ := abs_le.mp w2
  have h1 := mul_close hfl w2 T5 (by rw [abs_of_pos hw0]; exact hw1) (by rw [abs_of_pos p5]; exact e5) (by norm_num) (by norm_num)
  have g1 : |1 - w'| ≤ 2 := by rw [abs_le]; constructor <;> linarith
  have g2 : |fl (1 - w') - (1 - w)| ≤ 2e-14 := by
    have := fl_close hfl g1
    have h := abs_sub_le (fl (1 - w')) (1 - w') (1 - w)
    rw [show 1 - w' - (1 - w) = -(w' - w) by ring, abs_neg] at h
    linarith
  have h2 := mul_close hfl g2 T0 (by rw [abs_le]; constructor <;> linarith) (by rw [abs_of_pos p0]; exact e0) (by norm_num) (by norm_num)
  have c1 : 0 ≤ w * E5 := by positivity
  have c2 : 0 ≤ (1 - w) * E0 := mul_nonneg (by linarith) p0.le
  have c3 : w * E5 + (1 - w) * E0 ≤ 1 := by nlinarith
  refine ⟨?_, by rw [abs_of_nonneg (by linarith)]; exact c3⟩
  generalize fl (w' * T5') = A' at *
  generalize fl (fl (1 - w') * T0') = B' at *
  generalize w * E5 = A at *
  generalize (1 - w) * E0 = B at *
  have h3 : |A' + B' - (A + B)| ≤ 3e-12 := by
    rw [show A' + B' - (A + B) = (A' - A) + (B' - B) by ring]
    exact (abs_add_le _ _).trans (by linarith)
  have h4 : |A' + B'| ≤ 2 := by
    obtain ⟨b1, b2⟩ := abs_le.mp h3
    rw [abs_le]; constructor <;> linarith
  have := fl_close hfl h4
  have := abs_sub_le (fl (A' + B')) (A' + B') (A + B)
  linarith

/-! ## The system -/

/-- With Fried's coherence diameter the system is the one of C69. -/
theorem systemAt_optics (s : RealSensor) (g : RealScene) (pairs : List (ℝ × ℝ)) (t u v : ℝ) :
    systemAt s pairs g.cn2 g.aircraftSpeed t (fried g.altitude g.groundRange g.windSpeed g.cn2) u v = opticsAt s g pairs t u v := rfl

theorem system_value (hfl : RoundsToNearest fl) (hL : MathLibrary L) {s : RealSensor} {order : SumTree} {pairs : List (ℝ × ℝ)}
    {cn2 vel t : ℝ} {r : ℝ → ℝ} {u v : ℝ} (h : OrdinarySystem s order pairs cn2 vel t r u v) :
    |systemD fl L order s pairs cn2 vel t r u v - systemAt s pairs cn2 vel t r u v| ≤ 1.1e-6
      ∧ |systemAt s pairs cn2 vel t r u v| ≤ 1 := by
  have hb := h.band
  have heta : 0 ≤ s.eta ∧ s.eta < 1 := by
    rcases h.obscuration with e | ⟨e1, e2, -⟩
    · rw [e]; norm_num
    · constructor <;> linarith
  -- the aperture
  have AP := weighted_value hfl h.adds h.rounds h.few hb.weights hb.total (ε := 1e-6)
    (F' := fun l => (apertureD fl L.sq L.acos L.sin L.tan L.atan l s.D s.eta u v).number)
    (F := fun l => diffractionMTF l s.D s.eta u v) (by
      intro p hp
      have hl := hb.positive p hp
      have hr := mtf_range (lam := p.1) h.aperture heta.1 heta.2 u v
      refine ⟨?_, by rw [abs_of_nonneg hr.1]; exact hr.2⟩
      rcases h.obscuration with e | ⟨e1, e2, e3⟩
      · rw [e]
        obtain ⟨x, hx, hx'⟩ := C117_clear hfl hL.trig hl h.aperture u v
        simp only [hx, XR.number]
        linarith
      · obtain ⟨x, hx, hx'⟩ := C117_obscured hfl hL.trig hl h.aperture e1 e2 u v
        simp only [hx, XR.number]
        rcases hx' with hx' | ⟨hx', -⟩
        · exact hx'
        · exact absurd hx' (not_le.mpr (e3 p hp))) (by norm_num)
  have TU : |(if 0 < cn2 then weightedD fl order pairs fun l => windD fl L l s.D (r l) (fl (t * s.nTdi)) vel u v else 1)
      - (if 0 < cn2 then wmean pairs fun l => turbMix l s.D (r l) (t * s.nTdi) vel u v else 1)| ≤ 1.3e-11
      ∧ |(if 0 < cn2 then wmean pairs fun l => turbMix l s.D (r l) (t * s.nTdi) vel u v else 1)| ≤ 1 := by
    by_cases hc : 0 < cn2
    · simp only [if_pos hc]
      obtain ⟨t1, t2, t3⟩ := h.turbulence hc
      have := weighted_value hfl h.adds h.rounds h.few hb.weights hb.total (ε := 1e-11)
        (F' := fun l => windD fl L l s.D (r l) (fl (t * s.nTdi)) vel u v)
        (F := fun l => turbMix l s.D (r l) (t * s.nTdi) vel u v)
        (fun p hp => C118_turbulence hfl hL t1 t2 (t3 p hp)) (by norm_num)
      exact ⟨this.1.trans (by norm_num), this.2⟩
    · simp only [if_neg hc, sub_self, abs_zero, abs_one, le_refl, and_true]
      norm_num
  have WA := weighted_value hfl h.adds h.rounds h.few hb.weights hb.total (ε := 1e-11)
    (F' := fun l => wavefrontD fl L l (fl (s.pv * L.sq (fl (s.pvWavelength / l)))) s.lX s.lY u v)
    (F := fun l => wavefrontMtf s l u v) (by
      intro p hp
      refine ⟨C118_wavefront hfl hL s h.phase.1 (h.phase.2 p hp) u v, ?_⟩
      unfold wavefrontMtf
      rw [abs_of_pos (Real.exp_pos _)]
      apply Real.exp_le_one_iff.mpr
      have h1 : Real.exp (-(p.1 ^ 2 * ((u / s.lX) ^ 2 + (v / s.lY) ^ 2))) ≤ 1 := by
        apply Real.exp_le_one_iff.mpr
        have : 0 ≤ p.1 ^ 2 * ((u / s.lX) ^ 2 + (v / s.lY) ^ 2) := by positivity
        linarith
      have : 0 ≤ s.pv * (s.pvWavelength / p.1) ^ 2 * (1 - Real.exp (-(p.1 ^ 2 * ((u / s.lX) ^ 2 + (v / s.lY) ^ 2)))) :=
        mul_nonneg (mul_nonneg h.phase.1 (sq_nonneg _)) (by linarith)
      linarith) (by norm_num)
  have DE := C118_detector hfl hL s h.focal u v
  have JI := C118_jitter hfl hL s u v
  have DR := C118_drift hfl hL s t u v
  have bde : |detectorAt s u v| ≤ 1 := by
    unfold detectorAt
    rw [abs_mul]
    exact mul_le_one₀ (abs_sinc_le _) (abs_nonneg _) (abs_sinc_le _)
  have bdr : |driftAt s t u v| ≤ 1 := by
    unfold driftAt
    rw [abs_mul]
    exact mul_le_one₀ (abs_sinc_le _) (abs_nonneg _) (abs_sinc_le _)
  have bji : |jitterAt s u v| ≤ 1 := by
    unfold jitterAt
    rw [abs_of_pos (Real.exp_pos _)]
    apply Real.exp_le_one_iff.mpr
    have : 0 ≤ 2 * Real.pi ^ 2 * ((s.sX * u) ^ 2 + (s.sY * v) ^ 2) := by positivity
    linarith
  have hwav : wavefrontAt s pairs u v = wmean pairs fun l => wavefrontMtf s l u v := rfl
  unfold systemD systemAt apertureAt
  dsimp only
  rw [hwav]
  generalize weightedD fl order pairs (fun l => (apertureD fl L.sq L.acos L.sin L.tan L.atan l s.D s.eta u v).number) = a' at *
  generalize wmean pairs (fun l => diffractionMTF l s.D s.eta u v) = a at *
  generalize (if 0 < cn2 then weightedD fl order pairs fun l => windD fl L l s.D (r l) (fl (t * s.nTdi)) vel u v else 1) = b' at *
  generalize (if 0 < cn2 then wmean pairs fun l => turbMix l s.D (r l) (t * s.nTdi) vel u v else 1) = b at *
  generalize weightedD fl order pairs (fun l => wavefrontD fl L l (fl (s.pv * L.sq (fl (s.pvWavelength / l)))) s.lX s.lY u v) = w' at *
  generalize wmean pairs (fun l => wavefrontMtf s l u v) = w at *
  generalize detectorD fl L s.wX s.wY s.f u v = c' at *
  generalize detectorAt s u v = c at *
  generalize jitterD fl L s.sX s.sY u v = j' at *
  generalize jitterAt s u v = j at *
  generalize driftD fl L (fl (fl (s.daX * t) * s.nTdi)) (fl (fl (s.daY * t) * s.nTdi)) u v = d' at *
  generalize driftAt s t u v = d at *
  have le1 : ∀ {x y : ℝ}, |x| ≤ 1 → |y| ≤ 1 → |x * y| ≤ 1 := by
    intro x y hx hy
    rw [abs_mul]
    exact mul_le_one₀ hx (abs_nonneg _) hy
  have m1 := mul_close hfl AP.1 TU.1 AP.2 TU.2 (by norm_num) (by norm_num)
  have b1 := le1 AP.2 TU.2
  have m2 := mul_close hfl m1 DE b1 bde (by norm_num) (by norm_num)
  have b2 := le1 b1 bde
  have m3 := mul_close hfl m2 JI b2 bji (by norm_num) (by norm_num)
  have b3 := le1 b2 bji
  have m4 := mul_close hfl m3 DR b3 bdr (by norm_num) (by norm_num)
  have b4 := le1 b3 bdr
  have m5 := mul_close hfl m4 WA.1 b4 WA.2 (by norm_num) (by norm_num)
  have b5 := le1 b4 WA.2
  have m6 := mul_close hfl m5 (b' := 1) (b := 1) (e := 0) (by norm_num) b5 (by norm_num) (by norm_num) (by norm_num)
  rw [mul_one (a * b * c * j * d * w)] at m6
  exact ⟨m6.trans (by norm_num), b5⟩

/-- **C118** (system). The system MTF computed in double precision is within `1.1 * 10^-6` of the exact one, for every ordinary
system at every frequency at which the obscuration is not misjudged. -/
theorem C118_system (hfl : RoundsToNearest fl) (hL : MathLibrary L) {s : RealSensor} {order : SumTree} {pairs : List (ℝ × ℝ)}
    {cn2 vel t : ℝ} {r : ℝ → ℝ} {u v : ℝ} (h : OrdinarySystem s order pairs cn2 vel t r u v) :
    |systemD fl L order s pairs cn2 vel t r u v - systemAt s pairs cn2 vel t r u v| ≤ 1.1e-6 :=
  (system_value hfl hL h).1

/-- **C118** (edges). The relative edge response computed in double precision from a slice of the system MTF computed in
double precision differs from the exact one by at most a few parts in a million, times the highest frequency of the slice
in cycles per pixel: `f · ifov` with `f = (n - 1) · df`. -/
theorem C118_edges (hfl : RoundsToNearest fl) (hL : MathLibrary L) {s : RealSensor} {order : SumTree} {pairs : List (ℝ × ℝ)}
    {cn2 vel t : ℝ} {r : ℝ → ℝ} {n : ℕ} {U V : ℕ → ℝ} (h : ∀ i < n, OrdinarySystem s order pairs cn2 vel t r (U i) (V i))
    {df ifov : ℝ} {order' : SumTree} (ho : order'.leaves.Perm (List.range (n - 1))) (hdf : 1e-6 ≤ df) (hi : 0 < ifov)
    (hn : 6 * n + order'.depth ≤ 900) :
    ∃ e, relativeEdgeResponse (vec n fun i => systemAt s pairs cn2 vel t r (U i) (V i)) (.fin df) (.fin ifov) = .ok (.fin e)
      ∧ |relativeEdgeResponseD fl L.sin order' (fun i => systemD fl L order s pairs cn2 vel t r (U i) (V i)) df ifov - e|
        ≤ 1e-12 + 2.3e-6 * (((n - 1 : ℕ) * df) * ifov) := by
  have hs := fun i hi => C118_system hfl hL (h i hi)
  have hb : ∀ i < n, |systemAt s pairs cn2 vel t r (U i) (V i)| ≤ 1 := fun i hi => (system_value hfl hL (h i hi)).2
  have hb' : ∀ i < n, |systemD fl L order s pairs cn2 vel t r (U i) (V i)| ≤ 1.1 := by
    intro i hi
    have := abs_sub_abs_le_abs_sub (systemD fl L order s pairs cn2 vel t r (U i) (V i)) (systemAt s pairs cn2 vel t r (U i) (V i))
    linarith [hs i hi, hb i hi]
  obtain ⟨-, e', he', h1⟩ := C109_rounding hfl hL.trig.sin ho hdf hi hb' hn
  obtain ⟨-, e, e'', he, he'', h2⟩ := C109_stable (n := n) (df := df) (ifov := ifov) (ε := 1.1e-6) (by linarith) hi.le hs
  rw [he'] at he''
  obtain rfl : e' = e'' := by injection he'' with q; injection q
  refine ⟨e, he, ?_⟩
  have h3 := abs_sub_le (relativeEdgeResponseD fl L.sin order' (fun i => systemD fl L order s pairs cn2 vel t r (U i) (V i)) df ifov) e' e
  have h4 : 0 ≤ ((n - 1 : ℕ) : ℝ) * df * ifov := by
    have : 0 ≤ df := by linarith
    positivity
  generalize ((n - 1 : ℕ) : ℝ) * df = f at *
  nlinarith

/-! ## The hypotheses can be met -/

/-- A library of correctly rounded functions meets the assumptions. -/
def roundedLib (fl : ℝ → ℝ) : MathLib where
  sq x := fl (x ^ 2)
  acos x := fl (Real.arccos x)
  sin x := fl (Real.sin x)
  tan x := fl (Real.tan x)
  atan x := fl (Real.arctan x)
  exp x := fl (Real.exp x)
  pow x y := fl (x ^ y)

theorem roundedLib_accurate (hfl : RoundsToNearest fl) : MathLibrary (roundedLib fl) where
  trig := trig_library hfl
  exp x := by
    have := hfl.error (Real.exp x)
    have hp := Real.exp_pos x
    rw [abs_of_pos hp] at this
    show |fl (Real.exp x) - Real.exp x| ≤ _
    linarith
  pow x y hx := by
    have := hfl.error (x ^ y)
    have hp := Real.rpow_nonneg hx y
    rw [abs_of_nonneg hp] at this
    show |fl (x ^ y) - x ^ y| ≤ _
    linarith

theorem demo_mtf_ordinary : OrdinarySystem demoSensor (.leaf 0) [(4e-6, 2)] 1e-15 100 0.01 (fun _ => 0.2) 600 800 where
  band := ⟨by simp, by simp; norm_num, by simp, by simp⟩
  few := by simp
  adds := by simp [SumTree.leaves, List.range_succ]
  rounds := by simp [SumTree.depth]
  aperture := by norm_num [demoSensor]
  focal := by norm_num [demoSensor]
  obscuration := by
    right
    have : Real.sqrt (600 ^ 2 + 800 ^ 2) = 1000 := by
      rw [show (600 : ℝ) ^ 2 + 800 ^ 2 = 1000 ^ 2 by norm_num]
      exact Real.sqrt_sq (by norm_num)
    rw [this]
    refine ⟨by norm_num [demoSensor], by norm_num [demoSensor], ?_⟩
    simp only [List.mem_singleton, forall_eq, demoSensor]
    rw [abs_of_neg (by norm_num)]
    norm_num
  phase := by norm_num [demoSensor]
  turbulence := by
    intro _
    have : Real.sqrt (600 ^ 2 + 800 ^ 2) = 1000 := by
      rw [show (600 : ℝ) ^ 2 + 800 ^ 2 = 1000 ^ 2 by norm_num]
      exact Real.sqrt_sq (by norm_num)
    rw [this]
    refine ⟨by norm_num, by norm_num [demoSensor], ?_⟩
    simp only [List.mem_singleton, forall_eq, demoSensor, OrdinaryTurbulence, Ordinary]
    norm_num

example (hfl : RoundsToNearest fl) : |systemD fl (roundedLib fl) (.leaf 0) demoSensor [(4e-6, 2)] 1e-15 100 0.01 (fun _ => 0.2) 600 800
    - systemAt demoSensor [(4e-6, 2)] 1e-15 100 0.01 (fun _ => 0.2) 600 800| ≤ 1.1e-6 :=
  C118_system hfl (roundedLib_accurate hfl) demo_mtf_ordinary

example (hfl : RoundsToNearest fl) : ∃ e, relativeEdgeResponse
      (vec 2 fun _ => systemAt demoSensor [(4e-6, 2)] 1e-15 100 0.01 (fun _ => 0.2) 600 800) (.fin 1000) (.fin 1e-5) = .ok (.fin e)
    ∧ |relativeEdgeResponseD fl (roundedLib fl).sin (.leaf 0)
        (fun _ => systemD fl (roundedLib fl) (.leaf 0) demoSensor [(4e-6, 2)] 1e-15 100 0.01 (fun _ => 0.2) 600 800) 1000 1e-5 - e|
      ≤ 1e-12 + 2.3e-6 * (((2 - 1 : ℕ) * 1000) * 1e-5) :=
  C118_edges hfl (roundedLib_accurate hfl) (U := fun _ => 600) (V := fun _ => 800) (fun _ _ => demo_mtf_ordinary)
    (by simp [SumTree.leaves, List.range_succ]) (by norm_num) (by norm_num) (by simp [SumTree.depth])

end PyBSM
