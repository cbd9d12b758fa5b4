import Verif.Model.DoubleTdi
import Verif.Props.DoubleOther
import Verif.Props.Blur

/-!
# Time delay and integration in double precision (C150)
-/

noncomputable section

open Classical

namespace PyBSM

open Spec

variable {fl cosD : ℝ → ℝ} {L : MathLib}

theorem sin_apx (hL : MathLibrary L) {k t' t m : ℝ} (h : Apx k t' t m) : |L.sin t' - Real.sin t| ≤ k * 1e-15 * m + 1e-15 := by
  have h1 := hL.trig.sin t'
  have h2 := Real.abs_sin_le_one t'
  have h3 := Real.abs_sin_sub_sin_le t' t
  have h4 := abs_sub_le (L.sin t') (Real.sin t') (Real.sin t)
  have h5 := h.1
  linarith

theorem tdiX_apx (hfl : RoundsToNearest fl) (x w : ℝ) {beta f : ℝ} (hf : 0 < f * beta) :
    Apx 4 (tdiXD fl x w beta f) (w * x / (f * beta)) |w * x / (f * beta)| := by
  have h := ((prod_apx hfl w x).quot (Apx.const hfl hf.le) hf (by norm_num) (by norm_num) (by norm_num)).round hfl (by norm_num)
  rw [abs_div, abs_of_pos hf]
  exact h.mono (by norm_num)

theorem tdiPhase_apx (hfl : RoundsToNearest fl) (x w : ℝ) {beta f : ℝ} (hf : 0 < f * beta) (i : ℕ) :
    Apx 16 (tdiPhaseD fl x w beta f i) (-2 * Real.pi * (w * x / (f * beta)) * (beta - 1) * i)
      (2 * Real.pi * |w * x / (f * beta)| * |beta - 1| * i) := by
  have h2 := ((Apx.of (x := -2) (m := 2) (by norm_num)).mul (Apx.const hfl Real.pi_pos.le) (by norm_num) (by norm_num)).round hfl (by norm_num)
  have h3 := (h2.mul (tdiX_apx hfl x w hf) (by norm_num) (by norm_num)).round hfl (by norm_num)
  have hb := (Apx.of (le_refl |beta - 1|)).round hfl (by norm_num)
  have h4 := (h3.mul hb (by norm_num) (by norm_num)).round hfl (by norm_num)
  have h5 := (h4.mul (Apx.of (x := (i : ℝ)) (m := i) (abs_of_nonneg (Nat.cast_nonneg i)).le) (by norm_num) (by norm_num)).round hfl (by norm_num)
  exact h5.mono (by norm_num)

/-- One part of the OTF from the parts of the single phases. -/
theorem tdiPart_close (hfl : RoundsToNearest fl) (hL : MathLibrary L) {g' g : ℝ → ℝ} (x w : ℝ) {beta f : ℝ} {n p : ℕ} (hf : 0 < f * beta)
    (h0 : n * p ≠ 0) (hn : n * p ≤ 1000) (hb : (n * p : ℕ) * |w * x / (f * beta) * (beta - 1)| ≤ 100) (g1 : ∀ t, |g t| ≤ 1)
    (hg : ∀ {k t' t m : ℝ}, Apx k t' t m → |g' t' - g t| ≤ k * 1e-15 * m + 1e-15) :
    |tdiPartD fl L g' n p x w beta f - Real.sinc (Real.pi * (w * x / (f * beta)))
      * (∑ i ∈ Finset.range (n * p), g (-2 * Real.pi * (w * x / (f * beta)) * (beta - 1) * i)) / (n * p : ℕ)| ≤ 2e-11 := by
  have sn := sinc_value hfl hL (tdiX_apx hfl x w hf) (by norm_num) (by norm_num)
  have s1 := abs_sinc_le (Real.pi * (w * x / (f * beta)))
  have ph : ∀ i < n * p, |g' (tdiPhaseD fl x w beta f i) - g (-2 * Real.pi * (w * x / (f * beta)) * (beta - 1) * i)| ≤ 1.1e-11 := by
    intro i hi
    refine (hg (tdiPhase_apx hfl x w hf i)).trans ?_
    have hi' : (i : ℝ) ≤ ((n * p : ℕ) : ℝ) := by exact_mod_cast hi.le
    have b : |w * x / (f * beta)| * |beta - 1| * i ≤ 100 := by
      rw [← abs_mul, mul_comm]
      exact (mul_le_mul_of_nonneg_right hi' (abs_nonneg _)).trans hb
    have hpi := Real.pi_lt_d2
    have hpi0 := Real.pi_pos
    have b' : 2 * Real.pi * |w * x / (f * beta)| * |beta - 1| * i ≤ 630 := by
      rw [show 2 * Real.pi * |w * x / (f * beta)| * |beta - 1| * i = 2 * Real.pi * (|w * x / (f * beta)| * |beta - 1| * i) by ring]
      nlinarith
    norm_num
    linarith
  have r := agg_close hfl (n := n * p) (g' := fun i => g' (tdiPhaseD fl x w beta f i))
    (g := fun i => g (-2 * Real.pi * (w * x / (f * beta)) * (beta - 1) * i)) hn (by norm_num) (by norm_num) ph fun i => g1 _
  obtain ⟨r1, r2⟩ := r
  unfold tdiPartD
  have N1 : (1 : ℝ) ≤ ((n * p : ℕ) : ℝ) := by exact_mod_cast Nat.one_le_iff_ne_zero.mpr h0
  generalize (List.range (n * p)).foldl (fun s i => fl (s + g' (tdiPhaseD fl x w beta f i))) 0 = A' at *
  generalize ∑ i ∈ Finset.range (n * p), g (-2 * Real.pi * (w * x / (f * beta)) * (beta - 1) * i) = A at *
  generalize sincD fl L (tdiXD fl x w beta f) = c' at *
  generalize Real.sinc (Real.pi * (w * x / (f * beta))) = c at *
  generalize ((n * p : ℕ) : ℝ) = N at *
  have N0 : 0 < N := by linarith
  have Q : |A' - A| ≤ 1.115e-11 * N := r1.trans (by linarith)
  have c1 : |c'| ≤ 1.01 := by
    have := abs_sub_abs_le_abs_sub c' c
    linarith
  have q : |c' * A' - c * A| ≤ 1.2e-11 * N := by
    rw [show c' * A' - c * A = c' * (A' - A) + (c' - c) * A by ring]
    have t := abs_add_le (c' * (A' - A)) ((c' - c) * A)
    rw [abs_mul, abs_mul] at t
    have t1 := mul_le_mul c1 Q (abs_nonneg _) (by norm_num)
    have t2 := mul_le_mul sn r2 (abs_nonneg _) (by norm_num)
    linarith
  have q1 : |c * A| ≤ N := by
    rw [abs_mul]
    calc |c| * |A| ≤ 1 * N := mul_le_mul s1 r2 (abs_nonneg _) (by norm_num)
      _ = N := one_mul N
  have q2 : |c' * A'| ≤ 1.1 * N := by
    have := abs_sub_abs_le_abs_sub (c' * A') (c * A)
    linarith
  have q3 : |fl (c' * A') - c * A| ≤ 1.21e-11 * N := by
    have a := fl_close hfl q2
    have b := abs_sub_le (fl (c' * A')) (c' * A') (c * A)
    linarith
  have e1 := hfl.error (1 / N)
  rw [abs_of_pos (by positivity : 0 < 1 / N)] at e1
  have q4 : |fl (c' * A') * fl (1 / N) - c * A / N| ≤ 1.3e-11 := by
    have z : |fl (c' * A')| ≤ 1.1 * N := by
      have := abs_sub_abs_le_abs_sub (fl (c' * A')) (c * A)
      linarith
    rw [show fl (c' * A') * fl (1 / N) - c * A / N = fl (c' * A') * (fl (1 / N) - 1 / N) + (fl (c' * A') - c * A) * (1 / N) by ring]
    have t := abs_add_le (fl (c' * A') * (fl (1 / N) - 1 / N)) ((fl (c' * A') - c * A) * (1 / N))
    rw [abs_mul, abs_mul, abs_of_pos (by positivity : 0 < 1 / N)] at t
    have t1 := mul_le_mul z e1 (abs_nonneg _) (by positivity)
    have t2 := mul_le_mul_of_nonneg_right q3 (by positivity : 0 ≤ 1 / N)
    have n1 : N * (1 / N) = 1 := by field_simp
    rw [mul_assoc, n1] at t2
    rw [show 1.1 * N * (12e-17 * (1 / N)) = 1.1 * 12e-17 * (N * (1 / N)) by ring, n1] at t1
    linarith
  have q5 : |c * A / N| ≤ 1 := by
    rw [abs_div, abs_of_pos N0, div_le_one N0]
    exact q1
  have q6 : |fl (c' * A') * fl (1 / N)| ≤ 1.1 := by
    have := abs_sub_abs_le_abs_sub (fl (c' * A') * fl (1 / N)) (c * A / N)
    linarith
  have a := fl_close hfl q6
  have b := abs_sub_le (fl (fl (c' * A') * fl (1 / N))) (fl (c' * A') * fl (1 / N)) (c * A / N)
  linarith

/-- **C150** (time delay and integration): the real and the imaginary part of the OTF computed in double precision are within 2e-11 of the
exact ones, for at most 1000 stages times phases and a total drift of at most 100 cycles. -/
theorem C150_tdi (hfl : RoundsToNearest fl) (hL : MathLibrary L) (hc : CosineLibrary cosD) (x w : ℝ) {beta f : ℝ} {n p : ℕ} (hf : 0 < f * beta)
    (h0 : n * p ≠ 0) (hn : n * p ≤ 1000) (hb : (n * p : ℕ) * |w * x / (f * beta) * (beta - 1)| ≤ 100) :
    |tdiPartD fl L cosD n p x w beta f - (tdiOTF x w n p beta f).re| ≤ 2e-11
      ∧ |tdiPartD fl L L.sin n p x w beta f - (tdiOTF x w n p beta f).im| ≤ 2e-11 := by
  have e : ∀ k : ℕ, Complex.exp (-2 * Complex.I * Real.pi * ((w * x / (f * beta) : ℝ) : ℂ) * (beta - 1) * k)
      = Complex.exp (((-2 * Real.pi * (w * x / (f * beta)) * (beta - 1) * k : ℝ) : ℂ) * Complex.I) := by
    intro k
    congr 1
    push_cast
    ring
  have t : tdiOTF x w n p beta f = ((Real.sinc (Real.pi * (w * x / (f * beta))) / (n * p : ℕ) : ℝ) : ℂ)
      * ∑ k ∈ Finset.range (n * p), Complex.exp (((-2 * Real.pi * (w * x / (f * beta)) * (beta - 1) * k : ℝ) : ℂ) * Complex.I) := by
    rw [tdi_eq x w n p beta f (m := n * p) (by push_cast; ring)]
    simp only [e]
    push_cast
    ring
  constructor
  · have r := tdiPart_close hfl hL x w hf h0 hn hb Real.abs_cos_le_one (fun h => cos_apx hc h)
    rw [t, Complex.re_ofReal_mul, Complex.re_sum]
    simp only [Complex.exp_ofReal_mul_I_re]
    rw [div_mul_eq_mul_div]
    exact r
  · have r := tdiPart_close hfl hL x w hf h0 hn hb Real.abs_sin_le_one (fun h => sin_apx hL h)
    rw [t, Complex.im_ofReal_mul, Complex.im_sum]
    simp only [Complex.exp_ofReal_mul_I_im]
    rw [div_mul_eq_mul_div]
    exact r

/-- **C150** (size): its magnitude exceeds 1 by at most 5e-11. -/
theorem C150_size (hfl : RoundsToNearest fl) (hL : MathLibrary L) (hc : CosineLibrary cosD) (x w : ℝ) {beta f : ℝ} {n p : ℕ} (hf : 0 < f * beta)
    (h0 : n * p ≠ 0) (hn : n * p ≤ 1000) (hb : (n * p : ℕ) * |w * x / (f * beta) * (beta - 1)| ≤ 100) :
    ‖(⟨tdiPartD fl L cosD n p x w beta f, tdiPartD fl L L.sin n p x w beta f⟩ : ℂ)‖ ≤ 1 + 5e-11 := by
  obtain ⟨a, b⟩ := C150_tdi hfl hL hc x w hf h0 hn hb
  have s := (C36_tdi x w beta f (nTdi := n) (phases := p) (m := n * p) (by push_cast; ring) (Nat.pos_of_ne_zero h0)).2.1
  generalize tdiOTF x w n p beta f = z at *
  generalize tdiPartD fl L cosD n p x w beta f = re at *
  generalize tdiPartD fl L L.sin n p x w beta f = im at *
  have d : ‖(⟨re, im⟩ : ℂ) - z‖ ≤ 4e-11 := by
    refine (Complex.norm_le_abs_re_add_abs_im _).trans ?_
    simp only [Complex.sub_re, Complex.sub_im]
    linarith
  have := norm_le_norm_add_norm_sub z (⟨re, im⟩ : ℂ)
  rw [norm_sub_rev] at this
  linarith

/-! ## Concrete cases -/

/-- 32 stages of four phases, with a mismatch of one percent, at half the cutoff of the detector (C150_tdi, C150_size). -/
example (hfl : RoundsToNearest fl) :
    |tdiPartD fl (roundedLib fl) (fun x => fl (Real.cos x)) 32 4 50000 1e-5 1.01 1 - (tdiOTF 50000 1e-5 (32 : ℕ) (4 : ℕ) 1.01 1).re| ≤ 2e-11
      ∧ |tdiPartD fl (roundedLib fl) (roundedLib fl).sin 32 4 50000 1e-5 1.01 1 - (tdiOTF 50000 1e-5 (32 : ℕ) (4 : ℕ) 1.01 1).im| ≤ 2e-11
      ∧ ‖(⟨tdiPartD fl (roundedLib fl) (fun x => fl (Real.cos x)) 32 4 50000 1e-5 1.01 1,
          tdiPartD fl (roundedLib fl) (roundedLib fl).sin 32 4 50000 1e-5 1.01 1⟩ : ℂ)‖ ≤ 1 + 5e-11 := by
  have h : ((32 * 4 : ℕ) : ℝ) * |(1e-5 : ℝ) * 50000 / (1 * 1.01) * (1.01 - 1)| ≤ 100 := by
    rw [abs_of_pos (by norm_num)]
    norm_num
  have a := C150_tdi hfl (roundedLib_accurate hfl) (roundedCos_accurate hfl) 50000 1e-5 (beta := 1.01) (f := 1) (n := 32) (p := 4) (by norm_num)
    (by norm_num) (by norm_num) h
  exact ⟨a.1, a.2, C150_size hfl (roundedLib_accurate hfl) (roundedCos_accurate hfl) 50000 1e-5 (by norm_num) (by norm_num) (by norm_num) h⟩

end PyBSM
