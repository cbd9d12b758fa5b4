import Verif.Lemmas.DoubleSlices
import Verif.Lemmas.Sensitivity
import Verif.Props.DoubleEdge
import Verif.Props.DoubleTurbulence

/-!
# C120: frequencies, slices and edge responses of a rating in double precision
-/

noncomputable section

open Classical

namespace PyBSM

open Spec

variable {fl cosD sinD : ℝ → ℝ} {interp : (ℕ → ℕ → ℝ) → ℝ → ℝ → ℝ}

/-- **C120** (frequencies). On the grid on which `niirs` and `niirs5` evaluate the system MTF, the middle row and the middle
column have the frequency zero without any error, every other frequency is within six parts in `10^16` of the cutoff of what
it should be, and the frequency step is within a factor `exp (1.4 · 10^-13)` of a fiftieth of the cutoff. -/
theorem C120_frequencies (hfl : RoundsToNearest fl) {c : ℝ} (hc : 0 < c) :
    gridUD fl c 50 = 0 ∧ gridVD fl c 50 = 0
      ∧ (∀ j ≤ 100, |gridUD fl c j - colFreq 101 c j| ≤ 6e-16 * c ∧ |gridVD fl c j - rowFreq 101 c j| ≤ 6e-16 * c)
      ∧ WithinFactor 1.4e-13 (stepD fl c) (c / 50) := by
  refine ⟨gridU_centre hfl c, ?_, fun j hj => ⟨gridU_close hfl hc.le hj, ?_⟩, gridStep_within hfl hc⟩
  · rw [gridV_mirror, gridU_centre hfl.mirror, neg_zero]
  · have h := gridU_close hfl.mirror hc.le hj
    rw [gridV_mirror, ← abs_neg]
    convert h using 2
    unfold colFreq rowFreq
    ring

theorem fl_half_pi (hfl : RoundsToNearest fl) : |fl (fl Real.pi / 2) - Real.pi / 2| ≤ 8e-16 := by
  have h1 := Real.pi_le_four
  have h0 := Real.pi_pos
  have e1 := fl_close hfl (x := Real.pi) (B := 4) (by rw [abs_of_pos h0]; exact h1)
  obtain ⟨a1, a2⟩ := abs_le.mp e1
  have e2 := fl_close hfl (x := fl Real.pi / 2) (B := 2.1) (by rw [abs_le]; constructor <;> linarith)
  obtain ⟨b1, b2⟩ := abs_le.mp e2
  rw [abs_le]; constructor <;> linarith

/-- **C120** (slices). Taken in double precision from a 101 x 101 array, the slices along the two axes have 50 samples, each
within two parts in `10^12` of the largest value of the entry of the array it is meant to be: along the middle row to the
right, and along the middle column upwards. -/
theorem C120_slices (hfl : RoundsToNearest fl) (hc : IsCosine cosD) (hs : ∀ x, |sinD x - Real.sin x| ≤ 1e-15 * |Real.sin x|)
    (hI : Interpolates interp) {G : ℕ → ℕ → ℝ} {M : ℝ} (hG : ∀ i j : ℕ, i ≤ 100 → j ≤ 100 → |G i j| ≤ M) :
    sliceCountD fl 101 = 50 ∧ ∀ k < 50,
      |sliceD fl cosD sinD interp G 0 k - G 50 (50 + k)| ≤ 2e-12 * M
        ∧ |sliceD fl cosD sinD interp G (fl (fl Real.pi / 2)) k - G (50 - k) 50| ≤ 2e-12 * M := by
  refine ⟨slice_101 hfl, fun k hk => ⟨?_, ?_⟩⟩
  · have h0 : sinD 0 = 0 := by
      have := hs 0
      rw [Real.sin_zero, abs_zero, mul_zero, sub_zero] at this
      exact abs_nonpos_iff.mp this
    unfold sliceD
    rw [hc.zero, h0]
    refine interp_node hI hG (by norm_num) (by norm_num) (by omega) (by omega) ?_ ?_
    · have := point_along hfl (a := 1) (by norm_num) hk
      convert this using 2
      push_cast; ring
    · have := point_small hfl (a := 0) (by norm_num) k
      rw [show slicePointD fl 101 0 k - (1 - ((50 : ℕ) : ℝ) / 50) = slicePointD fl 101 0 k by push_cast; ring]
      linarith
  · have hx := fl_half_pi hfl
    unfold sliceD
    generalize fl (fl Real.pi / 2) = x at *
    have c1 : |Real.cos x| ≤ 8e-16 := by
      rw [← Real.sin_pi_div_two_sub]
      refine Real.abs_sin_le_abs.trans ?_
      rw [abs_sub_comm]; exact hx
    have c2 : |cosD x| ≤ 1e-15 := by
      have h1 := hc.accurate x
      have h2 : (2 : ℝ) ^ (-50 : ℤ) ≤ 0.1 := by norm_num
      have h3 : (2 : ℝ) ^ (-50 : ℤ) * |Real.cos x| ≤ 0.1 * 8e-16 := mul_le_mul h2 c1 (abs_nonneg _) (by norm_num)
      have h4 := h1.trans h3
      have := abs_sub_abs_le_abs_sub (cosD x) (Real.cos x)
      linarith
    have s1 : |Real.sin x - 1| ≤ 8e-16 := by
      have := Real.abs_sin_sub_sin_le x (Real.pi / 2)
      rw [Real.sin_pi_div_two] at this
      linarith
    have s2 : |sinD x - 1| ≤ 2e-15 := by
      have h1 := hs x
      have h2 := Real.abs_sin_le_one x
      have := abs_sub_le (sinD x) (Real.sin x) 1
      linarith
    refine interp_node hI hG (by omega) (by omega) (by norm_num) (by norm_num) ?_ ?_
    · have := point_small hfl c2 k
      rw [show slicePointD fl 101 (cosD x) k - (-1 + ((50 : ℕ) : ℝ) / 50) = slicePointD fl 101 (cosD x) k by push_cast; ring]
      linarith
    · have := point_along hfl s2 hk
      convert this using 2
      rw [Nat.cast_sub hk.le]
      push_cast; ring

/-! ## Edge responses for a slightly different frequency step and field of view -/

theorem sin_over (w a : ℝ) (hw : w ≠ 0) : Real.sin (2 * Real.pi * w * a) / w = 2 * Real.pi * a * Real.sinc (2 * Real.pi * w * a) := by
  by_cases h : 2 * Real.pi * w * a = 0
  · have ha : a = 0 := by
      rcases mul_eq_zero.mp h with h | h
      · rcases mul_eq_zero.mp h with h | h
        · exact absurd h (by have := Real.pi_pos; positivity)
        · exact absurd h hw
      · exact h
    rw [ha]; simp
  · rw [Real.sinc_of_ne_zero h]
    have hpi := Real.pi_pos.ne'
    have ha : a ≠ 0 := fun e => h (by rw [e]; ring)
    field_simp

/-- **C120** (sensitivity). A frequency step and a field of view that are off by factors `exp δ` and `exp δ'` change the edge
response at `x` pixels by at most `11 · M · ifov · |x| · f · (δ + δ')`, for MTF samples up to `M` and the highest frequency `f`. -/
theorem C120_sensitivity {n : ℕ} {m : ℕ → ℝ} {M df' df ifov' ifov δ δ' : ℝ} (hdf : WithinFactor δ df' df) (hif : WithinFactor δ' ifov' ifov)
    (hd : δ + δ' ≤ 0.001) (hm : ∀ i < n, |m i| ≤ M) (x : ℝ) :
    |edge n m df' ifov' x - edge n m df ifov x| ≤ 11 * M * ifov * |x| * ((n - 1 : ℕ) * df) * (δ + δ') := by
  have hpi := Real.pi_pos
  have d0 := hdf.nonneg
  have d0' := hif.nonneg
  have k1 := hdf.error (by linarith)
  have k2 := hif.error (by linarith)
  by_cases hn : n = 0
  · subst hn
    unfold edge trap
    simp
  have hM : 0 ≤ M := (abs_nonneg _).trans (hm 0 (by omega))
  have df0 := hdf.2.1
  have if0 := hif.2.1
  set B : ℝ := M * (2 * Real.pi * ifov * |x|) with hB
  have hB0 : 0 ≤ B := by positivity
  have term : ∀ i < n, |m i * Real.sin (2 * Real.pi * (df' * i + 1e-6) * (ifov' * x)) / (df' * i + 1e-6)
      - m i * Real.sin (2 * Real.pi * (df * i + 1e-6) * (ifov * x)) / (df * i + 1e-6)| ≤ 4.3 * (δ + δ') * B
      ∧ |m i * Real.sin (2 * Real.pi * (df * i + 1e-6) * (ifov * x)) / (df * i + 1e-6)| ≤ B := by
    intro i hi
    have hw : WithinFactor δ (df' * i + 1e-6) (df * i + 1e-6) := by
      rcases Nat.eq_zero_or_pos i with e | hp
      · rw [e]; norm_num
        exact (WithinFactor.refl (by norm_num)).mono d0
      · have hi0 : (0 : ℝ) < i := by exact_mod_cast hp
        exact ((hdf.mul (WithinFactor.refl hi0)).mono (by linarith)).add ((WithinFactor.refl (by norm_num)).mono d0)
    rw [mul_div_assoc, mul_div_assoc, sin_over _ _ hw.1.ne', sin_over _ _ hw.2.1.ne']
    generalize df' * (i : ℝ) + 1e-6 = w' at *
    generalize df * (i : ℝ) + 1e-6 = w at *
    have hq : WithinFactor (δ + δ') (w' / w * (ifov' / ifov)) 1 := by
      have := (hw.div (WithinFactor.refl hw.2.1)).mul (hif.div (WithinFactor.refl hif.2.1))
      rw [div_self hw.2.1.ne', div_self hif.2.1.ne', one_mul, add_zero, add_zero] at this
      exact this
    have ez : 2 * Real.pi * w' * (ifov' * x) = w' / w * (ifov' / ifov) * (2 * Real.pi * w * (ifov * x)) := by
      have := hw.2.1.ne'
      have := if0.ne'
      field_simp
    rw [ez]
    have hz := sinc_scale hq (by linarith) (2 * Real.pi * w * (ifov * x))
    have b1 := abs_sinc_le (w' / w * (ifov' / ifov) * (2 * Real.pi * w * (ifov * x)))
    have b2 := abs_sinc_le (2 * Real.pi * w * (ifov * x))
    generalize Real.sinc (w' / w * (ifov' / ifov) * (2 * Real.pi * w * (ifov * x))) = s' at *
    generalize Real.sinc (2 * Real.pi * w * (ifov * x)) = s at *
    have hmi := hm i hi
    have ex : |2 * Real.pi * x| = 2 * Real.pi * |x| := by rw [abs_mul, abs_of_pos (by positivity)]
    constructor
    · rw [show m i * (2 * Real.pi * (ifov' * x) * s') - m i * (2 * Real.pi * (ifov * x) * s)
        = m i * ((2 * Real.pi * x) * ((ifov' - ifov) * s' + ifov * (s' - s))) by ring, abs_mul, abs_mul, ex]
      have h1 : |(ifov' - ifov) * s' + ifov * (s' - s)| ≤ 4.3 * (δ + δ') * ifov := by
        refine (abs_add_le _ _).trans ?_
        rw [abs_mul, abs_mul, abs_of_pos if0]
        have t1 : |ifov' - ifov| * |s'| ≤ 1.02 * δ' * ifov * 1 := mul_le_mul k2 b1 (abs_nonneg _) (by positivity)
        have t2 : ifov * |s' - s| ≤ ifov * (3.1 * (δ + δ')) := mul_le_mul_of_nonneg_left hz if0.le
        nlinarith
      calc |m i| * (2 * Real.pi * |x| * |(ifov' - ifov) * s' + ifov * (s' - s)|)
          ≤ M * (2 * Real.pi * |x| * (4.3 * (δ + δ') * ifov)) := by gcongr
        _ = 4.3 * (δ + δ') * B := by rw [hB]; ring
    · rw [show m i * (2 * Real.pi * (ifov * x) * s) = m i * ((2 * Real.pi * x) * (ifov * s)) by ring, abs_mul, abs_mul, ex, abs_mul,
        abs_of_pos if0]
      calc |m i| * (2 * Real.pi * |x| * (ifov * |s|)) ≤ M * (2 * Real.pi * |x| * (ifov * 1)) := by gcongr
        _ = B := by rw [hB]; ring
  unfold edge
  dsimp only
  have hT : |trap n (fun i => df' * i + 1e-6) (fun i => m i * Real.sin (2 * Real.pi * (df' * i + 1e-6) * (ifov' * x)) / (df' * i + 1e-6))
      - trap n (fun i => df * i + 1e-6) (fun i => m i * Real.sin (2 * Real.pi * (df * i + 1e-6) * (ifov * x)) / (df * i + 1e-6))|
      ≤ (n - 1 : ℕ) * (df * (5.4 * (δ + δ') * B)) := by
    unfold trap
    rw [← Finset.sum_sub_distrib]
    refine (Finset.abs_sum_le_sum_abs _ _).trans ?_
    refine (Finset.sum_le_card_nsmul _ _ (df * (5.4 * (δ + δ') * B)) ?_).trans ?_
    · intro i hi
      have hi' : i < n - 1 := Finset.mem_range.mp hi
      obtain ⟨p1, q1⟩ := term i (by omega)
      obtain ⟨p2, q2⟩ := term (i + 1) (by omega)
      push_cast at p2 q2 ⊢
      generalize m i * Real.sin (2 * Real.pi * (df' * i + 1e-6) * (ifov' * x)) / (df' * i + 1e-6) = a' at *
      generalize m i * Real.sin (2 * Real.pi * (df * i + 1e-6) * (ifov * x)) / (df * i + 1e-6) = a at *
      generalize m (i + 1) * Real.sin (2 * Real.pi * (df' * (i + 1) + 1e-6) * (ifov' * x)) / (df' * (i + 1) + 1e-6) = b' at *
      generalize m (i + 1) * Real.sin (2 * Real.pi * (df * (i + 1) + 1e-6) * (ifov * x)) / (df * (i + 1) + 1e-6) = b at *
      rw [show df' * ((i : ℝ) + 1) + 1e-6 - (df' * i + 1e-6) = df' by ring, show df * ((i : ℝ) + 1) + 1e-6 - (df * i + 1e-6) = df by ring,
        show df' * ((a' + b') / 2) - df * ((a + b) / 2) = df' * (((a' - a) + (b' - b)) / 2) + (df' - df) * ((a + b) / 2) by ring]
      have hdfp : df' ≤ 1.0011 * df := by
        have := (abs_le.mp k1).2
        nlinarith
      have r1 : |((a' - a) + (b' - b)) / 2| ≤ 4.3 * (δ + δ') * B := by
        rw [abs_div, abs_of_pos (by norm_num : (0:ℝ) < 2)]
        have := abs_add_le (a' - a) (b' - b)
        linarith
      have r2 : |(a + b) / 2| ≤ B := by
        rw [abs_div, abs_of_pos (by norm_num : (0:ℝ) < 2)]
        have := abs_add_le a b
        linarith
      refine (abs_add_le _ _).trans ?_
      rw [abs_mul, abs_mul, abs_of_pos hdf.1]
      have u1 : df' * |((a' - a) + (b' - b)) / 2| ≤ 1.0011 * df * (4.3 * (δ + δ') * B) := mul_le_mul hdfp r1 (abs_nonneg _) (by positivity)
      have u2 : |df' - df| * |(a + b) / 2| ≤ 1.02 * δ * df * B := mul_le_mul k1 r2 (abs_nonneg _) (by positivity)
      have v : 0 ≤ df * B := by positivity
      have v1 := mul_nonneg d0 v
      have v2 := mul_nonneg d0' v
      nlinarith
    · rw [Finset.card_range, nsmul_eq_mul]
  rw [add_sub_add_left_eq_sub, ← sub_div, abs_div, abs_of_pos hpi, div_le_iff₀ hpi]
  refine hT.trans ?_
  rw [hB]
  have w : 0 ≤ M * ifov * |x| * (((n - 1 : ℕ) : ℝ) * df) * (δ + δ') * Real.pi := by positivity
  have e1 : ((n - 1 : ℕ) : ℝ) * (df * (5.4 * (δ + δ') * (M * (2 * Real.pi * ifov * |x|))))
      = 10.8 * (M * ifov * |x| * (((n - 1 : ℕ) : ℝ) * df) * (δ + δ') * Real.pi) := by ring
  rw [e1]
  linarith

theorem rerOf_eq (m : ℕ → ℝ) (df ifov : ℝ) : rerOf m df ifov = 2 * edge 50 m df ifov 0.5 - 1 := by
  unfold rerOf
  rw [edge_neg, show (1 / 2 : ℝ) = 0.5 by norm_num]
  ring

/-- **C120** (edges). The relative edge responses that `giqe5_RER` computes in double precision from a 101 x 101 MTF whose
middle row and column are within `ε` of the samples `mu` and `mv` are close to those of the exact samples, exact frequency
step and exact field of view: within `2.1 · ε` times the number of cycles of the cutoff frequency per pixel, plus rounding
errors of a part in `10^11`. -/
theorem C120_edges (hfl : RoundsToNearest fl) (hc : IsCosine cosD) (hs : ∀ x, |sinD x - Real.sin x| ≤ 1e-15 * |Real.sin x|)
    (hI : Interpolates interp) {order : SumTree} (ho : order.leaves.Perm (List.range (sliceCountD fl 101 - 1))) (hd : order.depth ≤ 600)
    {G : ℕ → ℕ → ℝ} {M ε c : ℝ} (hG : ∀ i j : ℕ, i ≤ 100 → j ≤ 100 → |G i j| ≤ M) (hc0 : 1e-4 ≤ c) {mu mv : ℕ → ℝ}
    (hu : ∀ k < 50, |G 50 (50 + k) - mu k| ≤ ε) (hv : ∀ k < 50, |G (50 - k) 50 - mv k| ≤ ε) {ix iy : ℝ} (hx : 0 < ix) (hy : 0 < iy) :
    |(giqe5RerD fl cosD sinD order interp G (stepD fl c) (fl ix) (fl iy)).1 - rerOf mu (c / 50) ix|
        ≤ 1e-11 * (1 + M * (ix * c)) + 2.1 * ε * (ix * c)
      ∧ |(giqe5RerD fl cosD sinD order interp G (stepD fl c) (fl ix) (fl iy)).2 - rerOf mv (c / 50) iy|
        ≤ 1e-11 * (1 + M * (iy * c)) + 2.1 * ε * (iy * c) := by
  obtain ⟨hcnt, hsl⟩ := C120_slices hfl hc hs hI hG
  have hM : 0 ≤ M := (abs_nonneg _).trans (hG 0 0 (by norm_num) (by norm_num))
  rw [hcnt] at ho
  have hstep := gridStep_within hfl (by linarith : 0 < c)
  have key : ∀ (sl nd m : ℕ → ℝ) (i : ℝ), 0 < i → (∀ k < 50, |sl k - nd k| ≤ 2e-12 * M) → (∀ k < 50, |nd k - m k| ≤ ε) →
      (∀ k < 50, |nd k| ≤ M) →
      |relativeEdgeResponseD fl sinD order sl (stepD fl c) (fl i) - rerOf m (c / 50) i| ≤ 1e-11 * (1 + M * (i * c)) + 2.1 * ε * (i * c) := by
    intro sl nd m i hi h1 h2 h3
    have hfi := fl_within hfl hi
    have e0 : 0 ≤ ε := (abs_nonneg _).trans (h2 0 (by norm_num))
    have hsm : ∀ k < 50, |sl k| ≤ 1.01 * M := by
      intro k hk
      have a := h1 k hk
      have b := h3 k hk
      have := abs_sub_abs_le_abs_sub (sl k) (nd k)
      linarith
    have herr := hstep.error (by norm_num)
    have hferr := hfi.error (by norm_num)
    have d1 : 1e-6 ≤ stepD fl c := by
      have := (abs_le.mp herr).1
      linarith
    have d2 : stepD fl c ≤ 1.0001 * (c / 50) := by
      have := (abs_le.mp herr).2
      linarith
    have d3 : fl i ≤ 1.0001 * i := by
      have := (abs_le.mp hferr).2
      linarith
    obtain ⟨-, r, hr, hr'⟩ := C109_rounding hfl hs (n := 50) (m := sl) ho d1 hfi.1 hsm (by omega)
    obtain ⟨-, r1, r2, g1, g2, g3⟩ := C109_stable (n := 50) (m := m) (m' := sl) (ε := ε + 2e-12 * M) (df := stepD fl c) (ifov := fl i)
      (by linarith) hfi.1.le (fun k hk => by
        have a := h1 k hk
        have b := h2 k hk
        have := abs_sub_le (sl k) (nd k) (m k)
        linarith)
    rw [hr] at g2
    obtain rfl : r = r2 := by simpa using g2
    rw [rer_value 50 m (by linarith)] at g1
    obtain rfl : 2 * edge 50 m (stepD fl c) (fl i) 0.5 - 1 = r1 := by simpa using g1
    have hmb : ∀ k < 50, |m k| ≤ M + ε := by
      intro k hk
      have a := h2 k hk
      have b := h3 k hk
      have := abs_sub_abs_le_abs_sub (m k) (nd k)
      rw [abs_sub_comm (m k)] at this
      linarith
    have S := C120_sensitivity (n := 50) (m := m) (M := M + ε) hstep hfi (by norm_num) hmb 0.5
    rw [rerOf_eq]
    rw [abs_of_pos (by norm_num : (0:ℝ) < 0.5)] at S
    simp only [Nat.reduceSub] at S g3 hr'
    have hF : fl i * stepD fl c ≤ 1.001 * (i * (c / 50)) := by
      calc fl i * stepD fl c ≤ 1.0001 * i * (1.0001 * (c / 50)) := mul_le_mul d3 d2 (by linarith) (by positivity)
        _ ≤ 1.001 * (i * (c / 50)) := by have : 0 ≤ i * (c / 50) := by positivity
                                         nlinarith
    have hF0 : 0 ≤ fl i * stepD fl c := mul_nonneg hfi.1.le (by linarith)
    generalize edge 50 m (stepD fl c) (fl i) 0.5 = E' at *
    generalize edge 50 m (c / 50) i 0.5 = E at *
    generalize relativeEdgeResponseD fl sinD order sl (stepD fl c) (fl i) = R at *
    set q := i * c with hq
    have hq0 : 0 ≤ q := by positivity
    have b1 : |R - r| ≤ 1e-12 * (1 + 2.1 * M * q) := by
      refine hr'.trans ?_
      have : 2 * (1.01 * M) * fl i * (49 * stepD fl c) ≤ 2.1 * M * q := by
        calc 2 * (1.01 * M) * fl i * (49 * stepD fl c) = 98.98 * M * (fl i * stepD fl c) := by ring
          _ ≤ 98.98 * M * (1.001 * (i * (c / 50))) := mul_le_mul_of_nonneg_left hF (by positivity)
          _ = 98.98 * 1.001 / 50 * (M * q) := by rw [hq]; ring
          _ ≤ 2.1 * (M * q) := mul_le_mul_of_nonneg_right (by norm_num) (by positivity)
          _ = 2.1 * M * q := by ring
      push_cast at this ⊢
      norm_num at this ⊢
      linarith
    have b2 : |r - (2 * E' - 1)| ≤ 2 * q * (ε + 2e-12 * M) := by
      refine g3.trans ?_
      have hε : 0 ≤ ε + 2e-12 * M := by positivity
      refine mul_le_mul_of_nonneg_right ?_ hε
      push_cast
      calc 2 * fl i * (49 * stepD fl c) = 98 * (fl i * stepD fl c) := by ring
        _ ≤ 98 * (1.001 * (i * (c / 50))) := by linarith
        _ = 98 * 1.001 / 50 * q := by rw [hq]; ring
        _ ≤ 2 * q := mul_le_mul_of_nonneg_right (by norm_num) hq0
    have b3 : |E' - E| ≤ 1e-12 * ((M + ε) * q) := by
      refine S.trans ?_
      have w : 0 ≤ (M + ε) * q := by positivity
      have e1 : 11 * (M + ε) * i * 0.5 * (49 * (c / 50)) * (1.4e-13 + 1e-15) = 11 * 0.5 * 49 / 50 * (1.4e-13 + 1e-15) * ((M + ε) * q) := by
        rw [hq]; ring
      have e2 : 11 * 0.5 * 49 / 50 * (1.4e-13 + 1e-15) * ((M + ε) * q) ≤ 1e-12 * ((M + ε) * q) := mul_le_mul_of_nonneg_right (by norm_num) w
      refine le_trans (le_of_eq ?_) (e1.le.trans e2)
      norm_num
    have t1 := abs_sub_le R r (2 * E - 1)
    have t2 := abs_sub_le r (2 * E' - 1) (2 * E - 1)
    have t3 : |2 * E' - 1 - (2 * E - 1)| = 2 * |E' - E| := by
      rw [show 2 * E' - 1 - (2 * E - 1) = 2 * (E' - E) by ring, abs_mul, abs_of_pos (by norm_num : (0:ℝ) < 2)]
    have w1 : 0 ≤ M * q := by positivity
    have w2 : 0 ≤ ε * q := by positivity
    nlinarith
  refine ⟨key _ (fun k => G 50 (50 + k)) mu ix hx (fun k hk => (hsl k hk).1) hu (fun k hk => hG _ _ (by norm_num) (by omega)),
    key _ (fun k => G (50 - k) 50) mv iy hy (fun k hk => (hsl k hk).2) hv (fun k hk => hG _ _ (by omega) (by norm_num))⟩

/-! ## Exact bilinear interpolation meets the hypothesis; an MTF that falls off linearly -/

/-- Linear interpolation of the samples `f 0, f 1, …` at `x`. -/
def demoLine (f : ℕ → ℝ) (x : ℝ) : ℝ := (1 - (x - ⌊x⌋₊)) * f ⌊x⌋₊ + (x - ⌊x⌋₊) * f (⌊x⌋₊ + 1)

theorem demoLine_at (f : ℕ → ℝ) (j : ℕ) {s : ℝ} (s0 : 0 ≤ s) (s1 : s ≤ 1) : demoLine f (j + s) = (1 - s) * f j + s * f (j + 1) := by
  unfold demoLine
  rcases s1.lt_or_eq with h | rfl
  · have : ⌊(j : ℝ) + s⌋₊ = j := by
      rw [Nat.floor_eq_iff (by positivity)]
      constructor <;> linarith
    rw [this]; ring
  · have : ⌊(j : ℝ) + 1⌋₊ = j + 1 := by exact_mod_cast Nat.floor_natCast (R := ℝ) (j + 1)
    rw [this]; push_cast; ring

/-- Bilinear interpolation on the grid of `slice_otf`, without rounding. -/
def demoInterp (G : ℕ → ℕ → ℝ) (x y : ℝ) : ℝ := demoLine (fun i => demoLine (G i) (50 * (x + 1))) (50 * (1 - y))

theorem demoInterp_ok : Interpolates demoInterp := by
  intro G M hG i j _ _ s t s0 s1 t0 t1
  have hM : 0 ≤ M := (abs_nonneg _).trans (hG 0 0 (by norm_num) (by norm_num))
  unfold demoInterp
  rw [show 50 * (-1 + ((j : ℝ) + s) / 50 + 1) = j + s by ring, show 50 * (1 - (1 - ((i : ℝ) + t) / 50)) = i + t by ring,
    demoLine_at _ _ t0 t1, demoLine_at _ _ s0 s1, demoLine_at _ _ s0 s1, sub_self, abs_zero]
  positivity

/-- An MTF on the 101 x 101 grid that falls from 1 in the middle to 0 at the edges. -/
def demoPyramid (i j : ℕ) : ℝ := 1 - max |(i : ℝ) - 50| |(j : ℝ) - 50| / 50

theorem demoPyramid_bound (i j : ℕ) (hi : i ≤ 100) (hj : j ≤ 100) : |demoPyramid i j| ≤ 1 := by
  have h1 : (i : ℝ) ≤ 100 := by exact_mod_cast hi
  have h2 : (j : ℝ) ≤ 100 := by exact_mod_cast hj
  have a : max |(i : ℝ) - 50| |(j : ℝ) - 50| ≤ 50 :=
    max_le (abs_le.mpr ⟨by have : (0:ℝ) ≤ i := i.cast_nonneg; linarith, by linarith⟩)
      (abs_le.mpr ⟨by have : (0:ℝ) ≤ j := j.cast_nonneg; linarith, by linarith⟩)
  have b : 0 ≤ max |(i : ℝ) - 50| |(j : ℝ) - 50| := le_max_of_le_left (abs_nonneg _)
  unfold demoPyramid
  rw [abs_le]; constructor <;> linarith

theorem demoPyramid_row {k : ℕ} (hk : k < 50) : demoPyramid 50 (50 + k) = 1 - k / 50 ∧ demoPyramid (50 - k) 50 = 1 - k / 50 := by
  have h0 : (0 : ℝ) ≤ k := k.cast_nonneg
  constructor
  · unfold demoPyramid
    push_cast
    rw [sub_self, abs_zero, add_sub_cancel_left, abs_of_nonneg h0, max_eq_right h0]
  · unfold demoPyramid
    rw [Nat.cast_sub hk.le]
    push_cast
    rw [sub_self, abs_zero, show (50 : ℝ) - k - 50 = -k by ring, abs_neg, abs_of_nonneg h0, max_eq_left h0]

theorem sin_real (x : ℝ) : |Real.sin x - Real.sin x| ≤ 1e-15 * |Real.sin x| := by
  rw [sub_self, abs_zero]; positivity

example (hfl : RoundsToNearest fl) : WithinFactor 1.4e-13 (stepD fl 250000) (250000 / 50) :=
  (C120_frequencies hfl (by norm_num)).2.2.2

example (hfl : RoundsToNearest fl) {k : ℕ} (hk : k < 50) :
    |sliceD fl Real.cos Real.sin demoInterp demoPyramid 0 k - (1 - k / 50)| ≤ 2e-12
      ∧ |sliceD fl Real.cos Real.sin demoInterp demoPyramid (fl (fl Real.pi / 2)) k - (1 - k / 50)| ≤ 2e-12 := by
  have h := (C120_slices hfl real_cosine sin_real demoInterp_ok demoPyramid_bound).2 k hk
  rw [(demoPyramid_row hk).1, (demoPyramid_row hk).2, mul_one] at h
  exact h

example (hfl : RoundsToNearest fl) :
    |(giqe5RerD fl Real.cos Real.sin (SumTree.halves 14 0 49) demoInterp demoPyramid (stepD fl 250000) (fl 2e-6) (fl 2e-6)).1
      - rerOf (fun k => 1 - k / 50) (250000 / 50) 2e-6| ≤ 2e-11 := by
  have h := (C120_edges hfl real_cosine sin_real demoInterp_ok (order := SumTree.halves 14 0 49)
    (by rw [slice_101 hfl, halves_leaves _ _ _ (by norm_num), List.range_eq_range'])
    ((halves_depth _ _ _).trans (by norm_num)) (c := 250000) (ε := 0) demoPyramid_bound (by norm_num)
    (mu := fun k => 1 - k / 50) (mv := fun k => 1 - k / 50) (fun k hk => by rw [(demoPyramid_row hk).1]; simp)
    (fun k hk => by rw [(demoPyramid_row hk).2]; simp) (ix := 2e-6) (iy := 2e-6) (by norm_num) (by norm_num)).1
  norm_num at h ⊢
  linarith

end PyBSM
