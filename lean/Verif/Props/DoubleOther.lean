import Verif.Model.DoubleOther
import Verif.Spec.DoubleOther
import Verif.Props.DoubleMtf
import Verif.Props.Blur

/-!
# C141: the other component OTFs in double precision
-/

noncomputable section

open Classical

namespace PyBSM

open Spec

variable {fl : ℝ → ℝ} {L : MathLib} {cosD : ℝ → ℝ}

/-! ## Lemmas -/

/-- The reciprocal of a number with a small relative error. -/
theorem Apx.recip {k x' x : ℝ} (h : Apx k x' x |x|) (hx : x ≠ 0) (hk0 : 0 ≤ k) (hk : k ≤ 100) :
    Apx (k + 1) (1 / x') (1 / x) |1 / x| ∧ x' ≠ 0 := by
  have hp : 0 < |x| := abs_pos.mpr hx
  have h1 := h.1
  have hlow : (1 - k * 1e-15) * |x| ≤ |x'| := by
    have := abs_sub_abs_le_abs_sub x x'
    rw [abs_sub_comm] at this
    linarith
  have hk' : k * 1e-15 ≤ 1e-13 := by linarith
  have hk0' : 0 ≤ k * 1e-15 := by positivity
  have hp' : 0 < |x'| := lt_of_lt_of_le (by nlinarith) hlow
  have hx' : x' ≠ 0 := abs_pos.mp hp'
  refine ⟨⟨?_, le_rfl⟩, hx'⟩
  rw [show 1 / x' - 1 / x = -(x' - x) / (x' * x) by field_simp; ring, abs_div, abs_neg, abs_mul, abs_div, abs_one,
    div_le_iff₀ (by positivity)]
  calc |x' - x| ≤ k * 1e-15 * |x| := h1
    _ ≤ (k + 1) * 1e-15 * ((1 - k * 1e-15) * |x|) := by
        rw [← mul_assoc]
        refine mul_le_mul_of_nonneg_right ?_ hp.le
        rw [add_mul]
        nlinarith
    _ ≤ (k + 1) * 1e-15 * |x'| := by gcongr
    _ = (k + 1) * 1e-15 * (1 / |x|) * (|x'| * |x|) := by field_simp

theorem two_pi_apx (hfl : RoundsToNearest fl) : Apx 4 (fl (2 * fl Real.pi)) (2 * Real.pi) (2 * Real.pi) := by
  have h := ((Apx.of (x := 2) (m := 2) (by norm_num)).mul (Apx.const hfl Real.pi_pos.le) (by norm_num) (by norm_num)).round hfl (by norm_num)
  exact h.mono (by norm_num)

theorem cos_apx (hc : CosineLibrary cosD) {k t' t m : ℝ} (h : Apx k t' t m) : |cosD t' - Real.cos t| ≤ k * 1e-15 * m + 1e-15 := by
  have h1 := hc t'
  have h2 := Real.abs_cos_le_one t'
  have h3 := Real.abs_cos_sub_cos_le t' t
  have h4 := abs_sub_le (cosD t') (Real.cos t') (Real.cos t)
  have h5 := h.1
  linarith

/-! ## Gaussian blur and defocus -/

/-- **C141** (Gaussian blur). The computed Gaussian OTF is within `10^-13` of the exact one at every frequency, for all blur
sizes. -/
theorem C141_gaussian (hfl : RoundsToNearest fl) (hL : MathLibrary L) {bx bY : ℝ} (hx : bx ≠ 0) (hy : bY ≠ 0) (u v : ℝ) :
    ∃ h, gaussianOTF (.fin u) (.fin v) (.py (.fin bx)) (.py (.fin bY)) = .ok (.fin h)
      ∧ |gaussianD fl L bx bY u v - h| ≤ 1e-13 := by
  refine ⟨_, gaussianOTF_fin u v (x := bx) (y := bY) rfl rfl hx hy, ?_⟩
  have Q : ∀ b x : ℝ, b ≠ 0 → Apx 14 (fl (fl (x / fl (1 / b)) ^ 2)) ((b * x) ^ 2) ((b * x) ^ 2) := by
    intro b x hb
    have i := ((Apx.of (le_refl |1 / b|)).round hfl (by norm_num))
    have r := (i.recip (by positivity) (by norm_num) (by norm_num)).1
    have q := ((Apx.of (le_refl |x|)).mul r (by norm_num) (by norm_num)).round hfl (by norm_num)
    rw [mul_one_div, ← abs_mul, one_div_one_div] at q
    have := (q.mul q (by norm_num) (by norm_num)).round hfl (by norm_num)
    rw [← sq, ← sq, ← sq, sq_abs, mul_comm x b] at this
    exact this.mono (by norm_num)
  have A := ((Q bx u hx).add (Q bY v hy)).round hfl (by norm_num)
  rw [max_self] at A
  have Z := ((Apx.const hfl Real.pi_pos.le).neg.mul A (by norm_num) (by norm_num)).round hfl (by norm_num)
  rw [neg_mul Real.pi] at Z
  obtain ⟨h1, -⟩ := hL.exp_rel Z (by norm_num) (by norm_num)
  exact h1.trans (by norm_num)

/-- **C141** (defocus). The computed defocus OTF is within `10^-13` of the exact one at every frequency, for all blur spots. -/
theorem C141_defocus (hfl : RoundsToNearest fl) (hL : MathLibrary L) (wx wy u v : ℝ) :
    ∃ h, defocusOTF (.fin u) (.fin v) (.fin wx) (.fin wy) = .fin h ∧ |defocusD fl L wx wy u v - h| ≤ 1e-13 := by
  refine ⟨_, defocusOTF_fin u v wx wy, ?_⟩
  have hpi := Real.pi_pos
  have P2 : Apx 6 (L.sq (fl Real.pi)) (Real.pi ^ 2) (Real.pi ^ 2) :=
    sq_lib hL (by rw [abs_of_pos hpi]; exact Apx.const hfl hpi.le)
  have C := (P2.neg.div (s := 4) (by norm_num)).round hfl (by norm_num)
  have S : ∀ w x : ℝ, Apx 4 (fl (L.sq w * fl (x ^ 2))) ((w * x) ^ 2) ((w * x) ^ 2) := by
    intro w x
    have := ((sq_apx hL w).mul (Apx.const hfl (sq_nonneg x)) (by norm_num) (by norm_num)).round hfl (by norm_num)
    rw [mul_pow]
    exact this.mono (by norm_num)
  have A := ((S wx u).add (S wy v)).round hfl (by norm_num)
  rw [max_self] at A
  have Z := (C.mul A (by norm_num) (by norm_num)).round hfl (by norm_num)
  rw [show |(4 : ℝ)| = 4 by norm_num, neg_div (4 : ℝ) (Real.pi ^ 2), neg_mul (Real.pi ^ 2 / 4)] at Z
  obtain ⟨h1, -⟩ := hL.exp_rel Z (by norm_num) (by norm_num)
  exact h1.trans (by norm_num)

/-! ## Small wavefront errors -/

/-- **C141** (small wavefront errors). The error of `wavefront_OTF_2` is at most some units in the last place of its largest
term, at every frequency. -/
theorem C141_wavefront (hfl : RoundsToNearest fl) (hL : MathLibrary L) {c : ℝ} (hc : c ≠ 0) (w u v : ℝ) :
    ∃ h, wavefrontOTF2 (.fin u) (.fin v) (.fin c) (.fin w) = .fin h
      ∧ |wavefront2D fl L c w u v - h|
        ≤ 5e-14 * (1 + (w / 0.18) ^ 2 * (1 + 4 * (Real.sqrt (u ^ 2 + v ^ 2) / |c| + 0.5) ^ 2)) := by
  refine ⟨_, wavefrontOTF2_fin u v w hc, ?_⟩
  have R := ((radial_apx hfl u v).div hc).round hfl (by norm_num)
  have D := (R.sub (Apx.of (x := 0.5) (m := 0.5) (by norm_num))).round hfl (by norm_num)
  have D2 := (D.mul D (by norm_num) (by norm_num)).round hfl (by norm_num)
  rw [← sq, ← sq, ← sq] at D2
  have F := ((Apx.of (x := 4) (m := 4) (by norm_num)).mul D2 (by norm_num) (by norm_num)).round hfl (by norm_num)
  have G := ((Apx.of (x := 1) (m := 1) (by norm_num)).sub F).round hfl (by norm_num)
  have W : Apx 20 (L.sq (fl (w / fl 0.18))) ((w / 0.18) ^ 2) ((w / 0.18) ^ 2) := by
    have e := Apx.const hfl (x := 0.18) (by norm_num)
    have r := (Apx.recip (k := 1) (x' := fl 0.18) (x := 0.18) (by rw [abs_of_pos (by norm_num)]; exact e) (by norm_num) (by norm_num) (by norm_num)).1
    have q := ((Apx.of (le_refl |w|)).mul r (by norm_num) (by norm_num)).round hfl (by norm_num)
    rw [mul_one_div, mul_one_div, ← abs_mul, mul_one_div] at q
    have h1 := q.mul q (by norm_num) (by norm_num)
    rw [← sq, ← sq, ← sq, sq_abs] at h1
    have h2 := hL.trig.sq (fl (w / fl 0.18))
    refine ⟨?_, (abs_of_nonneg (sq_nonneg _)).le⟩
    have h3 := h1.1
    have h4 := abs_sub_le (L.sq (fl (w / fl 0.18))) (fl (w / fl 0.18) ^ 2) ((w / 0.18) ^ 2)
    have hb : 0 ≤ (w / 0.18) ^ 2 := sq_nonneg _
    generalize fl (w / fl 0.18) ^ 2 = a at *
    generalize (w / 0.18) ^ 2 = b at *
    have h5 := (abs_le.mp h3).2
    norm_num at *
    linarith
  have P := (W.mul G (by norm_num) (by norm_num)).round hfl (by norm_num)
  have H := ((Apx.of (x := 1) (m := 1) (by norm_num)).sub P).round hfl (by norm_num)
  refine H.1.trans ?_
  refine mul_le_mul_of_nonneg_right (by norm_num) (by positivity)

/-! ## Charge transfer -/

/-- **C141** (charge transfer). The computed charge-transfer OTF is within `10^-8` of the exact one, if at most 100 losses are
to be expected on the way and frequencies of at most 1000 radians per pixel. -/
theorem C141_cte (hfl : RoundsToNearest fl) (hL : MathLibrary L) (hc : CosineLibrary cosD) {px py nx ny ph e f u v : ℝ} (hf : f ≠ 0)
    (hx : 0 ≤ nx) (hy : 0 ≤ ny) (hp : 0 ≤ ph) (he : e ≤ 1) (hX : ph * nx * (1 - e) ≤ 100) (hY : ph * ny * (1 - e) ≤ 100)
    (hu : |2 * Real.pi * (px * u) / f| ≤ 1000) (hv : |2 * Real.pi * (py * v) / f| ≤ 1000) :
    ∃ h, cteOTF (.fin u) (.fin v) (.fin px) (.fin py) (.fin nx) (.fin ny) (.fin ph) (.fin e) (.fin f) = .fin h
      ∧ |cteD fl L cosD px py nx ny ph e f u v - h| ≤ 1e-8 := by
  have key : ∀ {n p x : ℝ}, 0 ≤ n → ph * n * (1 - e) ≤ 100 → |2 * Real.pi * (p * x) / f| ≤ 1000 →
      |cteXYD fl L cosD n (fl (p * x)) ph e f - Real.exp (-(ph * n * (1 - e) * (1 - Real.cos (2 * Real.pi * (p * x) / f))))| ≤ 4e-9
      ∧ |Real.exp (-(ph * n * (1 - e) * (1 - Real.cos (2 * Real.pi * (p * x) / f))))| ≤ 1 := by
    intro n p x hn hG hT
    have t := ((((two_pi_apx hfl).mul (prod_apx hfl p x) (by norm_num) (by norm_num)).round hfl (by norm_num)).div hf).round hfl (by norm_num)
    rw [show 2 * Real.pi * |p * x| / |f| = |2 * Real.pi * (p * x) / f| by
      rw [abs_div, abs_mul (2 * Real.pi), abs_of_pos (by positivity : 0 < 2 * Real.pi)]] at t
    have k := cos_apx hc t
    have g0 := ((Apx.of (x := -1) (m := 1) (by norm_num)).mul (Apx.of (abs_of_nonneg hp).le) (by norm_num) (by norm_num)).round hfl (by norm_num)
    have g1 := (g0.mul (Apx.of (abs_of_nonneg hn).le) (by norm_num) (by norm_num)).round hfl (by norm_num)
    have g := (g1.mul (Apx.const hfl (sub_nonneg.mpr he)) (by norm_num) (by norm_num)).round hfl (by norm_num)
    clear g0 g1
    rw [one_mul, show -1 * ph * n * (1 - e) = -(ph * n * (1 - e)) by ring] at g
    have hG0 : 0 ≤ ph * n * (1 - e) := mul_nonneg (mul_nonneg hp hn) (sub_nonneg.mpr he)
    have c0 := Real.cos_le_one (2 * Real.pi * (p * x) / f)
    have c1 := Real.neg_one_le_cos (2 * Real.pi * (p * x) / f)
    unfold cteXYD
    have g1 := g.1
    generalize fl (fl (fl (-1 * ph) * n) * fl (1 - e)) = G' at *
    generalize ph * n * (1 - e) = G at *
    generalize cosD (fl (fl (fl (2 * fl Real.pi) * fl (p * x)) / f)) = y at *
    generalize Real.cos (2 * Real.pi * (p * x) / f) = z at *
    generalize |2 * Real.pi * (p * x) / f| = T at *
    have k1 : |y - z| ≤ 1e-11 := by
      refine k.trans ?_
      norm_num
      linarith
    have k2 : |1 - y| ≤ 2.1 := by
      obtain ⟨a, b⟩ := abs_le.mp k1
      rw [abs_le]; constructor <;> linarith
    have k3 : |fl (1 - y) - (1 - z)| ≤ 1.1e-11 := by
      have a := fl_close hfl k2
      have b := abs_sub_le (fl (1 - y)) (1 - y) (1 - z)
      rw [show 1 - y - (1 - z) = -(y - z) by ring, abs_neg] at b
      linarith
    have k4 : |fl (1 - y)| ≤ 2.1 := by
      obtain ⟨a, b⟩ := abs_le.mp k3
      rw [abs_le]; constructor <;> linarith
    have g2 : |G' - -G| ≤ 1e-12 := by
      refine g1.trans ?_
      norm_num
      linarith
    have w : |G' * fl (1 - y) - -(G * (1 - z))| ≤ 1.12e-9 := by
      rw [show G' * fl (1 - y) - -(G * (1 - z)) = (G' - -G) * fl (1 - y) + -G * (fl (1 - y) - (1 - z)) by ring]
      have a := abs_add_le ((G' - -G) * fl (1 - y)) (-G * (fl (1 - y) - (1 - z)))
      rw [abs_mul, abs_mul, abs_neg, abs_of_nonneg hG0] at a
      have b := mul_le_mul g2 k4 (abs_nonneg _) (by norm_num)
      have d := mul_le_mul hG k3 (abs_nonneg _) (by norm_num)
      linarith
    have hGz : 0 ≤ G * (1 - z) := mul_nonneg hG0 (by linarith)
    have hGz' : G * (1 - z) ≤ 200 := by nlinarith
    have w1 : |G' * fl (1 - y)| ≤ 201 := by
      obtain ⟨a, b⟩ := abs_le.mp w
      rw [abs_le]; constructor <;> linarith
    have w2 : |fl (G' * fl (1 - y)) - -(G * (1 - z))| ≤ 1.2e-9 := by
      have a := fl_close hfl w1
      have b := abs_sub_le (fl (G' * fl (1 - y))) (G' * fl (1 - y)) (-(G * (1 - z)))
      linarith
    have r := hL.exp_abs w2 (by linarith) (by norm_num)
    refine ⟨r.trans (by norm_num), ?_⟩
    rw [abs_of_pos (Real.exp_pos _)]
    exact Real.exp_le_one_iff.mpr (by linarith)
  obtain ⟨a1, a2⟩ := key hx hX hu
  obtain ⟨b1, b2⟩ := key hy hY hv
  refine ⟨_, ?_, (mul_close hfl a1 b1 a2 b2 (by norm_num) (by norm_num)).trans (by norm_num)⟩
  rw [cteOTF_fin u v px py nx ny ph e hf, ← Real.exp_add, XR.fin_inj]
  congr 1
  rw [show 2 * Real.pi * (px * u) / f = 2 * Real.pi * (px * u / f) by ring,
    show 2 * Real.pi * (py * v) / f = 2 * Real.pi * (py * v / f) by ring]
  ring

/-! ## Aggregated detectors -/

theorem agg_close (hfl : RoundsToNearest fl) {g' g : ℕ → ℝ} {d : ℝ} {n : ℕ} (hn : n ≤ 1000) (hd0 : 0 ≤ d) (hd : d ≤ 1e-3)
    (h : ∀ i < n, |g' i - g i| ≤ d) (h1 : ∀ i, |g i| ≤ 1) :
    |(List.range n).foldl (fun s i => fl (s + g' i)) 0 - ∑ i ∈ Finset.range n, g i| ≤ n * (d + 1.5e-13)
      ∧ |∑ i ∈ Finset.range n, g i| ≤ n := by
  induction n with
  | zero => simp
  | succ n ih =>
    obtain ⟨a, b⟩ := ih (by omega) fun i hi => h i (by omega)
    rw [List.range_succ, List.foldl_append, List.foldl_cons, List.foldl_nil, Finset.sum_range_succ]
    generalize (List.range n).foldl (fun s i => fl (s + g' i)) 0 = S' at *
    generalize ∑ i ∈ Finset.range n, g i = S at *
    have c := h n (by omega)
    have e := h1 n
    have hN : ((n : ℝ)) + 1 ≤ 1000 := by exact_mod_cast hn
    have hN0 : (0 : ℝ) ≤ n := Nat.cast_nonneg n
    push_cast
    refine ⟨?_, (abs_add_le _ _).trans (by linarith)⟩
    have s1 : |S' + g' n - (S + g n)| ≤ n * (d + 1.5e-13) + d := by
      rw [show S' + g' n - (S + g n) = (S' - S) + (g' n - g n) by ring]
      exact (abs_add_le _ _).trans (by linarith)
    have s2 : |S' + g' n| ≤ 1100 := by
      have q := abs_sub_abs_le_abs_sub (S' + g' n) (S + g n)
      have q' := abs_add_le S (g n)
      have : n * (d + 1.5e-13) ≤ 1000 * (d + 1.5e-13) := by gcongr; linarith
      linarith
    have s3 := fl_close hfl s2
    have s4 := abs_sub_le (fl (S' + g' n)) (S' + g' n) (S + g n)
    linarith

/-- **C141** (aggregation). The computed OTF of aggregated detectors is within `10^-10` of the exact one, for at most 1000
pixels and at most 100 cycles across them. -/
theorem C141_aggregation (hfl : RoundsToNearest fl) (hL : MathLibrary L) (hc : CosineLibrary cosD) {wX wY pX pY f u v : ℝ} {n : ℕ}
    (hf : f ≠ 0) (hn : n ≠ 0) (hn' : n ≤ 1000) (hu : n * |pX * u / f| ≤ 100) (hv : n * |pY * v / f| ≤ 100) :
    ∃ h, detectorOTFWithAggregation (.fin u) (.fin v) (.fin wX) (.fin wY) (.fin pX) (.fin pY) (.fin f) n = .ok (.fin h)
      ∧ |aggregationD fl L cosD wX wY pX pY f n u v - h| ≤ 1e-10 := by
  have hn1 : (1 : ℝ) ≤ n := by exact_mod_cast Nat.one_le_iff_ne_zero.mpr hn
  have hn0 : (n : ℝ) ≠ 0 := by positivity
  have phase : ∀ {p x : ℝ}, n * |p * x / f| ≤ 100 →
      |aggSumD fl cosD n p x f - ∑ i ∈ Finset.range n, Real.cos ((2 * i - (n - 1)) * (Real.pi * (p * x / f)))| ≤ n * 2.2e-11
      ∧ |∑ i ∈ Finset.range n, Real.cos ((2 * i - (n - 1)) * (Real.pi * (p * x / f)))| ≤ n := by
    intro p x hT
    have r := agg_close hfl (n := n)
      (g' := fun i => cosD (fl (fl (2 * fl Real.pi) * fl (fl (fl (fl (i * p) * x) / f) - fl (fl (fl (fl (fl (n - 1) * p) * x) / 2) / f)))))
      (g := fun i => Real.cos ((2 * i - (n - 1)) * (Real.pi * (p * x / f)))) (d := 2.1e-11) hn' (by norm_num) (by norm_num) ?_
      fun i => Real.abs_cos_le_one _
    · refine ⟨r.1.trans ?_, r.2⟩
      gcongr
      norm_num
    · intro i hi
      have hi' : (i : ℝ) ≤ n := by exact_mod_cast hi.le
      have a := ((((prod_apx hfl i p).mul (Apx.of (le_refl |x|)) (by norm_num) (by norm_num)).round hfl (by norm_num)).div hf).round hfl (by norm_num)
      have b0 := ((Apx.const hfl (sub_nonneg.mpr hn1)).mul (Apx.of (le_refl |p|)) (by norm_num) (by norm_num)).round hfl (by norm_num)
      have b1 := (b0.mul (Apx.of (le_refl |x|)) (by norm_num) (by norm_num)).round hfl (by norm_num)
      have b2 := (b1.div (s := 2) (by norm_num)).round hfl (by norm_num)
      have b := (b2.div hf).round hfl (by norm_num)
      have t := ((two_pi_apx hfl).mul ((a.sub b).round hfl (by norm_num)) (by norm_num) (by norm_num)).round hfl (by norm_num)
      have e := cos_apx hc t
      rw [show 2 * Real.pi * (i * p * x / f - (n - 1) * p * x / 2 / f) = (2 * i - (n - 1)) * (Real.pi * (p * x / f)) by ring] at e
      refine e.trans ?_
      have m1 : |(i : ℝ) * p| * |x| / |f| ≤ 100 := by
        rw [← abs_mul, ← abs_div, mul_assoc, mul_div_assoc, abs_mul, abs_of_nonneg (Nat.cast_nonneg i)]
        exact (mul_le_mul_of_nonneg_right hi' (abs_nonneg _)).trans hT
      have m2 : ((n : ℝ) - 1) * |p| * |x| / |2| / |f| ≤ 50 := by
        rw [show |(2 : ℝ)| = 2 by norm_num, show ((n : ℝ) - 1) * |p| * |x| / 2 / |f| = ((n - 1) * |p * x / f|) / 2 by
          rw [abs_div, abs_mul]; ring]
        have : ((n : ℝ) - 1) * |p * x / f| ≤ n * |p * x / f| := mul_le_mul_of_nonneg_right (by linarith) (abs_nonneg _)
        linarith
      have hpi := Real.pi_lt_d2
      have hpi0 := Real.pi_pos
      have m3 : 2 * Real.pi * (|(i : ℝ) * p| * |x| / |f| + (n - 1) * |p| * |x| / |2| / |f|) ≤ 1000 := by
        calc _ ≤ 2 * Real.pi * 150 := mul_le_mul_of_nonneg_left (by linarith) (by positivity)
          _ ≤ _ := by linarith
      generalize 2 * Real.pi * (|(i : ℝ) * p| * |x| / |f| + (n - 1) * |p| * |x| / |2| / |f|) = M at *
      norm_num
      linarith
  have sc : ∀ w x : ℝ, |sincD fl L (fl (fl (w * x) / f)) - Real.sinc (Real.pi * (w * x / f))| ≤ 2.1e-14 := by
    intro w x
    have h := ((prod_apx hfl w x).div hf).round hfl (by norm_num)
    rw [← abs_div] at h
    exact (sinc_value hfl hL h (by norm_num) (by norm_num)).trans (by norm_num)
  obtain ⟨a1, a2⟩ := phase hu
  obtain ⟨b1, b2⟩ := phase hv
  have X := sc wX u
  have Y := sc wY v
  have X1 := abs_sinc_le (Real.pi * (wX * u / f))
  have Y1 := abs_sinc_le (Real.pi * (wY * v / f))
  refine ⟨_, by
    unfold detectorOTFWithAggregation
    rw [if_neg hn, aggSum_fin n pX u hf, aggSum_fin n pY v hf]
    xr_simp
    rw [XR.fin_div _ (pow_ne_zero 2 hn0), XR.fin_div _ hf, XR.fin_div _ hf]
    xr_simp
    rfl, ?_⟩
  unfold aggregationD
  generalize aggSumD fl cosD n pX u f = A' at *
  generalize aggSumD fl cosD n pY v f = B' at *
  generalize ∑ i ∈ Finset.range n, Real.cos ((2 * i - (n - 1)) * (Real.pi * (pX * u / f))) = A at *
  generalize ∑ i ∈ Finset.range n, Real.cos ((2 * i - (n - 1)) * (Real.pi * (pY * v / f))) = B at *
  generalize sincD fl L (fl (fl (wX * u) / f)) = x' at *
  generalize sincD fl L (fl (fl (wY * v) / f)) = y' at *
  generalize Real.sinc (Real.pi * (wX * u / f)) = x at *
  generalize Real.sinc (Real.pi * (wY * v / f)) = y at *
  have hnp : (0 : ℝ) < n := by linarith
  have q : |A' * B' - A * B| ≤ n ^ 2 * 4.5e-11 := by
    rw [show A' * B' - A * B = (A' - A) * B + A * (B' - B) + (A' - A) * (B' - B) by ring]
    have t1 := abs_add_le ((A' - A) * B + A * (B' - B)) ((A' - A) * (B' - B))
    have t2 := abs_add_le ((A' - A) * B) (A * (B' - B))
    rw [abs_mul] at t1
    rw [abs_mul, abs_mul A] at t2
    have c1 := mul_le_mul a1 b2 (abs_nonneg _) (by positivity)
    have c2 := mul_le_mul a2 b1 (abs_nonneg _) (by positivity)
    have c3 := mul_le_mul a1 b1 (abs_nonneg _) (by positivity)
    have hsq : 0 < (n : ℝ) ^ 2 := by positivity
    nlinarith
  have q1 : |A * B| ≤ n ^ 2 := by
    rw [abs_mul, sq]; exact mul_le_mul a2 b2 (abs_nonneg _) hnp.le
  have hsq : 0 < (n : ℝ) ^ 2 := by positivity
  generalize (n : ℝ) ^ 2 = N at *
  have P : Apx 45000 (A' * B') (A * B) N := ⟨q.trans (by norm_num; linarith), q1⟩
  have p1 : |fl (A' * B') - A * B| ≤ N * 4.6e-11 := by
    have s : |A' * B'| ≤ N * 1.1 := by
      have := abs_sub_abs_le_abs_sub (A' * B') (A * B)
      linarith
    have s1 := fl_close hfl s
    have s2 := abs_sub_le (fl (A' * B')) (A' * B') (A * B)
    linarith
  have p2 : |fl (A' * B') / N - A * B / N| ≤ 4.6e-11 := by
    rw [← sub_div, abs_div, abs_of_pos hsq, div_le_iff₀ hsq]; linarith
  have p3 : |A * B / N| ≤ 1 := by
    rw [abs_div, abs_of_pos hsq, div_le_one hsq]; exact q1
  have p4 : |fl (fl (A' * B') / N) - A * B / N| ≤ 4.7e-11 := by
    have s : |fl (A' * B') / N| ≤ 1.1 := by
      have := abs_sub_abs_le_abs_sub (fl (A' * B') / N) (A * B / N)
      linarith
    have s1 := fl_close hfl s
    have s2 := abs_sub_le (fl (fl (A' * B') / N)) (fl (A' * B') / N) (A * B / N)
    linarith
  have p5 := mul_close hfl p4 X p3 X1 (by norm_num) (by norm_num)
  have p6 : |A * B / N * x| ≤ 1 := by
    rw [abs_mul]; exact mul_le_one₀ p3 (abs_nonneg _) X1
  exact (mul_close hfl p5 Y p6 Y1 (by norm_num) (by norm_num)).trans (by norm_num)

/-! ## Diffusion of carriers -/

theorem diffusion_params_close (hfl : RoundsToNearest fl) (hL : MathLibrary L) {al' al alpha ald : ℝ} (ha : 0 < alpha) (hd : 0 ≤ ald)
    (h0 : 0 < al) (h : Apx 30 al' al al) :
    |diffusionParamsD fl L al' alpha ald - (1 - Real.exp (-(alpha * ald)) / (1 + alpha * al))| ≤ 5e-14
      ∧ 0 ≤ 1 - Real.exp (-(alpha * ald)) / (1 + alpha * al) ∧ 1 - Real.exp (-(alpha * ald)) / (1 + alpha * al) ≤ 1 := by
  have hz : 0 ≤ alpha * ald := mul_nonneg ha.le hd
  have z : Apx (0 + 1) (fl (-alpha * ald)) (-(alpha * ald)) (alpha * ald) := by
    rw [neg_mul]
    exact (Apx.of (by rw [abs_neg, abs_of_nonneg hz])).round hfl (by norm_num)
  obtain ⟨e1, -⟩ := hL.exp_rel z (by norm_num) (by norm_num)
  have he0 := Real.exp_pos (-(alpha * ald))
  have he1 : Real.exp (-(alpha * ald)) ≤ 1 := Real.exp_le_one_iff.mpr (by linarith)
  have m := ((Apx.of (abs_of_pos ha).le).mul h (by norm_num) (by norm_num)).round hfl (by norm_num)
  have s := ((Apx.of (x := 1) (m := 1) (by norm_num)).add m).round hfl (by norm_num)
  have hs : 1 ≤ 1 + alpha * al := by have := mul_pos ha h0; linarith
  have s' : Apx 33 (fl (1 + fl (alpha * al'))) (1 + alpha * al) |1 + alpha * al| := by
    rw [abs_of_pos (by linarith)]; exact s.mono (by norm_num)
  obtain ⟨i, -⟩ := s'.recip (by linarith) (by norm_num) (by norm_num)
  unfold diffusionParamsD
  generalize fl (1 + fl (alpha * al')) = d' at *
  generalize 1 + alpha * al = d at *
  generalize L.exp (fl (-alpha * ald)) = E' at *
  generalize Real.exp (-(alpha * ald)) = E at *
  have hd0 : 0 < 1 / d := by positivity
  have hd1 : 1 / d ≤ 1 := by rw [div_le_one (by linarith)]; exact hs
  have i1 := i.1
  rw [abs_of_pos hd0] at i1
  rw [← mul_one_div E, ← mul_one_div E']
  generalize 1 / d' = r' at *
  generalize 1 / d = r at *
  have r1 : |r' - r| ≤ 3.4e-14 := i1.trans (by norm_num; linarith)
  have E1 : |E' - E| ≤ 2e-15 := e1.trans (by norm_num)
  have hE : |E| ≤ 1 := by rw [abs_of_pos he0]; exact he1
  have hr : |r| ≤ 1 := by rw [abs_of_pos hd0]; exact hd1
  have q := mul_close hfl E1 r1 hE hr (by norm_num) (by norm_num)
  have p0 : 0 < E * r := mul_pos he0 hd0
  have p1 : E * r ≤ 1 := mul_le_one₀ he1 hd0.le hd1
  refine ⟨?_, by linarith, by linarith⟩
  generalize fl (E' * r') = Q at *
  generalize E * r = P at *
  have t : |1 - Q| ≤ 1.1 := by
    obtain ⟨a, b⟩ := abs_le.mp q
    rw [abs_le]; constructor <;> norm_num at a b ⊢ <;> linarith
  have t1 := fl_close hfl t
  have t2 := abs_sub_le (fl (1 - Q)) (1 - Q) (1 - P)
  rw [show 1 - Q - (1 - P) = -(Q - P) by ring, abs_neg] at t2
  norm_num at *
  linarith

/-- **C141** (diffusion). The error of the computed diffusion OTF is at most `2 * 10^-13` divided by the share of carriers
that are collected at frequency zero, when that share is at least `10^-6`. -/
theorem C141_diffusion (hfl : RoundsToNearest fl) (hL : MathLibrary L) {alpha ald l f : ℝ} (ha : 0 < alpha) (hd : 0 ≤ ald) (hl : 0 < l)
    (hf : f ≠ 0) (hp : 1e-6 ≤ 1 - Real.exp (-(alpha * ald)) / (1 + alpha * l)) (u v : ℝ) :
    ∃ h, diffusionOTF (.fin u) (.fin v) (.fin alpha) (.fin ald) (.py (.fin l)) (.fin f) = .ok (.fin h)
      ∧ |diffusionD fl L alpha ald l f u v - h| ≤ 2e-13 / (1 - Real.exp (-(alpha * ald)) / (1 + alpha * l)) := by
  refine ⟨_, diffusion_fin u v ha rfl hl hf hd, ?_⟩
  have hpi := Real.pi_pos
  have R := ((((two_pi_apx hfl).mul (radial_apx hfl u v) (by norm_num) (by norm_num)).round hfl (by norm_num)).div hf).round hfl (by norm_num)
  have W := (R.mul R (by norm_num) (by norm_num)).round hfl (by norm_num)
  rw [← sq, ← sq, ← sq, show (2 * Real.pi * Real.sqrt (u ^ 2 + v ^ 2) / |f|) ^ 2 = (2 * Real.pi * Real.sqrt (u ^ 2 + v ^ 2) / f) ^ 2 by
    rw [div_pow, div_pow, sq_abs]] at W
  have S : Apx 1 (L.sq l) (l ^ 2) |l ^ 2| := by
    rw [abs_of_nonneg (sq_nonneg l)]; exact sq_apx hL l
  have I := (S.recip (by positivity) (by norm_num) (by norm_num)).1.round hfl (by norm_num)
  have hI : 0 < 1 / l ^ 2 := by positivity
  rw [abs_of_pos hI] at I
  have A := (I.add W).round hfl (by norm_num)
  have hA : 0 < 1 / l ^ 2 + (2 * Real.pi * Real.sqrt (u ^ 2 + v ^ 2) / f) ^ 2 := by positivity
  have A' : Apx 27 (fl (fl (1 / L.sq l) + fl (fl (fl (fl (2 * fl Real.pi) * radialD fl u v) / f) ^ 2))) (1 / l ^ 2 + (2 * Real.pi * Real.sqrt (u ^ 2 + v ^ 2) / f) ^ 2) |1 / l ^ 2 + (2 * Real.pi * Real.sqrt (u ^ 2 + v ^ 2) / f) ^ 2| := by
    rw [abs_of_pos hA]; exact A.mono (by norm_num)
  have B := (A'.recip hA.ne' (by norm_num) (by norm_num)).1.round hfl (by norm_num)
  rw [abs_of_pos (by positivity)] at B
  have C := ((B.root (by norm_num)).round hfl (by norm_num)).mono (k' := 30) (by norm_num)
  obtain ⟨n1, n2, n3⟩ := diffusion_params_close hfl hL ha hd (alRho_pos hl (2 * Real.pi * Real.sqrt (u ^ 2 + v ^ 2) / f)) C
  obtain ⟨d1, d2, d3⟩ := diffusion_params_close hfl hL ha hd hl (Apx.of (abs_of_pos hl).le |>.mono (k' := 30) (by norm_num))
  have hND : 1 - Real.exp (-(alpha * ald)) / (1 + alpha * alRho l (2 * Real.pi * Real.sqrt (u ^ 2 + v ^ 2) / f))
      ≤ 1 - Real.exp (-(alpha * ald)) / (1 + alpha * l) := by
    have hp' := alRho_pos hl (2 * Real.pi * Real.sqrt (u ^ 2 + v ^ 2) / f)
    have hle : alRho l (2 * Real.pi * Real.sqrt (u ^ 2 + v ^ 2) / f) ≤ l := by
      conv_rhs => rw [← Real.sqrt_sq hl.le]
      refine Real.sqrt_le_sqrt ?_
      rw [div_le_iff₀ hA, mul_add, mul_one_div_cancel (by positivity)]
      have := mul_nonneg (sq_nonneg l) (sq_nonneg (2 * Real.pi * Real.sqrt (u ^ 2 + v ^ 2) / f))
      linarith
    have := Real.exp_pos (-(alpha * ald))
    gcongr
  unfold diffusionD
  dsimp only
  generalize diffusionParamsD fl L (fl (Real.sqrt _)) alpha ald = N' at *
  generalize diffusionParamsD fl L l alpha ald = D' at *
  generalize 1 - Real.exp (-(alpha * ald)) / (1 + alpha * alRho l (2 * Real.pi * Real.sqrt (u ^ 2 + v ^ 2) / f)) = N at *
  generalize 1 - Real.exp (-(alpha * ald)) / (1 + alpha * l) = D at *
  clear A A' B C I W R S hI hA
  have hD0 : 0 < D := by linarith
  have hD' : 0.9 * D ≤ D' := by
    have := (abs_le.mp d1).1
    norm_num at *
    linarith
  have hD'0 : 0 < D' := by linarith
  have q : |N' / D' - N / D| ≤ 1.2e-13 / D := by
    rw [show N' / D' - N / D = ((N' - N) - N / D * (D' - D)) / D' by field_simp; ring, abs_div, abs_of_pos hD'0,
      div_le_div_iff₀ hD'0 hD0]
    have t := abs_sub (N' - N) (N / D * (D' - D))
    have r0 : 0 ≤ N / D := by positivity
    have r1 : N / D ≤ 1 := by rw [div_le_one hD0]; exact hND
    rw [abs_mul, abs_of_nonneg r0] at t
    have t' := mul_le_mul r1 d1 (abs_nonneg _) one_pos.le
    have t2 : |N' - N - N / D * (D' - D)| ≤ 1e-13 := by linarith
    have t3 := mul_le_mul_of_nonneg_right t2 hD0.le
    linarith
  have hi : 1 ≤ 1 / D := by rw [le_div_iff₀ hD0]; linarith
  have hi' : 1 / D ≤ 1e6 := by rw [div_le_iff₀ hD0]; norm_num at *; linarith
  have e1 : 1.2e-13 / D = 1.2e-13 * (1 / D) := by ring
  have e2 : 2e-13 / D = 2e-13 * (1 / D) := by ring
  have r : |N' / D'| ≤ 2 := by
    have a := abs_sub_abs_le_abs_sub (N' / D') (N / D)
    have b : |N / D| ≤ 1 := by
      rw [abs_of_nonneg (by positivity), div_le_one hD0]; exact hND
    linarith
  have f1 := fl_close hfl r
  have f2 := abs_sub_le (fl (N' / D')) (N' / D') (N / D)
  linarith

/-! ## The hypotheses can be met -/

/-- A correctly rounded cosine meets the assumption. -/
theorem roundedCos_accurate (hfl : RoundsToNearest fl) : CosineLibrary fun x => fl (Real.cos x) := by
  intro x
  have := hfl.error (Real.cos x)
  have h := abs_nonneg (Real.cos x)
  show |fl (Real.cos x) - Real.cos x| ≤ _
  linarith

example (hfl : RoundsToNearest fl) : ∃ h, gaussianOTF (.fin 600) (.fin 800) (.py (.fin 1e-3)) (.py (.fin (-2e-3))) = .ok (.fin h)
    ∧ |gaussianD fl (roundedLib fl) 1e-3 (-2e-3) 600 800 - h| ≤ 1e-13 :=
  C141_gaussian hfl (roundedLib_accurate hfl) (by norm_num) (by norm_num) _ _

example (hfl : RoundsToNearest fl) : ∃ h, defocusOTF (.fin 600) (.fin 800) (.fin 1e-3) (.fin 2e-3) = .fin h
    ∧ |defocusD fl (roundedLib fl) 1e-3 2e-3 600 800 - h| ≤ 1e-13 :=
  C141_defocus hfl (roundedLib_accurate hfl) _ _ _ _

example (hfl : RoundsToNearest fl) : ∃ h, wavefrontOTF2 (.fin 600) (.fin 800) (.fin 2000) (.fin 0.18) = .fin h
    ∧ |wavefront2D fl (roundedLib fl) 2000 0.18 600 800 - h| ≤ 3e-13 := by
  obtain ⟨h, h1, h2⟩ := C141_wavefront hfl (roundedLib_accurate hfl) (c := 2000) (by norm_num) 0.18 600 800
  refine ⟨h, h1, h2.trans ?_⟩
  rw [show (600 : ℝ) ^ 2 + 800 ^ 2 = 1000 ^ 2 by norm_num, Real.sqrt_sq (by norm_num), abs_of_pos (by norm_num)]
  norm_num

/-- A CCD of 1000 by 1000 pixels with three phases. -/
example (hfl : RoundsToNearest fl) :
    ∃ h, cteOTF (.fin 600) (.fin 800) (.fin 1e-5) (.fin 1e-5) (.fin 1000) (.fin 1000) (.fin 3) (.fin 0.99999) (.fin 1) = .fin h
      ∧ |cteD fl (roundedLib fl) (fun x => fl (Real.cos x)) 1e-5 1e-5 1000 1000 3 0.99999 1 600 800 - h| ≤ 1e-8 := by
  have := Real.pi_lt_d2
  have h0 := Real.pi_pos
  refine C141_cte hfl (roundedLib_accurate hfl) (roundedCos_accurate hfl) (by norm_num) (by norm_num) (by norm_num) (by norm_num)
    (by norm_num) (by norm_num) (by norm_num) ?_ ?_
  all_goals
    rw [abs_of_pos (by positivity)]
    norm_num
    linarith

/-- Two by two pixels. -/
example (hfl : RoundsToNearest fl) :
    ∃ h, detectorOTFWithAggregation (.fin 600) (.fin 800) (.fin 8e-6) (.fin 8e-6) (.fin 1e-5) (.fin 1e-5) (.fin 1) 2 = .ok (.fin h)
      ∧ |aggregationD fl (roundedLib fl) (fun x => fl (Real.cos x)) 8e-6 8e-6 1e-5 1e-5 1 2 600 800 - h| ≤ 1e-10 := by
  refine C141_aggregation hfl (roundedLib_accurate hfl) (roundedCos_accurate hfl) (by norm_num) (by norm_num) (by norm_num) ?_ ?_
  all_goals
    rw [abs_of_pos (by norm_num)]
    norm_num

/-- Silicon: half the carriers at least are collected. -/
example (hfl : RoundsToNearest fl) :
    ∃ h, diffusionOTF (.fin 600) (.fin 800) (.fin 1e5) (.fin 1e-6) (.py (.fin 1e-4)) (.fin 1) = .ok (.fin h)
      ∧ |diffusionD fl (roundedLib fl) 1e5 1e-6 1e-4 1 600 800 - h| ≤ 4e-13 := by
  have half : (0.5 : ℝ) ≤ 1 - Real.exp (-(1e5 * 1e-6)) / (1 + 1e5 * 1e-4) := by
    have h1 : Real.exp (-(1e5 * 1e-6 : ℝ)) ≤ 1 := Real.exp_le_one_iff.mpr (by norm_num)
    have h2 : Real.exp (-(1e5 * 1e-6 : ℝ)) / (1 + 1e5 * 1e-4) ≤ 1 / (1 + 1e5 * 1e-4) := by gcongr
    have h3 : (1 : ℝ) / (1 + 1e5 * 1e-4) ≤ 0.5 := by norm_num
    linarith
  obtain ⟨h, h1, h2⟩ := C141_diffusion hfl (roundedLib_accurate hfl) (alpha := 1e5) (ald := 1e-6) (l := 1e-4) (f := 1) (by norm_num)
    (by norm_num) (by norm_num) (by norm_num) (by linarith) 600 800
  refine ⟨h, h1, h2.trans ?_⟩
  rw [div_le_iff₀ (by linarith)]
  linarith

end PyBSM
