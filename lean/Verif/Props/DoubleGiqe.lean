import Verif.Lemmas.DoubleGiqe
import Mathlib.Analysis.Real.Pi.Bounds

/-!
# C108: the image quality equations in double precision

Rounding: the computed score against the exact one for the same inputs. Sensitivity: how far the exact score moves when the
inputs are known only up to a factor.
-/

noncomputable section

open Classical

namespace PyBSM

open Spec

variable {fl lgD sinD expD : ℝ → ℝ} {powD : ℝ → ℝ → ℝ}

/-- **C108** (GIQE 3, rounding). -/
theorem C108_giqe3_rounding (hfl : RoundsToNearest fl) (hlib : Accurate lgD sinD expD powD) {r g e n s : ℝ}
    (r0 : 0 < r) (g0 : 0 < g) (s0 : s ≠ 0) :
    ∃ y, giqe3 (.np (.fin r)) (.np (.fin g)) (.np (.fin e)) (.np (.fin n)) (.np (.fin s)) = .ok (.fin y)
      ∧ |giqe3D fl lgD r g e n s - y| ≤ 1e-14 * (14 + 3 * |lg (r / (g / 0.0254))| + 1.4 * |e| + |n / s|) := by
  refine ⟨_, giqe3_fin rfl rfl rfl rfl rfl r0 g0 s0, ?_⟩
  have q : WithinFactor (3 * 1e-15) (fl (r / fl (g / fl 0.0254))) (r / (g / 0.0254)) :=
    (((WithinFactor.refl r0).div (((WithinFactor.refl g0).div (fl_within hfl (x := 0.0254) (by norm_num))).round hfl)).round hfl).mono
      (by norm_num)
  have h1 := (((Apx.const hfl (x := 3.32) (by norm_num)).mul (Apx.lg hlib.log q (by norm_num)) (by norm_num)
    (by norm_num)).round hfl (by norm_num)).mono (k' := 6) (by norm_num)
  have h2 := ((((Apx.const hfl (x := 11.81) (by norm_num)).add h1).mono (k' := 6) (by norm_num)).round hfl (by norm_num))
  have h3 := (((Apx.const hfl (x := 1.48) (by norm_num)).mul (Apx.of (le_refl |e|)) (by norm_num)
    (by norm_num)).round hfl (by norm_num))
  have h4 := (((h2.sub h3).mono (k' := 7) (by norm_num)).round hfl (by norm_num))
  have h5 := (Apx.of (le_refl |n / s|)).round hfl (by norm_num)
  have h6 := ((h4.sub h5).mono (k' := 8) (by norm_num)).round hfl (by norm_num)
  refine h6.1.trans ?_
  have a1 := abs_nonneg (lg (r / (g / 0.0254)))
  have a2 := abs_nonneg e
  have a3 := abs_nonneg (n / s)
  linarith

theorem pow_within (hlib : Accurate lgD sinD expD powD) {δ x' x p : ℝ} (h : WithinFactor δ x' x) (hp : 0 ≤ p) :
    WithinFactor (p * δ + 2e-15) (powD x' p) (x ^ p) := by
  have h1 : WithinFactor (2 * 1e-15) (powD x' p) (x' ^ p) :=
    within_of_rel (Real.rpow_pos_of_pos h.1 _) (by norm_num) (hlib.pow x' p h.1)
  exact (h1.trans (h.rpow hp)).mono (by linarith)

theorem gsd_within (hfl : RoundsToNearest fl) (hlib : Accurate lgD sinD expD powD) {g el p : ℝ} (g0 : 0 < g) (e0 : 0 < el)
    (e1 : el ≤ Real.pi / 2) (hp : 0 ≤ p) (hp1 : p ≤ 1 / 2) :
    WithinFactor (4 * 1e-15) (projectedGsdD fl sinD powD p g el) (projectedGsd p g el) := by
  have hs := sin_pos_elev e0 e1
  have h1 : WithinFactor (2 * 1e-15) (sinD el) (Real.sin el) := within_of_rel hs (by norm_num) (by
    have := hlib.sin el
    rwa [abs_of_pos hs] at this)
  unfold projectedGsdD projectedGsd
  exact (((WithinFactor.refl g0).div (pow_within hlib h1 hp)).round hfl).mono (by linarith)

/-- The branch of `giqe4` is the exact one for every double. -/
theorem branch_exact (hfl : RoundsToNearest fl) {r : ℝ} (hr : IsDouble r) : fl 0.9 ≤ r ↔ 0.9 ≤ r := by
  have h9 : fl 0.9 = 8106479329266893 * (2 : ℝ) ^ (-53 : ℤ) := by
    have := hfl.eq (m := 8106479329266893) (by norm_num) (by norm_num) (-53) (x := 0.9) (by norm_num) (by norm_num)
    simpa using this
  constructor
  · intro h
    rw [h9] at h
    refine le_trans ?_ h
    norm_num
  · intro h
    rw [← hfl.self hr]
    exact hfl.mono h

theorem giqe4_coefficients (hfl : RoundsToNearest fl) (hlib : Accurate lgD sinD expD powD) {c1 c2 : ℝ} {r g e n s el : ℝ}
    (b1 : 0 ≤ c1) (b2 : c1 ≤ 3.32) (b3 : 0 ≤ c2) (b4 : c2 ≤ 2.817) (r0 : 0 < r) (g0 : 0 < g) (s0 : s ≠ 0) (e0 : 0 < el)
    (e1 : el ≤ Real.pi / 2) :
    |fl (fl (fl (fl (fl 10.251 - fl (fl c1 * lgD (fl (projectedGsdD fl sinD powD 0.5 g el / fl 0.0254))))
      + fl (fl c2 * lgD r)) - fl (fl 0.656 * e)) - fl (fl (fl 0.334 * n) / s)) - niirs4 c1 c2 r g e n s el|
      ≤ 1.1e-14 * (17 + 3.4 * |lg (projectedGsd (1 / 2) g el / 0.0254)| + 3 * |lg r| + |e| + |n| / |s|) := by
  have hg := gsd_within hfl hlib g0 e0 e1 (p := 1 / 2) (by norm_num) (by norm_num)
  have q : WithinFactor (6 * 1e-15) (fl (projectedGsdD fl sinD powD (1 / 2) g el / fl 0.0254)) (projectedGsd (1 / 2) g el / 0.0254) :=
    ((hg.div (fl_within hfl (x := 0.0254) (by norm_num))).round hfl).mono (by norm_num)
  have hhalf : (0.5 : ℝ) = 1 / 2 := by norm_num
  rw [hhalf]
  have h1 := (((Apx.const hfl b1).mul (Apx.lg hlib.log q (by norm_num)) (by norm_num)
    (by norm_num)).round hfl (by norm_num)).mono (k' := 7) (by norm_num)
  have h2 := ((((Apx.const hfl (x := 10.251) (by norm_num)).sub h1).mono (k' := 7) (by norm_num)).round hfl (by norm_num))
  have hr0 : WithinFactor (0 * 1e-15) r r := by simpa using WithinFactor.refl r0
  have h3 := (((Apx.const hfl b3).mul (Apx.lg hlib.log hr0 (by norm_num)) (by norm_num)
    (by norm_num)).round hfl (by norm_num)).mono (k' := 4) (by norm_num)
  have h4 := (((h2.add h3).mono (k' := 8) (by norm_num)).round hfl (by norm_num))
  have h5 := (((Apx.const hfl (x := 0.656) (by norm_num)).mul (Apx.of (le_refl |e|)) (by norm_num)
    (by norm_num)).round hfl (by norm_num))
  have h6 := (((h4.sub h5).mono (k' := 9) (by norm_num)).round hfl (by norm_num))
  have h7 := (((((Apx.const hfl (x := 0.334) (by norm_num)).mul (Apx.of (le_refl |n|)) (by norm_num)
    (by norm_num)).round hfl (by norm_num)).div s0).round hfl (by norm_num))
  have h8 := (((h6.sub h7).mono (k' := 10) (by norm_num)).round hfl (by norm_num))
  refine h8.1.trans ?_
  have a1 := abs_nonneg (lg (projectedGsd (1 / 2) g el / 0.0254))
  have a2 := abs_nonneg e
  have a3 := abs_nonneg (lg r)
  have a4 : 0 ≤ |n| / |s| := by positivity
  have a5 : c1 * (1 + |lg (projectedGsd (1 / 2) g el / 0.0254)|) ≤ 3.32 * (1 + |lg (projectedGsd (1 / 2) g el / 0.0254)|) := by
    gcongr
  have a6 : c2 * (1 + |lg r|) ≤ 2.817 * (1 + |lg r|) := by gcongr
  have a7 : 0.334 * |n| / |s| = 0.334 * (|n| / |s|) := by ring
  rw [a7]
  generalize c1 * (1 + |lg (projectedGsd (1 / 2) g el / 0.0254)|) = A at *
  generalize c2 * (1 + |lg r|) = B at *
  generalize |n| / |s| = C at *
  linarith

/-- **C108** (GIQE 4, rounding): for a relative edge response that is a double the branch is the exact one too. -/
theorem C108_giqe4_rounding (hfl : RoundsToNearest fl) (hlib : Accurate lgD sinD expD powD) {r g e n s el : ℝ}
    (hr : IsDouble r) (r0 : 0 < r) (g0 : 0 < g) (s0 : s ≠ 0) (e0 : 0 < el) (e1 : el ≤ Real.pi / 2) :
    ∃ y gp, giqe4 (.np (.fin r)) (.np (.fin g)) (.np (.fin e)) (.np (.fin n)) (.np (.fin s)) (.fin el) = .ok (.fin y, .fin gp)
      ∧ |giqe4D fl lgD sinD powD r g e n s el - y| ≤ 1.1e-14 * (17 + 3.4 * |lg (gp / 0.0254)| + 3 * |lg r| + |e| + |n| / |s|)
      ∧ |projectedGsdD fl sinD powD 0.5 g el - gp| ≤ 5e-15 * gp := by
  have hb := branch_exact hfl hr
  have hhalf : (0.5 : ℝ) = 1 / 2 := by norm_num
  refine ⟨_, _, giqe4_fin rfl rfl rfl rfl rfl r0 g0 s0 (sin_pos_elev e0 e1), ?_, ?_⟩
  · unfold giqe4D
    dsimp only
    by_cases h : 0.9 ≤ r
    · rw [if_pos (hb.mpr h), if_pos (hb.mpr h), if_pos h]
      exact giqe4_coefficients hfl hlib (by norm_num) (by norm_num) (by norm_num) (by norm_num) r0 g0 s0 e0 e1
    · rw [if_neg (fun c => h (hb.mp c)), if_neg (fun c => h (hb.mp c)), if_neg h]
      exact giqe4_coefficients hfl hlib (by norm_num) (by norm_num) (by norm_num) (by norm_num) r0 g0 s0 e0 e1
  · rw [hhalf]
    have hg := gsd_within hfl hlib g0 e0 e1 (p := 1 / 2) (by norm_num) (by norm_num)
    have := hg.error (by norm_num)
    have := hg.2.1
    linarith

theorem rer5_within (hfl : RoundsToNearest fl) (hlib : Accurate lgD sinD expD powD) {r1 r2 : ℝ} (h1 : 0 < r1) (h2 : 0 < r2) :
    WithinFactor ((4 + 0.4 * |lg (rer5 r1 r2)|) * 1e-15) (rer5D fl powD r1 r2) (rer5 r1 r2) := by
  have hm : 0 < min r1 r2 := lt_min h1 h2
  have hM : 0 < max r1 r2 := lt_max_of_lt_left h1
  have z : WithinFactor (3 * 1e-15) (fl (max r1 r2 * powD (min r1 r2) 2)) (max r1 r2 * min r1 r2 ^ 2) := by
    have := (((WithinFactor.refl hM).mul (pow_within hlib (WithinFactor.refl hm) (p := 2) (by norm_num))).round hfl)
    rw [show min r1 r2 ^ (2 : ℝ) = min r1 r2 ^ (2 : ℕ) by norm_cast] at this
    exact this.mono (by norm_num)
  have hlog : Real.log (rer5 r1 r2) = 1 / 3 * Real.log (max r1 r2 * min r1 r2 ^ 2) := Real.log_rpow z.2.1 _
  have hL : |Real.log (rer5 r1 r2)| ≤ 2.304 * |lg (rer5 r1 r2)| := by
    have h10 := log_ten
    have h10' := log_ten_le
    have hp : 0 < Real.log 10 := by linarith
    have : Real.log (rer5 r1 r2) = lg (rer5 r1 r2) * Real.log 10 := by rw [lg_eq, div_mul_cancel₀ _ hp.ne']
    rw [this, abs_mul, abs_of_pos hp]
    have := abs_nonneg (lg (rer5 r1 r2))
    nlinarith
  have hp := hfl.error (1 / 3)
  have p0 : 0 < fl (1 / 3) := by
    obtain ⟨a, -⟩ := abs_le.mp hp
    rw [abs_of_pos (by norm_num)] at a
    linarith
  unfold rer5D
  have h3 : WithinFactor (2 * 1e-15) (powD (fl (max r1 r2 * powD (min r1 r2) 2)) (fl (1 / 3)))
      (fl (max r1 r2 * powD (min r1 r2) 2) ^ fl (1 / 3)) :=
    within_of_rel (Real.rpow_pos_of_pos z.1 _) (by norm_num) (hlib.pow _ _ z.1)
  refine ⟨h3.1, rer5_pos h1 h2, ?_⟩
  have h4 := h3.2.2
  rw [Real.log_rpow z.1] at h4
  have hz := z.2.2
  generalize fl (max r1 r2 * powD (min r1 r2) 2) = z' at *
  generalize Real.log (powD z' (fl (1 / 3))) = P at *
  rw [hlog] at hL ⊢
  generalize Real.log (max r1 r2 * min r1 r2 ^ 2) = Z at *
  generalize Real.log z' = Z' at *
  generalize |lg (rer5 r1 r2)| = L at *
  generalize fl (1 / 3) = p at *
  rw [abs_of_pos (by norm_num : (0 : ℝ) < 1 / 3)] at hp
  rw [abs_mul, abs_of_pos (by norm_num : (0 : ℝ) < 1 / 3)] at hL
  have e : P - 1 / 3 * Z = (P - p * Z') + (p - 1 / 3) * Z + (p - 1 / 3) * (Z' - Z) + 1 / 3 * (Z' - Z) := by ring
  have t1 : |(p - 1 / 3) * Z| ≤ 1.2e-16 * (1 / 3) * |Z| := by
    rw [abs_mul]; exact mul_le_mul_of_nonneg_right hp (abs_nonneg _)
  have t2 : |(p - 1 / 3) * (Z' - Z)| ≤ 1.2e-16 * (1 / 3) * (3 * 1e-15) := by
    rw [abs_mul]; exact mul_le_mul hp hz (abs_nonneg _) (by norm_num)
  have t3 : |1 / 3 * (Z' - Z)| ≤ 1 / 3 * (3 * 1e-15) := by
    rw [abs_mul, abs_of_pos (by norm_num : (0 : ℝ) < 1 / 3)]; exact mul_le_mul_of_nonneg_left hz (by norm_num)
  rw [e]
  have s1 := abs_add_le ((P - p * Z') + (p - 1 / 3) * Z + (p - 1 / 3) * (Z' - Z)) (1 / 3 * (Z' - Z))
  have s2 := abs_add_le ((P - p * Z') + (p - 1 / 3) * Z) ((p - 1 / 3) * (Z' - Z))
  have s3 := abs_add_le (P - p * Z') ((p - 1 / 3) * Z)
  have := abs_nonneg Z
  linarith

theorem Apx.pow_four {k x' x m : ℝ} (h : Apx k x' x m) (hk : k ≤ 100)
    (hp : ∀ x, |powD x 4 - x ^ 4| ≤ 1e-15 * x ^ 4) :
    Apx (4 * k + 5) (powD x' 4) (x ^ 4) (m ^ 4) := by
  have h2 := h.mul h (by linarith) (by linarith)
  have h4 := h2.mul h2 (by linarith) (by linarith)
  have e1 : x' * x' * (x' * x') = x' ^ 4 := by ring
  have e2 : x * x * (x * x) = x ^ 4 := by ring
  have e3 : m * m * (m * m) = m ^ 4 := by ring
  rw [e1, e2, e3] at h4
  refine ⟨?_, h4.2⟩
  have b := hp x'
  have c1 := h4.1
  have c2 := h4.2
  have hm : 0 ≤ m ^ 4 := by positivity
  have c3 : |x' ^ 4 - x ^ 4| ≤ m ^ 4 := c1.trans (by nlinarith)
  have p0 : 0 ≤ x ^ 4 := by positivity
  rw [abs_of_nonneg p0] at c2
  have c4 : x' ^ 4 ≤ 2 * m ^ 4 := by
    have := (abs_le.mp c3).2
    linarith
  have := abs_sub_le (powD x' 4) (x' ^ 4) (x ^ 4)
  linarith

/-- **C108** (GIQE 5, rounding). -/
theorem C108_giqe5_rounding (hfl : RoundsToNearest fl) (hlib : Accurate lgD sinD expD powD) {r1 r2 g s el : ℝ}
    (h1 : 0 < r1) (h2 : 0 < r2) (g0 : 0 < g) (s0 : 0 < s) (e0 : 0 < el) (e1 : el ≤ Real.pi / 2) :
    ∃ y gw r, giqe5 (.fin r1) (.fin r2) (.fin g) (.np (.fin s)) (.fin el) = .ok (.fin y, .fin gw, .fin r)
      ∧ |giqe5D fl lgD sinD expD powD r1 r2 g s el - y|
        ≤ 2e-14 * (17 + 3.4 * |lg (gw / 0.0254)| + 3.4 * |lg r| + 2 * (1 + |lg r|) ^ 4 + 1.8 / s)
      ∧ |projectedGsdD fl sinD powD 0.25 g el - gw| ≤ 5e-15 * gw
      ∧ (|lg r| ≤ 100 → |rer5D fl powD r1 r2 - r| ≤ 5e-14 * r) := by
  have hq : (0.25 : ℝ) = 1 / 4 := by norm_num
  have hg := gsd_within hfl hlib g0 e0 e1 (p := 1 / 4) (by norm_num) (by norm_num)
  have hr := rer5_within hfl hlib h1 h2
  refine ⟨_, _, _, giqe5_fin rfl h1 h2 g0 s0.ne' (sin_pos_elev e0 e1), ?_, ?_, ?_⟩
  · have q : WithinFactor (6 * 1e-15) (fl (projectedGsdD fl sinD powD (1 / 4) g el / fl 0.0254)) (projectedGsd (1 / 4) g el / 0.0254) :=
      ((hg.div (fl_within hfl (x := 0.0254) (by norm_num))).round hfl).mono (by norm_num)
    have t1 := (((Apx.const hfl (x := 3.32) (by norm_num)).mul (Apx.lg hlib.log q (by norm_num)) (by norm_num)
      (by norm_num)).round hfl (by norm_num)).mono (k' := 7) (by norm_num)
    have t2 := ((((Apx.const hfl (x := 9.57) (by norm_num)).sub t1).mono (k' := 7) (by norm_num)).round hfl (by norm_num))
    -- the logarithm of the combined relative edge response
    have l : Apx 2 (lgD (rer5D fl powD r1 r2)) (lg (rer5 r1 r2)) (1 + |lg (rer5 r1 r2)|) := by
      refine ⟨?_, by linarith⟩
      have a1 := hlib.log _ hr.1
      have a2 := hr.lg
      have a3 := abs_nonneg (lg (rer5 r1 r2))
      have a4 := abs_sub_le (lgD (rer5D fl powD r1 r2)) (lg (rer5D fl powD r1 r2)) (lg (rer5 r1 r2))
      have a5 := abs_add_le (lg (rer5D fl powD r1 r2) - lg (rer5 r1 r2)) (lg (rer5 r1 r2))
      rw [sub_add_cancel] at a5
      linarith
    -- the exponential
    have a : WithinFactor (2 * 1e-15) (-fl (-fl 1.9 / s)) (1.9 / s) := by
      have b : WithinFactor 1e-15 (fl 1.9 / s) (1.9 / s) :=
        ((fl_within hfl (x := 1.9) (by norm_num)).div (WithinFactor.refl s0)).mono (by norm_num)
      have c : WithinFactor 1e-15 (-fl (-fl 1.9 / s)) (fl 1.9 / s) := by
        have := fl_within hfl.mirror b.1
        simpa [neg_div] using this
      exact (c.trans b).mono (by norm_num)
    have x : Apx 2 (1 - expD (fl (-fl 1.9 / s))) (1 - Real.exp (-1.9 / s)) 1 := by
      have b1 := hlib.exp (fl (-fl 1.9 / s))
      have b2 := a.exp_neg (by norm_num)
      rw [neg_neg] at b2
      have b3 : Real.exp (fl (-fl 1.9 / s)) ≤ 1 := Real.exp_le_one_iff.mpr (by linarith [a.1])
      have b4 : Real.exp (-1.9 / s) ≤ 1 := Real.exp_le_one_iff.mpr (by
        rw [neg_div]; have := a.2.1; linarith)
      have b5 := Real.exp_pos (-1.9 / s)
      rw [show -(1.9 / s) = -1.9 / s by ring] at b2
      constructor
      · rw [show 1 - expD (fl (-fl 1.9 / s)) - (1 - Real.exp (-1.9 / s)) = Real.exp (-1.9 / s) - expD (fl (-fl 1.9 / s)) by ring,
          abs_sub_comm]
        have := abs_sub_le (expD (fl (-fl 1.9 / s))) (Real.exp (fl (-fl 1.9 / s))) (Real.exp (-1.9 / s))
        linarith
      · rw [abs_of_nonneg (by linarith)]; linarith
    have t3 := ((((((Apx.const hfl (x := 3.32) (by norm_num)).mul (x.round hfl (by norm_num)) (by norm_num)
      (by norm_num)).round hfl (by norm_num)).mul l (by norm_num) (by norm_num)).round hfl (by norm_num)).mono (k' := 10)
      (by norm_num))
    have t4 := (((t2.add t3).mono (k' := 10) (by norm_num)).round hfl (by norm_num))
    have two : Apx 0 (2 : ℝ) 2 2 := Apx.of (by norm_num)
    have t5 := ((two.mul (l.pow_four (by norm_num) hlib.pow_four) (by norm_num) (by norm_num)).round hfl
      (by norm_num)).mono (k' := 15) (by norm_num)
    have t6 := (((t4.sub t5).mono (k' := 15) (by norm_num)).round hfl (by norm_num))
    have t7 := (((Apx.const hfl (x := 1.8) (by norm_num)).div s0.ne').round hfl (by norm_num))
    have t8 := (((t6.sub t7).mono (k' := 16) (by norm_num)).round hfl (by norm_num))
    unfold giqe5D
    dsimp only
    rw [hq]
    refine t8.1.trans ?_
    rw [abs_of_pos s0]
    have a1 := abs_nonneg (lg (projectedGsd (1 / 4) g el / 0.0254))
    have a2 := abs_nonneg (lg (rer5 r1 r2))
    have a3 : 0 ≤ 1.8 / s := by positivity
    have a4 : 0 ≤ (1 + |lg (rer5 r1 r2)|) ^ 4 := by positivity
    generalize (1 + |lg (rer5 r1 r2)|) ^ 4 = A at *
    generalize 1.8 / s = B at *
    linarith
  · rw [hq]
    have := hg.error (by norm_num)
    have := hg.2.1
    linarith
  · intro hL
    have := hr.error (by linarith)
    have h0 := hr.2.1
    have : 1.02 * ((4 + 0.4 * |lg (rer5 r1 r2)|) * 1e-15) * rer5 r1 r2 ≤ 5e-14 * rer5 r1 r2 := by
      apply mul_le_mul_of_nonneg_right _ h0.le
      linarith
    linarith

/-- **C108** (GIQE 3, sensitivity): inputs known up to the factor `e ^ δ` and an overshoot known up to `η`. -/
theorem C108_giqe3_sensitivity {δ η r g e n s r' g' e' n' s' : ℝ} (hd : δ ≤ 0.01) (hr : WithinFactor δ r' r) (hg : WithinFactor δ g' g)
    (he : |e' - e| ≤ η) (hn : WithinFactor δ n' n) (hs : WithinFactor δ s' s) :
    ∃ y y', giqe3 (.np (.fin r)) (.np (.fin g)) (.np (.fin e)) (.np (.fin n)) (.np (.fin s)) = .ok (.fin y)
      ∧ giqe3 (.np (.fin r')) (.np (.fin g')) (.np (.fin e')) (.np (.fin n')) (.np (.fin s')) = .ok (.fin y')
      ∧ |y' - y| ≤ (2.9 + 2.1 * (n / s)) * δ + 1.48 * η := by
  refine ⟨_, _, giqe3_fin rfl rfl rfl rfl rfl hr.2.1 hg.2.1 hs.2.1.ne', giqe3_fin rfl rfl rfl rfl rfl hr.1 hg.1 hs.1.ne', ?_⟩
  unfold niirs3
  have q := (hr.div (hg.div (WithinFactor.refl (x := 0.0254) (by norm_num)))).lg
  have w := (hn.div hs).error (by linarith)
  have h0 := hr.nonneg
  have h1 : 0 < n / s := div_pos hn.2.1 hs.2.1
  have e1 : (11.81 + 3.32 * lg (r' / (g' / 0.0254)) - 1.48 * e' - n' / s' - (11.81 + 3.32 * lg (r / (g / 0.0254)) - 1.48 * e - n / s))
    = 3.32 * (lg (r' / (g' / 0.0254)) - lg (r / (g / 0.0254))) - 1.48 * (e' - e) - (n' / s' - n / s) := by ring
  rw [e1]
  generalize lg (r' / (g' / 0.0254)) - lg (r / (g / 0.0254)) = A at *
  generalize n' / s' - n / s = B at *
  generalize n / s = C at *
  have hC : 0 ≤ δ * C := by positivity
  rw [abs_le] at *
  constructor <;> nlinarith

theorem projected_within {δ p g' g el' el : ℝ} (hg : WithinFactor δ g' g) (hel : WithinFactor δ el' el) (h1 : el' ≤ Real.pi / 2)
    (h2 : el ≤ Real.pi / 2) (hp : 0 ≤ p) : WithinFactor ((1 + p) * δ) (projectedGsd p g' el') (projectedGsd p g el) :=
  (hg.div ((hel.sin h1 h2).rpow hp)).mono (by linarith)

/-- **C108** (GIQE 4, sensitivity), on one side of the break at a relative edge response of 0.9. -/
theorem C108_giqe4_sensitivity {δ η r g e n s el r' g' e' n' s' el' : ℝ} (hd : δ ≤ 0.01) (hr : WithinFactor δ r' r)
    (hb : 0.9 ≤ r' ↔ 0.9 ≤ r) (hg : WithinFactor δ g' g) (he : |e' - e| ≤ η) (hn : WithinFactor δ n' n) (hs : WithinFactor δ s' s)
    (hel : WithinFactor δ el' el) (h1 : el' ≤ Real.pi / 2) (h2 : el ≤ Real.pi / 2) :
    ∃ y y' gp gp', giqe4 (.np (.fin r)) (.np (.fin g)) (.np (.fin e)) (.np (.fin n)) (.np (.fin s)) (.fin el) = .ok (.fin y, .fin gp)
      ∧ giqe4 (.np (.fin r')) (.np (.fin g')) (.np (.fin e')) (.np (.fin n')) (.np (.fin s')) (.fin el') = .ok (.fin y', .fin gp')
      ∧ |y' - y| ≤ (3.4 + 0.7 * (n / s)) * δ + 0.656 * η := by
  refine ⟨_, _, _, _, giqe4_fin rfl rfl rfl rfl rfl hr.2.1 hg.2.1 hs.2.1.ne' (sin_pos_elev hel.2.1 h2),
    giqe4_fin rfl rfl rfl rfl rfl hr.1 hg.1 hs.1.ne' (sin_pos_elev hel.1 h1), ?_⟩
  have q := ((projected_within hg hel h1 h2 (p := 1 / 2) (by norm_num)).div (WithinFactor.refl (x := 0.0254) (by norm_num))).lg
  have l := hr.lg
  have w := (hn.div hs).error (by linarith)
  have h0 := hr.nonneg
  have hp : 0 < n / s := div_pos hn.2.1 hs.2.1
  have key : ∀ c1 c2 : ℝ, 0 ≤ c1 → 0 ≤ c2 → c1 * 0.652 + c2 * 0.4345 ≤ 3.4 →
      |niirs4 c1 c2 r' g' e' n' s' el' - niirs4 c1 c2 r g e n s el| ≤ (3.4 + 0.7 * (n / s)) * δ + 0.656 * η := by
    intro c1 c2 k1 k2 k3
    unfold niirs4
    rw [mul_div_assoc 0.334 n s, mul_div_assoc 0.334 n' s']
    generalize lg (projectedGsd (1 / 2) g' el' / 0.0254) = A' at *
    generalize lg (projectedGsd (1 / 2) g el / 0.0254) = A at *
    generalize lg r' = L' at *
    generalize lg r = L at *
    generalize n' / s' = C' at *
    generalize n / s = C at *
    have e1 : 10.251 - c1 * A' + c2 * L' - 0.656 * e' - 0.334 * C' - (10.251 - c1 * A + c2 * L - 0.656 * e - 0.334 * C)
      = -(c1 * (A' - A)) + c2 * (L' - L) - 0.656 * (e' - e) - 0.334 * (C' - C) := by ring
    rw [e1]
    have hC : 0 ≤ δ * C := by positivity
    have m1 : |c1 * (A' - A)| ≤ c1 * (0.652 * δ) := by
      rw [abs_mul, abs_of_nonneg k1]
      exact mul_le_mul_of_nonneg_left (by linarith) k1
    have m2 : |c2 * (L' - L)| ≤ c2 * (0.4345 * δ) := by
      rw [abs_mul, abs_of_nonneg k2]
      exact mul_le_mul_of_nonneg_left l k2
    have m3 : (c1 * 0.652 + c2 * 0.4345) * δ ≤ 3.4 * δ := mul_le_mul_of_nonneg_right k3 h0
    generalize c1 * (A' - A) = U at *
    generalize c2 * (L' - L) = V at *
    rw [abs_le] at *
    constructor <;> nlinarith
  by_cases h : 0.9 ≤ r
  · rw [if_pos h, if_pos (hb.mpr h)]
    exact key _ _ (by norm_num) (by norm_num) (by norm_num)
  · rw [if_neg h, if_neg fun c => h (hb.mp c)]
    exact key _ _ (by norm_num) (by norm_num) (by norm_num)

theorem pow_four_diff {x y d : ℝ} (h : |x - y| ≤ d) (hd : d ≤ 0.01) :
    |x ^ 4 - y ^ 4| ≤ d * (4.1 * |y| ^ 3 + 0.1 * |y| + 0.001) := by
  have hd0 : 0 ≤ d := (abs_nonneg _).trans h
  have e : x ^ 4 - y ^ 4 = (x - y) * (4 * y ^ 3 + 6 * y ^ 2 * (x - y) + 4 * y * (x - y) ^ 2 + (x - y) ^ 3) := by ring
  rw [e, abs_mul]
  apply mul_le_mul h _ (abs_nonneg _) hd0
  generalize x - y = t at *
  have ht : |t| ≤ 0.01 := h.trans hd
  have t0 := abs_nonneg t
  have y0 := abs_nonneg y
  have b1 : |4 * y ^ 3 + 6 * y ^ 2 * t + 4 * y * t ^ 2 + t ^ 3| ≤ 4 * |y| ^ 3 + 6 * |y| ^ 2 * |t| + 4 * |y| * |t| ^ 2 + |t| ^ 3 := by
    have c1 := abs_add_le (4 * y ^ 3 + 6 * y ^ 2 * t + 4 * y * t ^ 2) (t ^ 3)
    have c2 := abs_add_le (4 * y ^ 3 + 6 * y ^ 2 * t) (4 * y * t ^ 2)
    have c3 := abs_add_le (4 * y ^ 3) (6 * y ^ 2 * t)
    have d1 : |4 * y ^ 3| = 4 * |y| ^ 3 := by rw [abs_mul, abs_pow]; norm_num
    have d2 : |6 * y ^ 2 * t| = 6 * |y| ^ 2 * |t| := by rw [abs_mul, abs_mul, abs_pow]; norm_num
    have d3 : |4 * y * t ^ 2| = 4 * |y| * |t| ^ 2 := by rw [abs_mul, abs_mul, abs_pow]; norm_num
    have d4 : |t ^ 3| = |t| ^ 3 := abs_pow _ _
    linarith
  refine b1.trans ?_
  generalize |y| = Y at *
  generalize |t| = T at *
  have f1 : 6 * Y ^ 2 * T ≤ 6 * Y ^ 2 * 0.01 := by gcongr
  have f2 : 4 * Y * T ^ 2 ≤ 4 * Y * 0.01 ^ 2 := by gcongr
  have f3 : T ^ 3 ≤ 0.01 ^ 3 := by gcongr
  have f4 : Y ^ 2 ≤ Y + Y ^ 3 := by
    rcases le_total Y 1 with c | c
    · nlinarith [pow_nonneg y0 3]
    · nlinarith [pow_nonneg y0 2]
  nlinarith

/-- **C108** (GIQE 5, sensitivity). -/
theorem C108_giqe5_sensitivity {δ a b g s el a' b' g' s' el' : ℝ} (hd : δ ≤ 0.01) (ha : WithinFactor δ a' a) (hb : WithinFactor δ b' b)
    (hg : WithinFactor δ g' g) (hs : WithinFactor δ s' s) (hel : WithinFactor δ el' el) (h1 : el' ≤ Real.pi / 2) (h2 : el ≤ Real.pi / 2) :
    ∃ y y' gw gw' r r', giqe5 (.fin a) (.fin b) (.fin g) (.np (.fin s)) (.fin el) = .ok (.fin y, .fin gw, .fin r)
      ∧ giqe5 (.fin a') (.fin b') (.fin g') (.np (.fin s')) (.fin el') = .ok (.fin y', .fin gw', .fin r')
      ∧ WithinFactor δ r' r ∧ WithinFactor (1.25 * δ) gw' gw
      ∧ |y' - y| ≤ (3.3 + 1.4 * |lg r| + 3.6 * |lg r| ^ 3 + 1.9 / s) * δ := by
  refine ⟨_, _, _, _, _, _, giqe5_fin rfl ha.2.1 hb.2.1 hg.2.1 hs.2.1.ne' (sin_pos_elev hel.2.1 h2),
    giqe5_fin rfl ha.1 hb.1 hg.1 hs.1.ne' (sin_pos_elev hel.1 h1), ?_⟩
  have hr : WithinFactor δ (rer5 a' b') (rer5 a b) := by
    unfold rer5
    have := ((ha.max hb).mul ((ha.min hb).mul (ha.min hb))).rpow (p := 1 / 3) (by norm_num)
    simp only [← sq] at this
    exact this.mono (by linarith)
  have hp := projected_within hg hel h1 h2 (p := 1 / 4) (by norm_num)
  refine ⟨hr, hp.mono (by linarith [hr.nonneg]), ?_⟩
  have q := (hp.div (WithinFactor.refl (x := 0.0254) (by norm_num))).lg
  have l := hr.lg
  have h0 := hr.nonneg
  have hw : WithinFactor δ (1.9 / s') (1.9 / s) := ((WithinFactor.refl (x := 1.9) (by norm_num)).div hs).mono (by linarith)
  have x := hw.exp_neg (by linarith)
  have w : |1.8 / s' - 1.8 / s| ≤ 1.02 * δ * (1.8 / s) :=
    (((WithinFactor.refl (x := 1.8) (by norm_num)).div hs).mono (by linarith)).error (by linarith)
  have x0 : 0 ≤ 1 - Real.exp (-(1.9 / s')) := by
    have : Real.exp (-(1.9 / s')) ≤ 1 := Real.exp_le_one_iff.mpr (by linarith [hw.1])
    linarith
  have x1 : 1 - Real.exp (-(1.9 / s')) ≤ 1 := by linarith [Real.exp_pos (-(1.9 / s'))]
  have f := pow_four_diff l (by linarith)
  unfold Spec.niirs5
  rw [neg_div, neg_div]
  have hS : 1.9 / s = 1.9 * (1 / s) := by ring
  have hS' : 1.8 / s = 1.8 * (1 / s) := by ring
  have s1 : 0 < 1 / s := one_div_pos.mpr hs.2.1
  generalize Real.exp (-(1.9 / s')) = E' at *
  generalize Real.exp (-(1.9 / s)) = E at *
  rw [hS]
  rw [hS'] at w ⊢
  generalize 1.8 / s' = D' at *
  generalize 1 / s = S at *
  generalize lg (projectedGsd (1 / 4) g' el' / 0.0254) = A' at *
  generalize lg (projectedGsd (1 / 4) g el / 0.0254) = A at *
  generalize lg (rer5 a' b') = L' at *
  generalize lg (rer5 a b) = L at *
  have e1 : 9.57 - 3.32 * A' + 3.32 * (1 - E') * L' - 2 * L' ^ 4 - D' - (9.57 - 3.32 * A + 3.32 * (1 - E) * L - 2 * L ^ 4 - 1.8 * S)
    = -(3.32 * (A' - A)) + 3.32 * ((1 - E') * (L' - L)) - 3.32 * ((E' - E) * L) - 2 * (L' ^ 4 - L ^ 4) - (D' - 1.8 * S) := by ring
  rw [e1]
  have m1 : |(1 - E') * (L' - L)| ≤ 0.4345 * δ := by
    rw [abs_mul, abs_of_nonneg x0]
    calc (1 - E') * |L' - L| ≤ 1 * |L' - L| := mul_le_mul_of_nonneg_right x1 (abs_nonneg _)
      _ ≤ _ := by rw [one_mul]; exact l
  have m2 : |(E' - E) * L| ≤ 0.38 * δ * |L| := by
    rw [abs_mul]; exact mul_le_mul_of_nonneg_right x (abs_nonneg _)
  have y0 : 0 ≤ δ * |L| := by positivity
  have y3 : 0 ≤ δ * |L| ^ 3 := by positivity
  have yS : 0 ≤ δ * S := by positivity
  generalize (1 - E') * (L' - L) = U at *
  generalize (E' - E) * L = V at *
  generalize L' ^ 4 - L ^ 4 = W at *
  generalize A' - A = Q at *
  generalize D' - 1.8 * S = R at *
  clear e1 hr hp hw ha hb hg hs hel x l
  generalize |L| ^ 3 = L3 at *
  generalize |L| = L1 at *
  have g1 : 0.4345 * δ * (4.1 * L3 + 0.1 * L1 + 0.001) = 1.78145 * (δ * L3) + 0.04345 * (δ * L1) + 0.0004345 * δ := by ring
  have g2 : (3.3 + 1.4 * L1 + 3.6 * L3 + 1.9 * S) * δ = 3.3 * δ + 1.4 * (δ * L1) + 3.6 * (δ * L3) + 1.9 * (δ * S) := by ring
  have g3 : 1.02 * δ * (1.8 * S) = 1.836 * (δ * S) := by ring
  have g4 : 0.38 * δ * L1 = 0.38 * (δ * L1) := by ring
  rw [g1] at f
  rw [g2]
  rw [g3] at w
  rw [g4] at m2
  generalize δ * L1 = p1 at *
  generalize δ * L3 = p3 at *
  generalize δ * S = pS at *
  rw [abs_le] at *
  constructor <;> linarith

/-- Rounding to nearest and a library meeting the hypotheses exist. -/
example : ∃ (fl lgD sinD expD : ℝ → ℝ) (powD : ℝ → ℝ → ℝ), RoundsToNearest fl ∧ Accurate lgD sinD expD powD :=
  ⟨roundDouble, lg, Real.sin, Real.exp, fun x p => x ^ p, roundDouble_rounds,
    ⟨fun x _ => by rw [sub_self, abs_zero]; positivity, fun x => by rw [sub_self, abs_zero]; positivity,
      fun x => by rw [sub_self, abs_zero]; positivity,
      fun x p hx => by rw [sub_self, abs_zero]; positivity,
      fun x => by
        have : x ^ (4 : ℝ) = x ^ 4 := by norm_cast
        rw [this, sub_self, abs_zero]; positivity⟩⟩

theorem demo_rer5 : rer5 0.35 0.35 = 0.35 := by
  unfold rer5
  rw [max_self, min_self]
  rw [show (0.35 : ℝ) * 0.35 ^ 2 = 0.35 ^ (3 : ℝ) by norm_num, ← Real.rpow_mul (by norm_num)]
  norm_num

theorem demo_lg : |lg 0.35| ≤ 0.5 := by
  have h0 : lg 0.35 ≤ 0 := Real.logb_nonpos (by norm_num) (by norm_num) (by norm_num)
  rw [abs_of_nonpos h0]
  have h1 : lg (10 ^ (-1 : ℝ)) ≤ lg (0.35 * 0.35) := lg_le (by positivity) (by norm_num [Real.rpow_neg_one])
  have h2 : lg (10 ^ (-1 : ℝ)) = -1 := Real.logb_rpow (by norm_num) (by norm_num)
  have h3 : lg (0.35 * 0.35) = lg 0.35 + lg 0.35 := Real.logb_mul (by norm_num) (by norm_num)
  rw [h2, h3] at h1
  generalize lg 0.35 = L at *
  norm_num
  linarith

/-- The example of the GIQE 5 documentation (RER 0.35, 20.8 inches, SNR 50, straight down): rounding costs less than
`10^-12`. -/
example (hfl : RoundsToNearest fl) (hlib : Accurate lgD sinD expD powD) :
    ∃ (y : ℝ) (gw r : XR), giqe5 (.fin 0.35) (.fin 0.35) (.fin 0.52832) (.np (.fin 50)) (.fin (Real.pi / 2)) = .ok (.fin y, gw, r)
      ∧ |giqe5D fl lgD sinD expD powD 0.35 0.35 0.52832 50 (Real.pi / 2) - y| ≤ 1e-12 := by
  obtain ⟨y, gw, r, h, h1, -⟩ := C108_giqe5_rounding hfl hlib (r1 := 0.35) (r2 := 0.35) (g := 0.52832) (s := 50)
    (el := Real.pi / 2) (by norm_num) (by norm_num) (by norm_num) (by norm_num) (by positivity) le_rfl
  refine ⟨y, _, _, h, h1.trans ?_⟩
  rw [giqe5_fin rfl (by norm_num) (by norm_num) (by norm_num) (by norm_num) (by simp)] at h
  simp only [Except.ok.injEq, Prod.mk.injEq, XR.fin.injEq, demo_rer5] at h
  obtain ⟨-, hg, rfl⟩ := h
  have e1 : gw / 0.0254 = 20.8 := by rw [← hg]; simp [projectedGsd]; norm_num
  have b1 : |lg (gw / 0.0254)| ≤ 2 := by
    have h0 : 0 ≤ lg 20.8 := Real.logb_nonneg (by norm_num) (by norm_num)
    rw [e1, abs_of_nonneg h0]
    have : lg 20.8 ≤ lg (10 ^ (2 : ℝ)) := lg_le (by norm_num) (by norm_num)
    rwa [show lg (10 ^ (2 : ℝ)) = 2 from Real.logb_rpow (by norm_num) (by norm_num)] at this
  have b2 := demo_lg
  have b3 : (1 + |lg 0.35|) ^ 4 ≤ 1.5 ^ 4 := by
    have := abs_nonneg (lg 0.35)
    gcongr
    linarith
  generalize |lg 0.35| = L at *
  generalize (1 + L) ^ 4 = F at *
  generalize |lg (gw / 0.0254)| = G at *
  norm_num at b3 h1 ⊢
  linarith

/-- Inputs of the same example that are off by less than half a percent move the score by less than 0.05. -/
example : ∃ (y y' : ℝ) (gw gw' r r' : XR),
    giqe5 (.fin 0.35) (.fin 0.35) (.fin 0.52832) (.np (.fin 50)) (.fin (Real.pi / 2)) = .ok (.fin y, gw, r)
    ∧ giqe5 (.fin 0.351) (.fin 0.35) (.fin 0.527) (.np (.fin 50)) (.fin (Real.pi / 2)) = .ok (.fin y', gw', r')
    ∧ |y' - y| ≤ 0.05 := by
  obtain ⟨y, y', gw, gw', r, r', h1, h2, -, -, h3⟩ := C108_giqe5_sensitivity (δ := 0.01) (a := 0.35) (b := 0.35) (g := 0.52832)
    (s := 50) (el := Real.pi / 2) (a' := 0.351) (b' := 0.35) (g' := 0.527) (s' := 50) (el' := Real.pi / 2) (by norm_num)
    ((within_of_rel (by norm_num) (ε := 0.005) (by norm_num) (by rw [abs_le]; constructor <;> norm_num)).mono (by norm_num))
    ((WithinFactor.refl (by norm_num)).mono (by norm_num))
    ((within_of_rel (by norm_num) (ε := 0.005) (by norm_num) (by rw [abs_le]; constructor <;> norm_num)).mono (by norm_num))
    ((WithinFactor.refl (by norm_num)).mono (by norm_num)) ((WithinFactor.refl (by positivity)).mono (by norm_num)) le_rfl le_rfl
  refine ⟨y, y', _, _, _, _, h1, h2, h3.trans ?_⟩
  rw [giqe5_fin rfl (by norm_num) (by norm_num) (by norm_num) (by norm_num) (by simp)] at h1
  simp only [Except.ok.injEq, Prod.mk.injEq, XR.fin.injEq, demo_rer5] at h1
  obtain ⟨-, -, rfl⟩ := h1
  have b2 := demo_lg
  have b3 : |lg 0.35| ^ 3 ≤ 0.5 ^ 3 := by gcongr
  linarith

/-- A relative edge response, a sampling distance and so on as `giqe3` and `giqe4` get them. -/
example (hfl : RoundsToNearest fl) (hlib : Accurate lgD sinD expD powD) :
    (∃ y, giqe3 (.np (.fin 0.5)) (.np (.fin 1)) (.np (.fin 1.2)) (.np (.fin 2)) (.np (.fin 50)) = .ok (.fin y))
    ∧ ∃ y gp, giqe4 (.np (.fin 0.5)) (.np (.fin 1)) (.np (.fin 1.2)) (.np (.fin 2)) (.np (.fin 50)) (.fin 1) = .ok (.fin y, .fin gp) := by
  obtain ⟨y, h, -⟩ := C108_giqe3_rounding hfl hlib (r := 0.5) (g := 1) (e := 1.2) (n := 2) (s := 50) (by norm_num) (by norm_num)
    (by norm_num)
  obtain ⟨y', gp, h', -⟩ := C108_giqe4_rounding hfl hlib (r := 0.5) (g := 1) (e := 1.2) (n := 2) (s := 50) (el := 1)
    ⟨1, -1, by norm_num, by norm_num⟩ (by norm_num) (by norm_num) (by norm_num) (by norm_num)
    (by have := Real.pi_gt_three; linarith)
  exact ⟨⟨y, h⟩, y', gp, h'⟩

end PyBSM
