import Verif.Model.DoubleScalars
import Verif.Model.Simulation
import Verif.Lemmas.DoubleOtfRound
import Verif.Lemmas.Double

/-!
# Wiener filter, defocus radii and dark current in double precision (C148)
-/

noncomputable section

open Classical

namespace PyBSM

open Spec

variable {fl : ℝ → ℝ} {absD : ℂ → ℝ}

/-! ## Wiener filter -/

theorem wienerDen_apx (hfl : RoundsToNearest fl) (ha : ∀ z, |absD z - ‖z‖| ≤ 1e-15 * ‖z‖) (z : ℂ) {n : ℝ} (hn : 0 ≤ n) :
    Apx 5 (fl (fl (absD z ^ 2) + n)) (‖z‖ ^ 2 + n) (‖z‖ ^ 2 + n) := by
  have h1 : Apx 1 (absD z) ‖z‖ ‖z‖ := ⟨by simpa using ha z, by simp⟩
  have h2 := (h1.mul h1 (by norm_num) (by norm_num)).round hfl (by norm_num)
  rw [← sq, ← sq] at h2
  have h3 : Apx 0 n n n := Apx.of (by rw [abs_of_nonneg hn])
  exact (((h2.add h3).mono (k' := 4) (by norm_num)).round hfl (by norm_num)).mono (by norm_num)

/-- **C148** (Wiener filter): where exact arithmetic gives a value, double precision gives one whose real and imaginary parts have
relative errors of at most 7e-15; elsewhere neither gives a value. -/
theorem C148_wiener (hfl : RoundsToNearest fl) (ha : ∀ z, |absD z - ‖z‖| ≤ 1e-15 * ‖z‖) (z : ℂ) {n : ℝ} (hn : 0 ≤ n) :
    (∀ W, wienerFilter z n = some W → ∃ W', wienerD fl absD z n = some W' ∧ |W'.re - W.re| ≤ 7e-15 * |W.re|
      ∧ |W'.im - W.im| ≤ 7e-15 * |W.im|) ∧ (wienerFilter z n = none → wienerD fl absD z n = none) := by
  have h := wienerDen_apx hfl ha z hn
  have d0 : 0 ≤ ‖z‖ ^ 2 + n := by positivity
  unfold wienerFilter wienerD
  dsimp only
  generalize fl (fl (absD z ^ 2) + n) = d' at *
  generalize ‖z‖ ^ 2 + n = d at *
  constructor
  · intro W hW
    split_ifs at hW with hd
    have dp : 0 < d := lt_of_le_of_ne d0 (Ne.symm hd)
    have hd' : d' ≠ 0 := by
      rintro rfl
      have := h.1
      rw [zero_sub, abs_neg, abs_of_pos dp] at this
      linarith
    rw [Option.some.injEq] at hW
    subst hW
    refine ⟨_, if_neg hd', ?_, ?_⟩
    · have q := ((Apx.of (le_refl |z.re|)).quot h dp le_rfl (by norm_num) (by norm_num)).round hfl (by norm_num)
      rw [Complex.div_ofReal_re, Complex.conj_re, abs_div, abs_of_pos dp]
      refine q.1.trans (le_of_eq ?_)
      norm_num
    · have q := ((Apx.of (le_refl |-z.im|)).quot h dp le_rfl (by norm_num) (by norm_num)).round hfl (by norm_num)
      rw [Complex.div_ofReal_im, Complex.conj_im, abs_div, abs_of_pos dp]
      refine q.1.trans (le_of_eq ?_)
      norm_num
  · intro hW
    split_ifs at hW with hd
    rw [hd] at h
    have : d' = 0 := by simpa using h.1
    rw [if_pos this]

/-- **C148** (restored contrast): the rounded Wiener filter never raises the contrast of a pattern above its original by more than 7e-15,
and without noise it restores it within 7e-15. -/
theorem C148_contrast (hfl : RoundsToNearest fl) (ha : ∀ z, |absD z - ‖z‖| ≤ 1e-15 * ‖z‖) {z : ℂ} {n : ℝ} (hn : 0 ≤ n) {W' : ℂ}
    (hW : wienerD fl absD z n = some W') : ‖z * W'‖ ≤ 1 + 7e-15 ∧ (n = 0 → ‖z * W' - 1‖ ≤ 7e-15) := by
  obtain ⟨h1, h2⟩ := C148_wiener hfl ha z hn
  rcases hw : wienerFilter z n with _ | W
  · rw [h2 hw] at hW
    cases hW
  · obtain ⟨V, e, r1, r2⟩ := h1 W hw
    rw [hW, Option.some.injEq] at e
    subst e
    unfold wienerFilter at hw
    dsimp only at hw
    split_ifs at hw with hd
    rw [Option.some.injEq] at hw
    have dp : 0 < ‖z‖ ^ 2 + n := lt_of_le_of_ne (by positivity) (Ne.symm hd)
    have diff : ‖W' - W‖ ≤ 7e-15 * ‖W‖ := by
      have s1 := pow_le_pow_left₀ (abs_nonneg _) r1 2
      have s2 := pow_le_pow_left₀ (abs_nonneg _) r2 2
      refine (sq_le_sq₀ (norm_nonneg _) (by positivity)).mp ?_
      rw [mul_pow, Complex.sq_norm, Complex.sq_norm, Complex.normSq_apply, Complex.normSq_apply, Complex.sub_re, Complex.sub_im]
      rw [mul_pow, sq_abs, sq_abs] at s1 s2
      nlinarith
    have prod : z * W = ((‖z‖ ^ 2 / (‖z‖ ^ 2 + n) : ℝ) : ℂ) := by
      rw [← hw, ← mul_div_assoc, Complex.mul_conj, Complex.normSq_eq_norm_sq]
      push_cast
      ring
    have g0 : 0 ≤ ‖z‖ ^ 2 / (‖z‖ ^ 2 + n) := by positivity
    have g1 : ‖z‖ ^ 2 / (‖z‖ ^ 2 + n) ≤ 1 := by rw [div_le_one dp]; linarith
    have np : ‖z * W‖ ≤ 1 := by rw [prod, Complex.norm_real, Real.norm_eq_abs, abs_of_nonneg g0]; exact g1
    have err : ‖z * W' - z * W‖ ≤ 7e-15 := by
      rw [← mul_sub, norm_mul]
      calc ‖z‖ * ‖W' - W‖ ≤ ‖z‖ * (7e-15 * ‖W‖) := mul_le_mul_of_nonneg_left diff (norm_nonneg _)
        _ = 7e-15 * ‖z * W‖ := by rw [norm_mul]; ring
        _ ≤ 7e-15 * 1 := mul_le_mul_of_nonneg_left np (by norm_num)
        _ = 7e-15 := by norm_num
    constructor
    · have : z * W' = z * W + (z * W' - z * W) := by ring
      rw [this]
      exact (norm_add_le _ _).trans (by linarith)
    · rintro rfl
      rw [prod, add_zero, div_self (by simpa using dp.ne')] at err
      simpa using err

/-! ## Defocus and dark current -/

/-- **C148** (object defocus): the error of the blur radius is at most 7e-15 of the sum of the radii that a focus at infinity would give
for the two distances; a target closer than the focus never gives a negative radius and one farther never a positive one. -/
theorem C148_object (hfl : RoundsToNearest fl) {D R R0 : ℝ} (hD : 0 ≤ D) (hR : 0 < R) (hR0 : 0 < R0) :
    |objectRadiiD fl D R R0 - 0.62 * D * (1 / R - 1 / R0)| ≤ 7e-15 * (0.62 * D * (1 / R + 1 / R0))
      ∧ (R ≤ R0 → 0 ≤ objectRadiiD fl D R R0) ∧ (R0 ≤ R → objectRadiiD fl D R R0 ≤ 0) := by
  have p : 0 ≤ 1 / R := by positivity
  have p0 : 0 ≤ 1 / R0 := by positivity
  refine ⟨?_, ?_, ?_⟩
  · have d : Apx 0 D D D := Apx.of (by rw [abs_of_nonneg hD])
    have a := ((Apx.const hfl (x := 0.62) (by norm_num)).mul d (by norm_num) (by norm_num)).round hfl (by norm_num)
    have b := (((Apx.const hfl p).sub (Apx.const hfl p0)).mono (k' := 1) (by norm_num)).round hfl (by norm_num)
    have c := (a.mul b (by norm_num) (by norm_num)).round hfl (by norm_num)
    exact c.1.trans (mul_le_mul_of_nonneg_right (by norm_num) (by positivity))
  · intro h
    have m := hfl.mono (one_div_le_one_div_of_le hR h)
    have z : ∀ {x : ℝ}, 0 ≤ x → 0 ≤ fl x := fun {x} hx => by have := hfl.mono hx; rwa [hfl.zero] at this
    exact z (mul_nonneg (z (mul_nonneg (z (by norm_num)) hD)) (z (by linarith)))
  · intro h
    have m := hfl.mono (one_div_le_one_div_of_le hR0 h)
    have z : ∀ {x : ℝ}, 0 ≤ x → 0 ≤ fl x := fun {x} hx => by have := hfl.mono hx; rwa [hfl.zero] at this
    have z' : ∀ {x : ℝ}, x ≤ 0 → fl x ≤ 0 := fun {x} hx => by have := hfl.mono hx; rwa [hfl.zero] at this
    exact z' (mul_nonpos_of_nonneg_of_nonpos (z (mul_nonneg (z (by norm_num)) hD)) (z' (by linarith)))

/-- **C148** (defocus lost): the relative error has no bound: for two different distances the radius can come out as zero. -/
theorem C148_object_lost (hfl : RoundsToNearest fl) (D : ℝ) :
    ∃ R R0, IsDouble R ∧ IsDouble R0 ∧ 0 < R ∧ R0 < R ∧ objectRadiiD fl D R R0 = 0 := by
  refine ⟨9007199254740991 * (2 : ℝ) ^ (-52 : ℤ), 9007199254740990 * (2 : ℝ) ^ (-52 : ℤ), ?_, ?_, by norm_num, by norm_num, ?_⟩
  · exact_mod_cast isDouble_dyadic (m := 9007199254740991) (-52) (by norm_num)
  · exact_mod_cast isDouble_dyadic (m := 9007199254740990) (-52) (by norm_num)
  · have e1 : fl (1 / (9007199254740991 * (2 : ℝ) ^ (-52 : ℤ))) = 4503599627370497 * (2 : ℝ) ^ (-53 : ℤ) := by
      have := hfl.eq (m := 4503599627370497) (by norm_num) (by norm_num) (-53) (x := 1 / (9007199254740991 * (2 : ℝ) ^ (-52 : ℤ)))
        (by norm_num) (by norm_num)
      exact_mod_cast this
    have e2 : fl (1 / (9007199254740990 * (2 : ℝ) ^ (-52 : ℤ))) = 4503599627370497 * (2 : ℝ) ^ (-53 : ℤ) := by
      have := hfl.eq (m := 4503599627370497) (by norm_num) (by norm_num) (-53) (x := 1 / (9007199254740990 * (2 : ℝ) ^ (-52 : ℤ)))
        (by norm_num) (by norm_num)
      exact_mod_cast this
    unfold objectRadiiD
    rw [e1, e2, sub_self, hfl.zero, mul_zero, hfl.zero]

/-- **C148** (image defocus and dark current): relative errors of at most 8e-15. -/
theorem C148_products (hfl : RoundsToNearest fl) (D dz jd wX wY : ℝ) {f : ℝ} (hf : f ≠ 0) :
    |imageRadiiD fl D dz f - 0.62 * D * dz / f ^ 2| ≤ 8e-15 * |0.62 * D * dz / f ^ 2|
      ∧ |darkCurrentD fl jd wX wY - jd * wX * wY / qC| ≤ 8e-15 * |jd * wX * wY / qC| := by
  have f2 : 0 < f ^ 2 := by positivity
  have q0 : 0 < qC := by unfold qC; norm_num
  constructor
  · have a := ((Apx.const hfl (x := 0.62) (by norm_num)).mul (Apx.of (le_refl |D|)) (by norm_num) (by norm_num)).round hfl (by norm_num)
    have b := (a.mul (Apx.of (le_refl |dz|)) (by norm_num) (by norm_num)).round hfl (by norm_num)
    have c := (b.quot (Apx.const hfl f2.le) f2 (by norm_num) (by norm_num) (by norm_num)).round hfl (by norm_num)
    have e : |0.62 * D * dz / f ^ 2| = 0.62 * |D| * |dz| / f ^ 2 := by
      rw [abs_div, abs_mul, abs_mul, abs_of_pos f2, abs_of_pos (by norm_num : (0 : ℝ) < 0.62)]
    rw [e]
    exact c.1.trans (mul_le_mul_of_nonneg_right (by norm_num) (by positivity))
  · have a := (Apx.of (le_refl |jd * wX|)).round hfl (by norm_num)
    have b := (a.mul (Apx.of (le_refl |wY|)) (by norm_num) (by norm_num)).round hfl (by norm_num)
    have c := (b.quot (Apx.const hfl q0.le) q0 (by norm_num) (by norm_num) (by norm_num)).round hfl (by norm_num)
    have e : |jd * wX * wY / qC| = |jd * wX| * |wY| / qC := by rw [abs_div, abs_mul, abs_of_pos q0]
    rw [e]
    exact c.1.trans (mul_le_mul_of_nonneg_right (by norm_num) (by positivity))

/-! ## Concrete cases -/

/-- The Wiener filter of the OTF `3 + 4i` for a noise-to-signal ratio of 25 (C148_wiener, C148_contrast). -/
example : ∃ W', wienerD roundDouble (fun z => ‖z‖) ⟨3, 4⟩ 25 = some W' ∧ |W'.re - 0.06| ≤ 1e-15 ∧ ‖(⟨3, 4⟩ : ℂ) * W'‖ ≤ 1 + 7e-15 := by
  have ha : ∀ z : ℂ, |‖z‖ - ‖z‖| ≤ 1e-15 * ‖z‖ := fun z => by rw [sub_self, abs_zero]; positivity
  have e : ‖(⟨3, 4⟩ : ℂ)‖ ^ 2 + 25 = 50 := by rw [Complex.sq_norm, Complex.normSq_apply]; norm_num
  obtain ⟨W', h1, h2, -⟩ := (C148_wiener roundDouble_rounds ha ⟨3, 4⟩ (n := 25) (by norm_num)).1 _
    (by unfold wienerFilter; dsimp only; rw [e]; exact if_neg (by norm_num))
  refine ⟨W', h1, ?_, (C148_contrast roundDouble_rounds ha (by norm_num) h1).1⟩
  rw [Complex.div_ofReal_re, Complex.conj_re] at h2
  norm_num at h2 ⊢
  linarith

/-- A zero of the OTF without noise: no value (C148_wiener). -/
example : wienerD roundDouble (fun z => ‖z‖) 0 0 = none :=
  (C148_wiener roundDouble_rounds (absD := fun z => ‖z‖) (fun z => by rw [sub_self, abs_zero]; positivity) 0 le_rfl).2
    (by unfold wienerFilter; simp)

/-- An aperture of 10 cm focused at 2 km, target at 1 km (C148_object). -/
example : |objectRadiiD roundDouble 0.1 1000 2000 - 3.1e-5| ≤ 1e-18 ∧ 0 ≤ objectRadiiD roundDouble 0.1 1000 2000 := by
  have h := C148_object roundDouble_rounds (D := 0.1) (R := 1000) (R0 := 2000) (by norm_num) (by norm_num) (by norm_num)
  refine ⟨?_, h.2.1 (by norm_num)⟩
  have := h.1
  norm_num at this ⊢
  linarith

/-- A dark current density of 1 nA/cm² on a detector of 10 µm (C148_products). -/
example : |darkCurrentD roundDouble 1e-5 1e-5 1e-5 - 1e-15 / qC| ≤ 1e-10 := by
  have h := (C148_products roundDouble_rounds 0.1 1e-5 1e-5 1e-5 1e-5 (f := 1) (by norm_num)).2
  unfold qC at h ⊢
  norm_num at h ⊢
  linarith

end PyBSM
