import Verif.Props.DoubleOtf
import Verif.Props.DoubleGeometry
import Verif.Props.Aperture
import Verif.Model.Double

/-!
# C117: the diffraction MTF in double precision
-/

noncomputable section

open Classical

namespace PyBSM

open Spec

variable {fl sqD acosD sinD tanD atanD : ℝ → ℝ}

/-- **C117** (without an obscuration). The computed diffraction MTF of a clear aperture is within a part in ten million
of the physical one at every frequency. -/
theorem C117_clear (hfl : RoundsToNearest fl) (hl : TrigLibrary sqD acosD sinD tanD atanD) {lam D : ℝ} (hlam : 0 < lam)
    (hD : 0 < D) (u v : ℝ) :
    ∃ x, apertureD fl sqD acosD sinD tanD atanD lam D 0 u v = .fin x ∧ |x - diffractionMTF lam D 0 u v| ≤ 1e-7 := by
  have hpi := Real.pi_pos
  have hpi1 := Real.pi_gt_d2
  have hr : 0 < D / lam := by positivity
  have hr' : Apx 1 (fl (D / lam)) (D / lam) (D / lam) := Apx.const hfl hr.le
  have hrho := radial_apx hfl u v
  have PI : Apx 1 (fl Real.pi) Real.pi Real.pi := Apx.const hfl hpi.le
  have ht : 0 ≤ Real.sqrt (u ^ 2 + v ^ 2) / (D / lam) := by positivity
  have Q1 := (hrho.quot hr' hr (by norm_num) (by norm_num) (by norm_num)).round hfl (by norm_num)
  have CA := (((Apx.of (x := 2) (m := 2) (by norm_num)).quot PI hpi le_rfl (by norm_num) (by norm_num)).round hfl
    (by norm_num)).mono (k' := 10) (by norm_num)
  obtain ⟨a, ha, ha'⟩ := chord_value hfl hl ht (Q1.1.trans (mul_le_mul_of_nonneg_right (by norm_num) ht)) CA
  refine ⟨a, ?_, ?_⟩
  · unfold apertureD
    simp only [lt_irrefl, if_false]
    exact ha
  · rw [diffraction_angle hlam hD]
    have : 2 / Real.pi ≤ 2 / 3 := by gcongr; linarith
    linarith

/-- **C117** (with an obscuration). The computed diffraction MTF is within a part in a million of the physical one, except
at frequencies so close to `(1 - η) / 2` of the cutoff that they cannot be told from it, where it may be too large or too
small by `2η² / (1 - η²)`. -/
theorem C117_obscured (hfl : RoundsToNearest fl) (hl : TrigLibrary sqD acosD sinD tanD atanD) {lam D eta : ℝ} (hlam : 0 < lam)
    (hD : 0 < D) (he : 1e-3 ≤ eta) (he1 : eta ≤ 0.9) (u v : ℝ) :
    ∃ x, apertureD fl sqD acosD sinD tanD atanD lam D eta u v = .fin x ∧
      (|x - diffractionMTF lam D eta u v| ≤ 1e-6 ∨
        |Real.sqrt (u ^ 2 + v ^ 2) / (D / lam) - (1 - eta) / 2| ≤ 1e-11 ∧
        (|x - (diffractionMTF lam D eta u v + 2 * eta ^ 2 / (1 - eta ^ 2))| ≤ 1e-6
          ∨ |x - (diffractionMTF lam D eta u v - 2 * eta ^ 2 / (1 - eta ^ 2))| ≤ 1e-6)) := by
  obtain ⟨x, hx, k1, k2, k3⟩ := aperture_value hfl hl hlam hD he he1 u v
  refine ⟨x, hx, ?_⟩
  by_cases hi : innerD fl eta (fl (D / lam)) (radialD fl u v)
  · rcases le_or_gt (crossArgD fl eta (sqD eta) (fl (D / lam)) (radialD fl u v)) 1 with h | h
    · exact Or.inr ⟨(k2 hi h).2, Or.inr (k2 hi h).1⟩
    · exact Or.inl (k1 ⟨fun _ => h, fun _ => hi⟩)
  · rcases le_or_gt (crossArgD fl eta (sqD eta) (fl (D / lam)) (radialD fl u v)) 1 with h | h
    · exact Or.inl (k1 ⟨fun h' => absurd h' hi, fun h' => absurd h' (not_lt.mpr h)⟩)
    · exact Or.inr ⟨(k3 hi h).2, Or.inl (k3 hi h).1⟩

/-! ## Two sensors whose MTF is wrong -/

/-- The rounding of a number that is nearer to a double than half the distance to its neighbours, up to a power of two. -/
theorem fl_scaled (hfl : RoundsToNearest fl) {m : ℤ} (h1 : 2 ^ 52 < m) (h2 : m < 2 ^ 53) (k e : ℤ) {x y : ℝ} (hx : x = y * (2 : ℝ) ^ e)
    (l : (m - 1 / 2) * (2 : ℝ) ^ k < y) (u : y < (m + 1 / 2) * (2 : ℝ) ^ k) : fl x = m * (2 : ℝ) ^ k * (2 : ℝ) ^ e := by
  have he : (0 : ℝ) < (2 : ℝ) ^ e := by positivity
  rw [mul_assoc, ← zpow_add₀ two_ne_zero]
  apply hfl.eq h1 h2
  · rw [hx, zpow_add₀ two_ne_zero, ← mul_assoc]; exact mul_lt_mul_of_pos_right l he
  · rw [hx, zpow_add₀ two_ne_zero, ← mul_assoc]; exact mul_lt_mul_of_pos_right u he

theorem fl_exact (hfl : RoundsToNearest fl) (m k e : ℤ) (hm : |m| < 2 ^ 53) {x : ℝ} (hx : x = m * (2 : ℝ) ^ k * (2 : ℝ) ^ e) : fl x = x := by
  apply fl_dyadic hfl m (k + e) hm
  rw [hx, zpow_add₀ two_ne_zero, mul_assoc]

theorem step_fifty (hfl : RoundsToNearest fl) : fl (fl (1 - -1) / ((101 : ℕ) - 1)) = 5764607523034235 * (2 : ℝ) ^ (-58 : ℤ) := by
  have h1 : fl (1 - -1) = 2 := by
    rw [fl_dyadic hfl 2 0 (by norm_num) (by norm_num)]; norm_num
  rw [h1]
  have := hfl.eq (m := 5764607523034235) (by norm_num) (by norm_num) (-58) (x := 2 / ((101 : ℕ) - 1)) (by norm_num) (by norm_num)
  exact_mod_cast this

/-- Row 50 of the grid is the frequency zero. -/
theorem middle_row (hfl : RoundsToNearest fl) (x : ℝ) : fl (linspaceD fl 1 (-1) 101 50 * x) = 0 := by
  have h1 : fl (-1 - 1) = -2 := by
    rw [fl_dyadic hfl (-2) 0 (by norm_num) (by norm_num)]; norm_num
  have h2 : fl (-2 / ((101 : ℕ) - 1)) = -(5764607523034235 * (2 : ℝ) ^ (-58 : ℤ)) := by
    have := hfl.mirror.eq (m := 5764607523034235) (by norm_num) (by norm_num) (-58) (x := 2 / ((101 : ℕ) - 1)) (by norm_num) (by norm_num)
    push_cast at this ⊢
    rw [← this]
    norm_num
  have h3 : fl ((50 : ℕ) * -(5764607523034235 * (2 : ℝ) ^ (-58 : ℤ))) = -1 := by
    have a := hfl.mirror.le_of_lt (m := 2 ^ 52) (by norm_num) (by norm_num) (-52)
      (x := (50 : ℕ) * (5764607523034235 * (2 : ℝ) ^ (-58 : ℤ))) (by norm_num)
    have b := hfl.mono (x := (50 : ℕ) * -(5764607523034235 * (2 : ℝ) ^ (-58 : ℤ))) (y := -1) (by norm_num)
    rw [fl_dyadic hfl (-1) 0 (by norm_num) (x := -1) (by norm_num)] at b
    norm_num at a b ⊢
    linarith
  unfold linspaceD
  rw [if_neg (by norm_num), h1, h2, h3, neg_add_cancel, hfl.zero, zero_mul, hfl.zero]

/-- A sensor with an obscuration of 0.64: sample 41 of the middle row of the grid. -/
theorem witness_low (hfl : RoundsToNearest fl) (e : ℤ) {q : ℝ} (hq : q = (2 : ℝ) ^ e) {s2 : ℝ} (hs : s2 = fl (fl 0.64 ^ 2)) :
    innerD fl (fl 0.64) q (radialD fl (fl (linspaceD fl (-1) 1 101 41 * q)) 0) ∧
      crossArgD fl (fl 0.64) s2 q (radialD fl (fl (linspaceD fl (-1) 1 101 41 * q)) 0) ≤ 1 := by
  have hq0 : 0 < q := by rw [hq]; positivity
  have he : fl 0.64 = 5764607523034235 * (2 : ℝ) ^ (-53 : ℤ) := by
    have := hfl.eq (m := 5764607523034235) (by norm_num) (by norm_num) (-53) (x := 0.64) (by norm_num) (by norm_num)
    exact_mod_cast this
  have hx : linspaceD fl (-1) 1 101 41 = -(6485183463413512 * (2 : ℝ) ^ (-55 : ℤ)) := by
    unfold linspaceD
    rw [if_neg (by norm_num), step_fifty hfl]
    have h1 : fl ((41 : ℕ) * (5764607523034235 * (2 : ℝ) ^ (-58 : ℤ))) = 7385903388887614 * (2 : ℝ) ^ (-53 : ℤ) := by
      have := hfl.eq (m := 7385903388887614) (by norm_num) (by norm_num) (-53)
        (x := (41 : ℕ) * (5764607523034235 * (2 : ℝ) ^ (-58 : ℤ))) (by norm_num) (by norm_num)
      exact_mod_cast this
    rw [h1, fl_dyadic hfl (-6485183463413512) (-55) (by norm_num) (by norm_num)]
    norm_num
  have hu : fl (linspaceD fl (-1) 1 101 41 * q) = -(6485183463413512 * (2 : ℝ) ^ (-55 : ℤ)) * q := by
    rw [hx, fl_exact hfl (-6485183463413512) (-55) e (by norm_num) (by rw [hq]; push_cast; ring)]
  have hr : radialD fl (fl (linspaceD fl (-1) 1 101 41 * q)) 0 = 6485183463413512 * (2 : ℝ) ^ (-55 : ℤ) * q := by
    unfold radialD
    have h1 : fl ((-(6485183463413512 * (2 : ℝ) ^ (-55 : ℤ)) * q) ^ 2) = 4669332093657727 * (2 : ℝ) ^ (-57 : ℤ) * (2 : ℝ) ^ (2 * e) := by
      have := fl_scaled hfl (m := 4669332093657727) (by norm_num) (by norm_num) (-57) (2 * e)
        (x := (-(6485183463413512 * (2 : ℝ) ^ (-55 : ℤ)) * q) ^ 2) (y := (6485183463413512 * (2 : ℝ) ^ (-55 : ℤ)) ^ 2)
        (by rw [hq, two_mul, zpow_add₀ two_ne_zero]; ring) (by norm_num) (by norm_num)
      exact_mod_cast this
    have h3 : fl (4669332093657727 * (2 : ℝ) ^ (-57 : ℤ) * (2 : ℝ) ^ (2 * e)) = 4669332093657727 * (2 : ℝ) ^ (-57 : ℤ) * (2 : ℝ) ^ (2 * e) :=
      fl_exact hfl 4669332093657727 (-57) (2 * e) (by norm_num) (by push_cast; ring)
    have h2 : Real.sqrt (4669332093657727 * (2 : ℝ) ^ (-57 : ℤ) * (2 : ℝ) ^ (2 * e)) = Real.sqrt (4669332093657727 * (2 : ℝ) ^ (-57 : ℤ)) * (2 : ℝ) ^ e := by
      rw [Real.sqrt_mul (by positivity), two_mul, zpow_add₀ two_ne_zero, Real.sqrt_mul_self (by positivity)]
    have h4 := fl_scaled hfl (m := 6485183463413512) (by norm_num) (by norm_num) (-55) e h2
      (by apply Real.lt_sqrt_of_sq_lt; norm_num)
      (by rw [Real.sqrt_lt' (by norm_num)]; norm_num)
    rw [hu, h1]
    simp only [ne_eq, OfNat.ofNat_ne_zero, not_false_eq_true, zero_pow, hfl.zero, add_zero]
    rw [h3, h4, hq]; norm_num
  rw [hr]
  constructor
  · unfold innerD
    have h1 : fl (1 - 5764607523034235 * (2 : ℝ) ^ (-53 : ℤ)) = 6485183463413514 * (2 : ℝ) ^ (-54 : ℤ) := by
      rw [fl_dyadic hfl 6485183463413514 (-54) (by norm_num) (by norm_num)]; norm_num
    have h2 : fl (6485183463413514 * (2 : ℝ) ^ (-54 : ℤ) * q) = 6485183463413514 * (2 : ℝ) ^ (-54 : ℤ) * q :=
      fl_exact hfl 6485183463413514 (-54) e (by norm_num) (by rw [hq]; push_cast; ring)
    have h3 : 6485183463413514 * (2 : ℝ) ^ (-54 : ℤ) * q / 2 = 6485183463413514 * (2 : ℝ) ^ (-55 : ℤ) * q := by
      rw [mul_div_right_comm]; congr 1; norm_num
    have h4 : fl (6485183463413514 * (2 : ℝ) ^ (-55 : ℤ) * q) = 6485183463413514 * (2 : ℝ) ^ (-55 : ℤ) * q :=
      fl_exact hfl 6485183463413514 (-55) e (by norm_num) (by rw [hq]; push_cast; ring)
    rw [he, h1, h2, h3, h4]
    exact mul_lt_mul_of_pos_right (by norm_num) hq0
  · unfold crossArgD
    have h1 : fl (2 * (6485183463413512 * (2 : ℝ) ^ (-55 : ℤ) * q)) = 6485183463413512 * (2 : ℝ) ^ (-54 : ℤ) * q := by
      have : 2 * (6485183463413512 * (2 : ℝ) ^ (-55 : ℤ) * q) = 6485183463413512 * (2 : ℝ) ^ (-54 : ℤ) * q := by rw [← mul_assoc]; congr 1; norm_num
      rw [this]
      exact fl_exact hfl 6485183463413512 (-54) e (by norm_num) (by rw [hq]; push_cast; ring)
    have h2 : fl (6485183463413512 * (2 : ℝ) ^ (-54 : ℤ) * q / q) = 6485183463413512 * (2 : ℝ) ^ (-54 : ℤ) := by
      rw [mul_div_assoc, div_self hq0.ne', mul_one]
      exact fl_dyadic hfl 6485183463413512 (-54) (by norm_num) (by norm_num)
    have h3 : fl ((6485183463413512 * (2 : ℝ) ^ (-54 : ℤ)) ^ 2) = 4669332093657727 * (2 : ℝ) ^ (-55 : ℤ) := by
      have := hfl.eq (m := 4669332093657727) (by norm_num) (by norm_num) (-55) (x := (6485183463413512 * (2 : ℝ) ^ (-54 : ℤ)) ^ 2) (by norm_num) (by norm_num)
      exact_mod_cast this
    have h4 : fl ((5764607523034235 * (2 : ℝ) ^ (-53 : ℤ)) ^ 2) = 7378697629483821 * (2 : ℝ) ^ (-54 : ℤ) := by
      have := hfl.eq (m := 7378697629483821) (by norm_num) (by norm_num) (-54) (x := (5764607523034235 * (2 : ℝ) ^ (-53 : ℤ)) ^ 2) (by norm_num) (by norm_num)
      exact_mod_cast this
    have h5 : fl (1 + 7378697629483821 * (2 : ℝ) ^ (-54 : ℤ)) = 6348274034741451 * (2 : ℝ) ^ (-52 : ℤ) := by
      have := hfl.eq (m := 6348274034741451) (by norm_num) (by norm_num) (-52) (x := 1 + 7378697629483821 * (2 : ℝ) ^ (-54 : ℤ)) (by norm_num) (by norm_num)
      exact_mod_cast this
    have h6 : fl (6348274034741451 * (2 : ℝ) ^ (-52 : ℤ) - 4669332093657727 * (2 : ℝ) ^ (-55 : ℤ)) = 5764607523034235 * (2 : ℝ) ^ (-52 : ℤ) := by
      have := hfl.eq (m := 5764607523034235) (by norm_num) (by norm_num) (-52) (x := 6348274034741451 * (2 : ℝ) ^ (-52 : ℤ) - 4669332093657727 * (2 : ℝ) ^ (-55 : ℤ)) (by norm_num) (by norm_num)
      exact_mod_cast this
    have h7 : fl (5764607523034235 * (2 : ℝ) ^ (-52 : ℤ) / 2) = 5764607523034235 * (2 : ℝ) ^ (-53 : ℤ) := by
      rw [fl_dyadic hfl 5764607523034235 (-53) (by norm_num) (by norm_num)]; norm_num
    rw [hs, he, h1, h2, h3, h4, h5, h6, h7]
    rw [div_self (by norm_num), fl_dyadic hfl 1 0 (by norm_num) (by norm_num)]

/-- A sensor with an obscuration of 0.24: sample 31 of the middle row of the grid. -/
theorem witness_high (hfl : RoundsToNearest fl) (e : ℤ) {q : ℝ} (hq : q = (2 : ℝ) ^ e) {s2 : ℝ} (hs : s2 = fl (fl 0.24 ^ 2)) :
    ¬ innerD fl (fl 0.24) q (radialD fl (fl (linspaceD fl (-1) 1 101 31 * q)) 0) ∧
      1 < crossArgD fl (fl 0.24) s2 q (radialD fl (fl (linspaceD fl (-1) 1 101 31 * q)) 0) := by
  have hq0 : 0 < q := by rw [hq]; positivity
  have he : fl 0.24 = 8646911284551352 * (2 : ℝ) ^ (-55 : ℤ) := by
    have := hfl.eq (m := 8646911284551352) (by norm_num) (by norm_num) (-55) (x := 0.24) (by norm_num) (by norm_num)
    exact_mod_cast this
  have hx : linspaceD fl (-1) 1 101 31 = -(6845471433603154 * (2 : ℝ) ^ (-54 : ℤ)) := by
    unfold linspaceD
    rw [if_neg (by norm_num), step_fifty hfl]
    have h1 : fl ((31 : ℕ) * (5764607523034235 * (2 : ℝ) ^ (-58 : ℤ))) = 5584463537939415 * (2 : ℝ) ^ (-53 : ℤ) := by
      have := hfl.eq (m := 5584463537939415) (by norm_num) (by norm_num) (-53)
        (x := (31 : ℕ) * (5764607523034235 * (2 : ℝ) ^ (-58 : ℤ))) (by norm_num) (by norm_num)
      exact_mod_cast this
    rw [h1, fl_dyadic hfl (-6845471433603154) (-54) (by norm_num) (by norm_num)]
    norm_num
  have hu : fl (linspaceD fl (-1) 1 101 31 * q) = -(6845471433603154 * (2 : ℝ) ^ (-54 : ℤ)) * q := by
    rw [hx, fl_exact hfl (-6845471433603154) (-54) e (by norm_num) (by rw [hq]; push_cast; ring)]
  have hr : radialD fl (fl (linspaceD fl (-1) 1 101 31 * q)) 0 = 6845471433603154 * (2 : ℝ) ^ (-54 : ℤ) * q := by
    unfold radialD
    have h1 : fl ((-(6845471433603154 * (2 : ℝ) ^ (-54 : ℤ)) * q) ^ 2) = 5202558289538397 * (2 : ℝ) ^ (-55 : ℤ) * (2 : ℝ) ^ (2 * e) := by
      have := fl_scaled hfl (m := 5202558289538397) (by norm_num) (by norm_num) (-55) (2 * e)
        (x := (-(6845471433603154 * (2 : ℝ) ^ (-54 : ℤ)) * q) ^ 2) (y := (6845471433603154 * (2 : ℝ) ^ (-54 : ℤ)) ^ 2)
        (by rw [hq, two_mul, zpow_add₀ two_ne_zero]; ring) (by norm_num) (by norm_num)
      exact_mod_cast this
    have h3 : fl (5202558289538397 * (2 : ℝ) ^ (-55 : ℤ) * (2 : ℝ) ^ (2 * e)) = 5202558289538397 * (2 : ℝ) ^ (-55 : ℤ) * (2 : ℝ) ^ (2 * e) :=
      fl_exact hfl 5202558289538397 (-55) (2 * e) (by norm_num) (by push_cast; ring)
    have h2 : Real.sqrt (5202558289538397 * (2 : ℝ) ^ (-55 : ℤ) * (2 : ℝ) ^ (2 * e)) = Real.sqrt (5202558289538397 * (2 : ℝ) ^ (-55 : ℤ)) * (2 : ℝ) ^ e := by
      rw [Real.sqrt_mul (by positivity), two_mul, zpow_add₀ two_ne_zero, Real.sqrt_mul_self (by positivity)]
    have h4 := fl_scaled hfl (m := 6845471433603154) (by norm_num) (by norm_num) (-54) e h2
      (by apply Real.lt_sqrt_of_sq_lt; norm_num)
      (by rw [Real.sqrt_lt' (by norm_num)]; norm_num)
    rw [hu, h1]
    simp only [ne_eq, OfNat.ofNat_ne_zero, not_false_eq_true, zero_pow, hfl.zero, add_zero]
    rw [h3, h4, hq]; norm_num
  rw [hr]
  constructor
  · unfold innerD
    have h1 : fl (1 - 8646911284551352 * (2 : ℝ) ^ (-55 : ℤ)) = 6845471433603154 * (2 : ℝ) ^ (-53 : ℤ) := by
      rw [fl_dyadic hfl 6845471433603154 (-53) (by norm_num) (by norm_num)]; norm_num
    have h2 : fl (6845471433603154 * (2 : ℝ) ^ (-53 : ℤ) * q) = 6845471433603154 * (2 : ℝ) ^ (-53 : ℤ) * q :=
      fl_exact hfl 6845471433603154 (-53) e (by norm_num) (by rw [hq]; push_cast; ring)
    have h3 : 6845471433603154 * (2 : ℝ) ^ (-53 : ℤ) * q / 2 = 6845471433603154 * (2 : ℝ) ^ (-54 : ℤ) * q := by
      rw [mul_div_right_comm]; congr 1; norm_num
    have h4 : fl (6845471433603154 * (2 : ℝ) ^ (-54 : ℤ) * q) = 6845471433603154 * (2 : ℝ) ^ (-54 : ℤ) * q :=
      fl_exact hfl 6845471433603154 (-54) e (by norm_num) (by rw [hq]; push_cast; ring)
    rw [he, h1, h2, h3, h4]
    exact lt_irrefl _
  · unfold crossArgD
    have h1 : fl (2 * (6845471433603154 * (2 : ℝ) ^ (-54 : ℤ) * q)) = 6845471433603154 * (2 : ℝ) ^ (-53 : ℤ) * q := by
      have : 2 * (6845471433603154 * (2 : ℝ) ^ (-54 : ℤ) * q) = 6845471433603154 * (2 : ℝ) ^ (-53 : ℤ) * q := by rw [← mul_assoc]; congr 1; norm_num
      rw [this]
      exact fl_exact hfl 6845471433603154 (-53) e (by norm_num) (by rw [hq]; push_cast; ring)
    have h2 : fl (6845471433603154 * (2 : ℝ) ^ (-53 : ℤ) * q / q) = 6845471433603154 * (2 : ℝ) ^ (-53 : ℤ) := by
      rw [mul_div_assoc, div_self hq0.ne', mul_one]
      exact fl_dyadic hfl 6845471433603154 (-53) (by norm_num) (by norm_num)
    have h3 : fl ((6845471433603154 * (2 : ℝ) ^ (-53 : ℤ)) ^ 2) = 5202558289538397 * (2 : ℝ) ^ (-53 : ℤ) := by
      have := hfl.eq (m := 5202558289538397) (by norm_num) (by norm_num) (-53) (x := (6845471433603154 * (2 : ℝ) ^ (-53 : ℤ)) ^ 2) (by norm_num) (by norm_num)
      exact_mod_cast this
    have h4 : fl ((8646911284551352 * (2 : ℝ) ^ (-55 : ℤ)) ^ 2) = 8301034833169298 * (2 : ℝ) ^ (-57 : ℤ) := by
      have := hfl.eq (m := 8301034833169298) (by norm_num) (by norm_num) (-57) (x := (8646911284551352 * (2 : ℝ) ^ (-55 : ℤ)) ^ 2) (by norm_num) (by norm_num)
      exact_mod_cast this
    have h5 : fl (1 + 8301034833169298 * (2 : ℝ) ^ (-57 : ℤ)) = 4763006965907037 * (2 : ℝ) ^ (-52 : ℤ) := by
      have := hfl.eq (m := 4763006965907037) (by norm_num) (by norm_num) (-52) (x := 1 + 8301034833169298 * (2 : ℝ) ^ (-57 : ℤ)) (by norm_num) (by norm_num)
      exact_mod_cast this
    have h6 : fl (4763006965907037 * (2 : ℝ) ^ (-52 : ℤ) - 5202558289538397 * (2 : ℝ) ^ (-53 : ℤ)) = 8646911284551354 * (2 : ℝ) ^ (-54 : ℤ) := by
      have := hfl.eq (m := 8646911284551354) (by norm_num) (by norm_num) (-54) (x := 4763006965907037 * (2 : ℝ) ^ (-52 : ℤ) - 5202558289538397 * (2 : ℝ) ^ (-53 : ℤ)) (by norm_num) (by norm_num)
      exact_mod_cast this
    have h7 : fl (8646911284551354 * (2 : ℝ) ^ (-54 : ℤ) / 2) = 8646911284551354 * (2 : ℝ) ^ (-55 : ℤ) := by
      rw [fl_dyadic hfl 8646911284551354 (-55) (by norm_num) (by norm_num)]; norm_num
    rw [hs, he, h1, h2, h3, h4, h5, h6, h7]
    have := hfl.eq (m := 4503599627370497) (by norm_num) (by norm_num) (-52) (x := 8646911284551354 * (2 : ℝ) ^ (-55 : ℤ) / (8646911284551352 * (2 : ℝ) ^ (-55 : ℤ))) (by norm_num) (by norm_num)
    rw [this]; norm_num

/-- **C117** (an MTF far below zero). Take any wavelength and any aperture a power of two times larger, with an obscuration
of 0.64, and the grid of 101 frequencies per axis with which images are rated. In the row of vertical frequency zero, at
the sample 41, the diffraction MTF lies between 0 and 1 and the computed one is below `-0.38`. This holds for every rounding
to nearest and every library of the stated accuracy that squares the obscuration correctly. -/
theorem C117_negative (hfl : RoundsToNearest fl) (hl : TrigLibrary sqD acosD sinD tanD atanD) (hsq : sqD (fl 0.64) = fl (fl 0.64 ^ 2))
    {lam D : ℝ} (hlam : 0 < lam) {e : ℤ} (hD : D = lam * (2 : ℝ) ^ e) :
    ∃ x, apertureD fl sqD acosD sinD tanD atanD lam D (fl 0.64) (fl (linspaceD fl (-1) 1 101 41 * fl (D / lam)))
          (fl (linspaceD fl 1 (-1) 101 50 * fl (D / lam))) = .fin x
      ∧ x < -0.38
      ∧ 0 ≤ diffractionMTF lam D (fl 0.64) (fl (linspaceD fl (-1) 1 101 41 * fl (D / lam)))
          (fl (linspaceD fl 1 (-1) 101 50 * fl (D / lam)))
      ∧ diffractionMTF lam D (fl 0.64) (fl (linspaceD fl (-1) 1 101 41 * fl (D / lam)))
          (fl (linspaceD fl 1 (-1) 101 50 * fl (D / lam))) ≤ 1 := by
  have hD0 : 0 < D := by rw [hD]; positivity
  have hq : fl (D / lam) = (2 : ℝ) ^ e := by
    rw [hD, mul_div_cancel_left₀ _ hlam.ne']
    exact fl_dyadic hfl 1 e (by norm_num) (by push_cast; ring)
  have hv := middle_row hfl (fl (D / lam))
  obtain ⟨h1, h2⟩ := witness_low hfl e hq hsq
  have he : fl 0.64 = 5764607523034235 * (2 : ℝ) ^ (-53 : ℤ) := by
    have := hfl.eq (m := 5764607523034235) (by norm_num) (by norm_num) (-53) (x := 0.64) (by norm_num) (by norm_num)
    exact_mod_cast this
  rw [hv]
  generalize hu : fl (linspaceD fl (-1) 1 101 41 * fl (D / lam)) = u at h1 h2 ⊢
  obtain ⟨x, hx, _, k2, _⟩ := aperture_value hfl hl hlam hD0 (eta := fl 0.64) (by rw [he]; norm_num) (by rw [he]; norm_num) u 0
  have hr := mtf_range (lam := lam) hD0 (eta := fl 0.64) (by rw [he]; norm_num) (by rw [he]; norm_num) u 0
  refine ⟨x, hx, ?_, hr.1, hr.2⟩
  have h3 := (abs_le.mp (k2 h1 h2).1).2
  have hJ : 1.387 ≤ 2 * fl 0.64 ^ 2 / (1 - fl 0.64 ^ 2) := by rw [he]; norm_num
  linarith [hr.2]

/-- **C117** (an MTF that is too large). With an obscuration of 0.24, at the sample 31 of the same row, the computed
diffraction MTF is more than 0.12 above the physical one. -/
theorem C117_too_large (hfl : RoundsToNearest fl) (hl : TrigLibrary sqD acosD sinD tanD atanD) (hsq : sqD (fl 0.24) = fl (fl 0.24 ^ 2))
    {lam D : ℝ} (hlam : 0 < lam) {e : ℤ} (hD : D = lam * (2 : ℝ) ^ e) :
    ∃ x, apertureD fl sqD acosD sinD tanD atanD lam D (fl 0.24) (fl (linspaceD fl (-1) 1 101 31 * fl (D / lam)))
          (fl (linspaceD fl 1 (-1) 101 50 * fl (D / lam))) = .fin x
      ∧ diffractionMTF lam D (fl 0.24) (fl (linspaceD fl (-1) 1 101 31 * fl (D / lam)))
          (fl (linspaceD fl 1 (-1) 101 50 * fl (D / lam))) + 0.12 < x := by
  have hD0 : 0 < D := by rw [hD]; positivity
  have hq : fl (D / lam) = (2 : ℝ) ^ e := by
    rw [hD, mul_div_cancel_left₀ _ hlam.ne']
    exact fl_dyadic hfl 1 e (by norm_num) (by push_cast; ring)
  have hv := middle_row hfl (fl (D / lam))
  obtain ⟨h1, h2⟩ := witness_high hfl e hq hsq
  have he : fl 0.24 = 8646911284551352 * (2 : ℝ) ^ (-55 : ℤ) := by
    have := hfl.eq (m := 8646911284551352) (by norm_num) (by norm_num) (-55) (x := 0.24) (by norm_num) (by norm_num)
    exact_mod_cast this
  rw [hv]
  generalize hu : fl (linspaceD fl (-1) 1 101 31 * fl (D / lam)) = u at h1 h2 ⊢
  obtain ⟨x, hx, _, _, k3⟩ := aperture_value hfl hl hlam hD0 (eta := fl 0.24) (by rw [he]; norm_num) (by rw [he]; norm_num) u 0
  refine ⟨x, hx, ?_⟩
  have h3 := (abs_le.mp (k3 h1 h2).1).1
  have hJ : 0.122 ≤ 2 * fl 0.24 ^ 2 / (1 - fl 0.24 ^ 2) := by rw [he]; norm_num
  linarith

/-- A library of correctly rounded functions meets the assumptions. -/
theorem trig_library (hfl : RoundsToNearest fl) : TrigLibrary (fun x => fl (x ^ 2)) (fun x => fl (Real.arccos x))
    (fun x => fl (Real.sin x)) (fun x => fl (Real.tan x)) (fun x => fl (Real.arctan x)) := by
  have key : ∀ y : ℝ, |fl y - y| ≤ 1e-15 * |y| := fun y =>
    (hfl.error y).trans (mul_le_mul_of_nonneg_right (by norm_num) (abs_nonneg y))
  refine ⟨fun x => ?_, fun x _ => ?_, fun x _ => ?_, fun x => key _, fun x h0 h1 => ?_, fun x => key _⟩
  · have := key (x ^ 2); rwa [abs_of_nonneg (sq_nonneg x)] at this
  · have := key (Real.arccos x); rwa [abs_of_nonneg (Real.arccos_nonneg x)] at this
  · have h1 := hfl.mono (Real.arccos_le_pi x)
    have h2 := hfl.eq (m := 7074237752028440) (by norm_num) (by norm_num) (-51) (x := Real.pi)
      (by have := Real.pi_gt_d20; norm_num at this ⊢; linarith) (by have := Real.pi_lt_d20; norm_num at this ⊢; linarith)
    have h3 := Real.pi_gt_d20
    norm_num at h2 h3
    show fl (Real.arccos x) < Real.pi
    linarith
  · have := key (Real.tan x); rwa [abs_of_nonneg (Real.tan_nonneg_of_nonneg_of_le_pi_div_two h0 h1.le)] at this

example (hfl : RoundsToNearest fl) : ∃ x, apertureD fl (fun x => fl (x ^ 2)) (fun x => fl (Real.arccos x))
    (fun x => fl (Real.sin x)) (fun x => fl (Real.tan x)) (fun x => fl (Real.arctan x)) 5e-7 0.25 0 1000 2000 = .fin x
      ∧ |x - diffractionMTF 5e-7 0.25 0 1000 2000| ≤ 1e-7 :=
  C117_clear hfl (trig_library hfl) (by norm_num) (by norm_num) 1000 2000

example (hfl : RoundsToNearest fl) : ∃ x, apertureD fl (fun x => fl (x ^ 2)) (fun x => fl (Real.arccos x))
    (fun x => fl (Real.sin x)) (fun x => fl (Real.tan x)) (fun x => fl (Real.arctan x)) 5e-7 0.25 0.4 1000 2000 = .fin x ∧
      (|x - diffractionMTF 5e-7 0.25 0.4 1000 2000| ≤ 1e-6 ∨
        |Real.sqrt (1000 ^ 2 + 2000 ^ 2) / (0.25 / 5e-7) - (1 - 0.4) / 2| ≤ 1e-11 ∧
        (|x - (diffractionMTF 5e-7 0.25 0.4 1000 2000 + 2 * 0.4 ^ 2 / (1 - 0.4 ^ 2))| ≤ 1e-6
          ∨ |x - (diffractionMTF 5e-7 0.25 0.4 1000 2000 - 2 * 0.4 ^ 2 / (1 - 0.4 ^ 2))| ≤ 1e-6)) :=
  C117_obscured hfl (trig_library hfl) (by norm_num) (by norm_num) (by norm_num) (by norm_num) 1000 2000

/-- An aperture of an eighth of a metre at a wavelength of 477 nanometres. -/
example (hfl : RoundsToNearest fl) : ∃ x, apertureD fl (fun x => fl (x ^ 2)) (fun x => fl (Real.arccos x))
    (fun x => fl (Real.sin x)) (fun x => fl (Real.tan x)) (fun x => fl (Real.arctan x)) (2 ^ (-21 : ℤ)) (1 / 8) (fl 0.64)
    (fl (linspaceD fl (-1) 1 101 41 * fl (1 / 8 / 2 ^ (-21 : ℤ)))) (fl (linspaceD fl 1 (-1) 101 50 * fl (1 / 8 / 2 ^ (-21 : ℤ)))) = .fin x
      ∧ x < -0.38 := by
  obtain ⟨x, hx, h, _⟩ := C117_negative hfl (trig_library hfl) rfl (lam := 2 ^ (-21 : ℤ)) (D := 1 / 8) (by norm_num) (e := 18) (by norm_num)
  exact ⟨x, hx, h⟩

end PyBSM
