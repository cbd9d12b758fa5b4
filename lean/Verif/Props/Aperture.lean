import Verif.Lemmas.Diffraction
import Verif.Lemmas.Defocus
import Verif.Lemmas.Arr
import Verif.Lemmas.Scal

/-!
# C28, C29, C30: circular aperture OTFs

Specification: `Spec.diffractionMTF` (`Verif/Spec/Pupil.lean`), the normalised autocorrelation of the
annular pupil, a Lebesgue measure in the plane that mentions nothing of the code.
-/

noncomputable section

open Classical

namespace PyBSM

open Spec

theorem circular_vec {lam D : ℝ} (hl : 0 < lam) {g : ℝ → ℝ → ℝ} {eta : XR}
    (hg : ∀ a b, apertureElt (.fin (D / lam)) eta (.fin a) (.fin b) = .fin (g a b))
    {lambda0 dia : Scal} (h1 : lambda0.val = .fin lam) (h2 : dia.val = .fin D) (n : ℕ) (u v : ℕ → ℝ) :
    circularApertureOTF (vec n u) (vec n v) lambda0 dia eta = .ok (vec n fun i => g (u i) (v i)) := by
  obtain ⟨c, hc, hv⟩ := Scal.div_fin h2 h1 hl.ne'
  unfold circularApertureOTF
  rw [hc, ok_bind, hv]
  exact bc2_vec hg n u v

/-! ## C28 -/

/-- **C28**: the unobscured OTF is the diffraction MTF of a disc, at every frequency. -/
theorem C28_diffraction_mtf {lam D : ℝ} (hl : 0 < lam) (hD : 0 < D) {lambda0 dia : Scal}
    (h1 : lambda0.val = .fin lam) (h2 : dia.val = .fin D) (n : ℕ) (u v : ℕ → ℝ) :
    circularApertureOTF (vec n u) (vec n v) lambda0 dia 0
      = .ok (vec n fun i => diffractionMTF lam D 0 (u i) (v i)) :=
  circular_vec hl (fun a b => by rw [XR.zero_def]; exact aperture_diffraction hl hD le_rfl one_pos a b) h1 h2 n u v

/-- **C28**: the chord formula inside the cutoff, 0 at and beyond it. -/
theorem C28_chord_formula {lam D : ℝ} (hl : 0 < lam) (hD : 0 < D) {lambda0 dia : Scal}
    (h1 : lambda0.val = .fin lam) (h2 : dia.val = .fin D) (n : ℕ) (u v : ℕ → ℝ) :
    circularApertureOTF (vec n u) (vec n v) lambda0 dia 0
      = .ok (vec n fun i =>
          let t := lam * Real.sqrt (u i ^ 2 + v i ^ 2) / D
          if t < 1 then 2 / Real.pi * (Real.arccos t - t * Real.sqrt (1 - t ^ 2)) else 0) := by
  refine circular_vec hl (g := fun a b =>
      let t := lam * Real.sqrt (a ^ 2 + b ^ 2) / D
      if t < 1 then 2 / Real.pi * (Real.arccos t - t * Real.sqrt (1 - t ^ 2)) else 0) (fun a b => ?_) h1 h2 n u v
  rw [aperture_noObscuration (by positivity)]
  have : Real.sqrt (a ^ 2 + b ^ 2) / (D / lam) = lam * Real.sqrt (a ^ 2 + b ^ 2) / D := by field_simp
  rw [this]
  dsimp only
  split_ifs with h
  · simp [segArea]
  · rw [segArea_of_le one_pos (not_lt.mp h), mul_zero]

/-- **C28**: 1 at zero frequency, strictly between 0 and 1 inside the cutoff `D / lambda`, 0 at and beyond
it, strictly decreasing in the radial frequency up to the cutoff, radially symmetric. -/
theorem C28_profile {lam D : ℝ} (hl : 0 < lam) (hD : 0 < D) :
    ∃ g : ℝ → ℝ,
      (∀ (lambda0 dia : Scal), lambda0.val = .fin lam → dia.val = .fin D → ∀ (n : ℕ) (u v : ℕ → ℝ),
        circularApertureOTF (vec n u) (vec n v) lambda0 dia 0
          = .ok (vec n fun i => g (Real.sqrt (u i ^ 2 + v i ^ 2))))
      ∧ g 0 = 1
      ∧ (∀ r, 0 < r → r < D / lam → 0 < g r ∧ g r < 1)
      ∧ (∀ r, D / lam ≤ r → g r = 0)
      ∧ (∀ r r', 0 ≤ r → r < r' → r' ≤ D / lam → g r' < g r) := by
  have hr : 0 < D / lam := by positivity
  have hpi := Real.pi_pos
  have hanti : ∀ r r', 0 ≤ r → r < r' → r' ≤ D / lam →
      2 / Real.pi * segArea 1 (r' / (D / lam)) < 2 / Real.pi * segArea 1 (r / (D / lam)) := by
    intro r r' h0 hlt h1
    apply mul_lt_mul_of_pos_left _ (by positivity)
    apply segArea_strictAnti
    · exact ⟨by positivity, by rw [div_le_one hr]; linarith⟩
    · exact ⟨div_nonneg (by linarith) hr.le, by rw [div_le_one hr]; exact h1⟩
    · exact div_lt_div_of_pos_right hlt hr
  have hz : 2 / Real.pi * segArea 1 (0 / (D / lam)) = 1 := by
    rw [zero_div, segArea_zero]; field_simp
  have hcut : ∀ r, D / lam ≤ r → 2 / Real.pi * segArea 1 (r / (D / lam)) = 0 := by
    intro r h
    rw [segArea_of_le one_pos (by rwa [le_div_iff₀ hr, one_mul]), mul_zero]
  refine ⟨fun r => 2 / Real.pi * segArea 1 (r / (D / lam)), ?_, hz, ?_, hcut, hanti⟩
  · intro lambda0 dia h1 h2 n u v
    exact circular_vec hl (g := fun a b => 2 / Real.pi * segArea 1 (Real.sqrt (a ^ 2 + b ^ 2) / (D / lam)))
      (fun a b => aperture_noObscuration hr a b) h1 h2 n u v
  · intro r h0 h1
    have ha := hanti 0 r le_rfl h0 h1.le
    have hb := hanti r (D / lam) h0.le h1 le_rfl
    rw [hcut _ le_rfl] at hb
    rw [hz] at ha
    exact ⟨hb, ha⟩

/-- **C28**: the only exception is ZeroDivisionError, raised exactly when aperture and wavelength are
Python numbers and the wavelength is zero (for equally shaped frequency arrays). -/
theorem C28_zero_wavelength (us vs : List XR) (hlen : us.length = vs.length) (lambda0 dia : Scal) (eta : XR) (e : PyErr) :
    circularApertureOTF us vs lambda0 dia eta = .error e
      ↔ e = .zeroDivisionError ∧ dia.IsPy ∧ lambda0.IsPy ∧ XR.eq lambda0.val 0 := by
  unfold circularApertureOTF
  rw [← Scal.div_error_iff]
  cases h : dia.div lambda0 with
  | error e' => rw [error_bind]; simp
  | ok q =>
    rw [ok_bind, bc2_eq hlen]
    simp

/-- Non-vacuity: a 275 mm aperture at 500 nm cuts off at 550000 cycles per radian. -/
example : ∃ y : ℝ, circularApertureOTF (vec 3 fun i => 275000 * i) (vec 3 fun _ => 0) (.py 0.0000005) (.py 0.275) 0
    = .ok [.fin 1, .fin y, .fin 0] ∧ 0 < y ∧ y < 1 := by
  obtain ⟨g, hg, g0, gi, gc, -⟩ := C28_profile (lam := 0.0000005) (D := 0.275) (by norm_num) (by norm_num)
  refine ⟨g 275000, ?_, gi _ (by norm_num) (by norm_num)⟩
  rw [hg _ _ rfl rfl]
  have h2 : g (Real.sqrt ((275000 * 2) ^ 2 + 0 ^ 2)) = 0 := gc _ (by
    rw [show ((275000 : ℝ) * 2) ^ 2 + 0 ^ 2 = 550000 ^ 2 by norm_num, Real.sqrt_sq (by norm_num)]; norm_num)
  have h1 : Real.sqrt (((275000 : ℝ) * 1) ^ 2 + 0 ^ 2) = 275000 := by
    rw [show ((275000 : ℝ) * 1) ^ 2 + 0 ^ 2 = 275000 ^ 2 by norm_num, Real.sqrt_sq (by norm_num)]
  have h0 : Real.sqrt (((275000 : ℝ) * 0) ^ 2 + 0 ^ 2) = 0 := by norm_num
  simp only [vec, List.range, List.range.loop, List.map, Nat.cast_zero, Nat.cast_one, Nat.cast_ofNat, h0, h1, h2, g0]

/-! ## C29 -/

/-- **C29**: the obscured OTF is the diffraction MTF of the annulus, at every frequency. -/
theorem C29_diffraction_mtf {lam D eta : ℝ} (hl : 0 < lam) (hD : 0 < D) (he : 0 ≤ eta) (he1 : eta < 1)
    {lambda0 dia : Scal} (h1 : lambda0.val = .fin lam) (h2 : dia.val = .fin D) (n : ℕ) (u v : ℕ → ℝ) :
    circularApertureOTF (vec n u) (vec n v) lambda0 dia (.fin eta)
      = .ok (vec n fun i => diffractionMTF lam D eta (u i) (v i)) :=
  circular_vec hl (fun a b => aperture_diffraction hl hD he he1 a b) h1 h2 n u v

/-- **C29**: finite everywhere, 1 at zero frequency, within [0, 1], 0 at and beyond the cutoff
`D / lambda`, and a function of the radial frequency only. -/
theorem C29_range {lam D eta : ℝ} (hl : 0 < lam) (hD : 0 < D) (he : 0 ≤ eta) (he1 : eta < 1)
    {lambda0 dia : Scal} (h1 : lambda0.val = .fin lam) (h2 : dia.val = .fin D) (n : ℕ) (u v : ℕ → ℝ) :
    ∃ h : ℕ → ℝ, circularApertureOTF (vec n u) (vec n v) lambda0 dia (.fin eta) = .ok (vec n h)
      ∧ (∀ i, 0 ≤ h i ∧ h i ≤ 1)
      ∧ (∀ i, u i = 0 → v i = 0 → h i = 1)
      ∧ (∀ i, D / lam ≤ Real.sqrt (u i ^ 2 + v i ^ 2) → h i = 0)
      ∧ (∀ i j, u i ^ 2 + v i ^ 2 = u j ^ 2 + v j ^ 2 → h i = h j) := by
  refine ⟨_, C29_diffraction_mtf hl hD he he1 h1 h2 n u v, ?_, ?_, ?_, ?_⟩
  · intro i; exact mtf_range hD he he1 _ _
  · intro i hu hv; rw [hu, hv]; exact mtf_dc hD he he1
  · intro i h; exact mtf_cutoff hl hD he he1 h
  · intro i j h; exact mtf_radial hl hD he he1 h

/-- **C29**: a fully obscured aperture has no OTF: infinite at zero frequency, NaN elsewhere. -/
theorem C29_full_obscuration {lam D : ℝ} (hl : 0 < lam) (hD : 0 < D) {lambda0 dia : Scal}
    (h1 : lambda0.val = .fin lam) (h2 : dia.val = .fin D) (u v : ℝ) :
    circularApertureOTF [.fin u] [.fin v] lambda0 dia 1 = .ok [if u = 0 ∧ v = 0 then .pinf else .nan] := by
  obtain ⟨c, hc, hv⟩ := Scal.div_fin h2 h1 hl.ne'
  unfold circularApertureOTF
  rw [hc, ok_bind, hv, bc2_single]
  simp only [List.map]
  rw [XR.one_def, aperture_full (by positivity)]
  have : Real.sqrt (u ^ 2 + v ^ 2) = 0 ↔ u = 0 ∧ v = 0 := by
    rw [Real.sqrt_eq_zero (by positivity)]
    constructor
    · intro h
      constructor <;> nlinarith [sq_nonneg u, sq_nonneg v]
    · rintro ⟨rfl, rfl⟩; simp
  simp only [this]

/-- Non-vacuity: a 40% obscured 275 mm aperture at 500 nm; the middle frequency is in the range where the
aperture partly overlaps the shifted obscuration. -/
example : ∃ h : ℕ → ℝ, circularApertureOTF (vec 3 fun i => 275000 * i) (vec 3 fun _ => 0) (.np 0.0000005) (.py 0.275) (.fin 0.4)
    = .ok (vec 3 h) ∧ h 0 = 1 ∧ h 2 = 0 := by
  obtain ⟨h, hh, -, hdc, hcut, -⟩ := C29_range (lam := 0.0000005) (D := 0.275) (eta := 0.4) (by norm_num) (by norm_num)
    (by norm_num) (by norm_num) (lambda0 := .np 0.0000005) (dia := .py 0.275) rfl rfl 3 (fun i => 275000 * i) (fun _ => 0)
  refine ⟨h, hh, hdc 0 (by norm_num) rfl, hcut 2 ?_⟩
  push_cast
  rw [show ((275000 : ℝ) * 2) ^ 2 + 0 ^ 2 = 550000 ^ 2 by norm_num, Real.sqrt_sq (by norm_num)]; norm_num

/-! ## C30 -/

theorem defocus_row {lam D f : ℝ} (hl : 0 < lam) (hD : 0 < D) {wavelength dia foc : Scal}
    (h1 : wavelength.val = .fin lam) (h2 : dia.val = .fin D) (h3 : foc.val = .fin f) (us vs : List XR) (w : XR) :
    circularApertureOTFWithDefocus us vs wavelength dia foc w
      = bc2 (defocusApertureElt (.fin (D / lam)) (.fin (f / D)) (.fin (4 * Real.pi / lam)) w) us vs := by
  obtain ⟨c, hc, hv⟩ := Scal.div_fin h2 h1 hl.ne'
  obtain ⟨c', hc', hv'⟩ := Scal.div_fin h3 h2 hD.ne'
  obtain ⟨k, hk, hvk⟩ := Scal.div_fin (a := .py (4 * .fin Real.pi)) (x := 4 * Real.pi)
    (by simp only [Scal.val_py]; xr_simp) h1 hl.ne'
  unfold circularApertureOTFWithDefocus
  rw [hc, ok_bind, hc', ok_bind, hk, ok_bind, hv, hv', hvk]

/-- **C30**: always finite, 1 at zero frequency, 0 at and beyond the cutoff, and a function of the radial
frequency only. -/
theorem C30_support {lam D : ℝ} (hl : 0 < lam) (hD : 0 < D) (f w : ℝ) {wavelength dia foc : Scal}
    (h1 : wavelength.val = .fin lam) (h2 : dia.val = .fin D) (h3 : foc.val = .fin f) :
    ∃ g : ℝ → ℝ, (∀ (n : ℕ) (u v : ℕ → ℝ),
        circularApertureOTFWithDefocus (vec n u) (vec n v) wavelength dia foc (.fin w)
          = .ok (vec n fun i => g (Real.sqrt (u i ^ 2 + v i ^ 2))))
      ∧ g 0 = 1 ∧ ∀ r, D / lam ≤ r → g r = 0 := by
  have hr : 0 < D / lam := by positivity
  by_cases hw : w = 0
  · subst hw
    obtain ⟨g, hg, g0, -, gc, -⟩ := C28_profile hl hD
    refine ⟨g, ?_, g0, gc⟩
    intro n u v
    rw [defocus_row hl hD h1 h2 h3, ← hg wavelength dia h1 h2]
    obtain ⟨c, hc, hv⟩ := Scal.div_fin h2 h1 hl.ne'
    unfold circularApertureOTF
    rw [hc, ok_bind, hv]
    rw [bc2_vec (g := fun a b => 2 / Real.pi * segArea 1 (Real.sqrt (a ^ 2 + b ^ 2) / (D / lam)))
      (fun a b => by rw [defocus_zero hr, aperture_noObscuration hr]),
      bc2_vec (g := fun a b => 2 / Real.pi * segArea 1 (Real.sqrt (a ^ 2 + b ^ 2) / (D / lam)))
      (fun a b => by rw [aperture_noObscuration hr])]
  · let G : ℝ → ℝ := fun r => if r = 0 then 1 else
        if r / (D / lam) ≤ 1 then
          2 / Real.pi * (defocusNum (2 * (r / (D / lam))) (Real.arccos (r / (D / lam)))
            (defocusRate lam D f (2 * (r / (D / lam))) * w) / (defocusRate lam D f (2 * (r / (D / lam))) * w)) else 0
    refine ⟨G, ?_, if_pos rfl, ?_⟩
    · intro n u v
      rw [defocus_row hl hD h1 h2 h3]
      refine bc2_vec (g := fun a b => G (Real.sqrt (a ^ 2 + b ^ 2))) (fun a b => ?_) n u v
      by_cases hz : Real.sqrt (a ^ 2 + b ^ 2) = 0
      · have hab : a = 0 ∧ b = 0 := by
          rw [Real.sqrt_eq_zero (by positivity)] at hz
          constructor <;> nlinarith [sq_nonneg a, sq_nonneg b]
        rw [hz, hab.1, hab.2, defocus_dc hr]
        simp [G]
      · rw [defocus_value hl hD f hw hz]
        simp only [G]
        rw [if_neg hz]
    · intro r h
      have hr' : r ≠ 0 := by linarith
      simp only [G]
      rw [if_neg hr']
      split_ifs with hle
      · have h1 : r / (D / lam) = 1 := le_antisymm hle (by rwa [le_div_iff₀ hr, one_mul])
        rw [h1, Real.arccos_one]
        unfold defocusNum
        simp
      · rfl

/-- **C30**: without defocus it is the unobscured circular-aperture OTF, for all frequency arrays,
including those that raise. -/
theorem C30_no_defocus {lam D : ℝ} (hl : 0 < lam) (hD : 0 < D) (f : ℝ) {wavelength dia foc : Scal}
    (h1 : wavelength.val = .fin lam) (h2 : dia.val = .fin D) (h3 : foc.val = .fin f) (n m : ℕ) (u v : ℕ → ℝ) :
    circularApertureOTFWithDefocus (vec n u) (vec m v) wavelength dia foc 0
      = circularApertureOTF (vec n u) (vec m v) wavelength dia 0 := by
  have hr : 0 < D / lam := by positivity
  obtain ⟨c, hc, hv⟩ := Scal.div_fin h2 h1 hl.ne'
  rw [defocus_row hl hD h1 h2 h3]
  unfold circularApertureOTF
  rw [hc, ok_bind, hv]
  have key : ∀ a ∈ vec n u, ∀ b ∈ vec m v,
      defocusApertureElt (.fin (D / lam)) (.fin (f / D)) (.fin (4 * Real.pi / lam)) 0 a b
        = apertureElt (.fin (D / lam)) 0 a b := by
    intro a ha b hb
    simp only [vec, List.mem_map] at ha hb
    obtain ⟨i, -, rfl⟩ := ha
    obtain ⟨j, -, rfl⟩ := hb
    exact defocus_zero hr _ _ _ _
  exact bc2_congr_mem key

/-- **C30**: as the defocus tends to zero, the OTF tends to the unobscured circular-aperture OTF (the
defocus parameter is continuous at zero) at every frequency. -/
theorem C30_limit {lam D : ℝ} (hl : 0 < lam) (hD : 0 < D) (f : ℝ) {wavelength dia foc : Scal}
    (h1 : wavelength.val = .fin lam) (h2 : dia.val = .fin D) (h3 : foc.val = .fin f) (u v : ℝ) :
    ∃ h : ℝ → ℝ,
      (∀ w, circularApertureOTFWithDefocus [.fin u] [.fin v] wavelength dia foc (.fin w) = .ok [.fin (h w)])
      ∧ Filter.Tendsto h (nhds 0) (nhds (diffractionMTF lam D 0 u v)) := by
  have hr : 0 < D / lam := by positivity
  have hpi := Real.pi_pos
  have hval0 : defocusApertureElt (.fin (D / lam)) (.fin (f / D)) (.fin (4 * Real.pi / lam)) (.fin 0) (.fin u) (.fin v)
      = .fin (diffractionMTF lam D 0 u v) := by
    rw [defocus_zero hr, XR.zero_def]
    exact aperture_diffraction hl hD le_rfl one_pos u v
  have hrow : ∀ w, circularApertureOTFWithDefocus [.fin u] [.fin v] wavelength dia foc (.fin w)
      = .ok [defocusApertureElt (.fin (D / lam)) (.fin (f / D)) (.fin (4 * Real.pi / lam)) (.fin w) (.fin u) (.fin v)] := by
    intro w
    rw [defocus_row hl hD h1 h2 h3, bc2_single]
    rfl
  by_cases hz : Real.sqrt (u ^ 2 + v ^ 2) = 0
  · have hab : u = 0 ∧ v = 0 := by
      rw [Real.sqrt_eq_zero (by positivity)] at hz
      constructor <;> nlinarith [sq_nonneg u, sq_nonneg v]
    refine ⟨fun _ => 1, ?_, ?_⟩
    · intro w; rw [hrow, hab.1, hab.2, defocus_dc hr]
    · rw [hab.1, hab.2, mtf_dc hD le_rfl one_pos]; exact tendsto_const_nhds
  · set t := Real.sqrt (u ^ 2 + v ^ 2) / (D / lam) with ht
    have htp : 0 < t := div_pos (lt_of_le_of_ne (Real.sqrt_nonneg _) (Ne.symm hz)) hr
    let c := defocusRate lam D f (2 * t)
    have hc : 0 < c := by simp only [c, defocusRate]; positivity
    let h : ℝ → ℝ := fun w => if w = 0 then diffractionMTF lam D 0 u v else
      if t ≤ 1 then 2 / Real.pi * (defocusNum (2 * t) (Real.arccos t) (c * w) / (c * w)) else 0
    refine ⟨h, ?_, ?_⟩
    · intro w
      rw [hrow]
      by_cases hw : w = 0
      · rw [hw, hval0]; simp [h]
      · rw [defocus_value hl hD f hw hz]; simp only [h]; rw [if_neg hw]
    · -- value at zero
      have hmtf : diffractionMTF lam D 0 u v = 2 / Real.pi * segArea 1 t := by
        rw [← XR.fin_inj, ← aperture_diffraction hl hD le_rfl one_pos, ← XR.zero_def, aperture_noObscuration hr]
      have hh0 : h 0 = diffractionMTF lam D 0 u v := if_pos rfl
      rw [← hh0]
      show ContinuousAt h 0
      rw [continuousAt_iff_punctured_nhds, hh0, hmtf]
      by_cases h1t : t ≤ 1
      · have hlim := (defocusNum_limit (2 * t) (Real.arccos t))
        have hmap : Filter.Tendsto (fun w : ℝ => c * w) (nhdsWithin 0 {0}ᶜ) (nhdsWithin 0 {0}ᶜ) := by
          apply tendsto_nhdsWithin_of_tendsto_nhds_of_eventually_within
          · have : Filter.Tendsto (fun w : ℝ => c * w) (nhds 0) (nhds (c * 0)) := (continuous_const.mul continuous_id).tendsto 0
            rw [mul_zero] at this
            exact this.mono_left nhdsWithin_le_nhds
          · filter_upwards [self_mem_nhdsWithin] with w hw
            exact mul_ne_zero hc.ne' hw
        have hcomp := (hlim.comp hmap).const_mul (2 / Real.pi)
        have hv : 2 / Real.pi * (Real.arccos t - 2 * t / 2 * Real.sin (Real.arccos t)) = 2 / Real.pi * segArea 1 t := by
          unfold segArea
          rw [Real.sin_arccos]
          simp
        rw [hv] at hcomp
        refine hcomp.congr' ?_
        filter_upwards [self_mem_nhdsWithin] with w hw
        simp only [h, Function.comp]
        rw [if_neg (show ¬ w = 0 from hw), if_pos h1t]
      · rw [segArea_of_le one_pos (not_le.mp h1t).le, mul_zero]
        refine Filter.Tendsto.congr' ?_ tendsto_const_nhds
        filter_upwards [self_mem_nhdsWithin] with w hw
        simp only [h]
        rw [if_neg (show ¬ w = 0 from hw), if_neg h1t]

/-- Non-vacuity: a 275 mm, f/14.5 system at 500 nm defocused by 0.1 mm; zero frequency and the cutoff. -/
example : circularApertureOTFWithDefocus (vec 2 fun i => 550000 * i) (vec 2 fun _ => 0) (.py 0.0000005) (.py 0.275) (.py 4)
    (.fin 0.0001) = .ok [.fin 1, .fin 0] := by
  obtain ⟨g, hg, g0, gc⟩ := C30_support (lam := 0.0000005) (D := 0.275) (by norm_num) (by norm_num) 4 0.0001
    (wavelength := .py 0.0000005) (dia := .py 0.275) (foc := .py 4) rfl rfl rfl
  rw [hg]
  have h0 : Real.sqrt (((550000 : ℝ) * 0) ^ 2 + 0 ^ 2) = 0 := by norm_num
  have h1 : Real.sqrt (((550000 : ℝ) * 1) ^ 2 + 0 ^ 2) = 550000 := by
    rw [show ((550000 : ℝ) * 1) ^ 2 + 0 ^ 2 = 550000 ^ 2 by norm_num, Real.sqrt_sq (by norm_num)]
  have h2 : g 550000 = 0 := gc _ (by norm_num)
  simp only [vec, List.range, List.range.loop, List.map, Nat.cast_zero, Nat.cast_one, h0, h1, h2, g0]

end PyBSM
