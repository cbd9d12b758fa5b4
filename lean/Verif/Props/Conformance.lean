import Verif.Model.Geospatial
import Verif.Model.Noise
import Verif.Model.Radiance
import Verif.Model.Otf
import Verif.Model.Simulation
import Verif.Lemmas.Scal
import Verif.Lemmas.Sensor

/-!
# The expectations of the repository's own unit tests, checked against the model

These are not properties: each statement replays literals from `/repo/tests` (cited with file and
line) on the model and proves that the model returns what the test expects of the code.  They guard
against a model that drifted from the code, above all in the special-value and exception branches
(`ZeroDivisionError`, `IndexError`, `ValueError`, `inf`, `nan`).
-/

noncomputable section

open Classical

namespace PyBSM

theorem Scal.div_zero {a b : Scal} (ha : a.IsPy) (hb : b.IsPy) (h : b.val = .fin 0) :
    a.div b = .error .zeroDivisionError :=
  (Scal.div_error_iff a b _).2 ⟨rfl, ha, hb, by rw [h]; rfl⟩

/-! ## `tests/geospatial/test_geospatial.py` -/

/-- lines 11-22: `nadir_angle(t, s, 0.0)` raises `ZeroDivisionError` -/
theorem conforms_nadir_zero (t s : ℝ) :
    nadirAngle (.py (.fin t)) (.py (.fin s)) (.py 0) = .error .zeroDivisionError := by
  unfold nadirAngle
  dsimp only
  rw [Scal.div_zero]
  · rfl
  · simp [Scal.isPy_mul, Scal.isPy_sub, Scal.isPy_pow, Scal.isPy_add, Scal.isPy_py]
  · simp [Scal.isPy_mul, Scal.isPy_sub, Scal.isPy_pow, Scal.isPy_add, Scal.isPy_py]
  · simp only [Scal.val_mul, Scal.val_add, Scal.val_py, XR.ofNat_def, XR.zero_def]
    xr_simp
    simp

/-- lines 24-35: `nadir_angle(1.0, 0.0, 1.0)` is pi -/
theorem conforms_nadir_up : nadirAngle (.py 1) (.py 0) (.py 1) = .ok (.fin Real.pi) := by
  unfold nadirAngle
  obtain ⟨c, h1, h2⟩ := Scal.div_fin
    (a := Scal.py (-1) * ((Scal.py (.fin rEarth) + .py 1) ^ 2 - (Scal.py (.fin rEarth) + .py 0) ^ 2
      - Scal.py 1 ^ 2))
    (b := Scal.py 2 * (Scal.py (.fin rEarth) + .py 0) * .py 1)
    (x := -1 * ((rEarth + 1) ^ 2 - (rEarth + 0) ^ 2 - 1 ^ 2)) (y := 2 * (rEarth + 0) * 1) rfl rfl
    (by norm_num [rEarth])
  simp only [h1, ok_bind, h2]
  have : -1 * ((rEarth + 1) ^ 2 - (rEarth + 0) ^ 2 - 1 ^ 2) / (2 * (rEarth + 0) * 1) = -1 := by
    norm_num [rEarth]
  rw [this, XR.fin_arccos (by norm_num) (by norm_num), Real.arccos_neg_one]

/-- lines 24-35: `nadir_angle(0.0, 1.0, 1.0)` is 0 -/
theorem conforms_nadir_down : nadirAngle (.py 0) (.py 1) (.py 1) = .ok (.fin 0) := by
  unfold nadirAngle
  obtain ⟨c, h1, h2⟩ := Scal.div_fin
    (a := Scal.py (-1) * ((Scal.py (.fin rEarth) + .py 0) ^ 2 - (Scal.py (.fin rEarth) + .py 1) ^ 2
      - Scal.py 1 ^ 2))
    (b := Scal.py 2 * (Scal.py (.fin rEarth) + .py 1) * .py 1)
    (x := -1 * ((rEarth + 0) ^ 2 - (rEarth + 1) ^ 2 - 1 ^ 2)) (y := 2 * (rEarth + 1) * 1) rfl rfl
    (by norm_num [rEarth])
  simp only [h1, ok_bind, h2]
  have : -1 * ((rEarth + 0) ^ 2 - (rEarth + 1) ^ 2 - 1 ^ 2) / (2 * (rEarth + 1) * 1) = 1 := by
    norm_num [rEarth]
  rw [this, XR.fin_arccos (by norm_num) (by norm_num), Real.arccos_one]

/-- lines 39-50: `altitude_along_slant_path(t, s, 0.0)` raises `ZeroDivisionError` -/
theorem conforms_altitude_zero (t s : ℝ) :
    altitudeAlongSlantPath (.py (.fin t)) (.py (.fin s)) (.py 0) = .error .zeroDivisionError := by
  unfold altitudeAlongSlantPath
  rw [conforms_nadir_zero]
  rfl

/-! ## `tests/noise/test_noise.py` -/

/-- lines 11-29: two kernels that sum to one -/
theorem conforms_gain : noiseGain [[0.25, 0.25], [0.25, 0.25]] = .ok (.fin 0.5) ∧
    noiseGain [[0.5], [0.5]] = .ok (.fin (Real.sqrt 0.5)) := by
  constructor
  · simp only [noiseGain, List.flatten, List.map, asum, List.foldr, XR.zero_def, XR.one_def,
      List.append, List.cons_append, List.nil_append]
    xr_simp
    norm_num
    rw [XR.fin_sqrt (by norm_num)]
    congr 2
    rw [Real.sqrt_eq_iff_mul_self_eq] <;> norm_num
  · simp only [noiseGain, List.flatten, List.map, asum, List.foldr, XR.zero_def, XR.one_def,
      List.append, List.cons_append, List.nil_append]
    xr_simp
    rw [XR.fin_sqrt (by norm_num)]
    norm_num

/-- lines 11-29: two kernels that do not -/
theorem conforms_gain_error : noiseGain [[1.25, 0.25], [0.25, 0.25]] = .error .valueError ∧
    noiseGain [[-1.25, 0.25], [0.25, 0.25]] = .error .valueError := by
  constructor <;>
  · simp only [noiseGain, List.flatten, List.map, asum, List.foldr, XR.zero_def, XR.one_def,
      List.append, List.cons_append, List.nil_append]
    xr_simp
    norm_num

/-- lines 31-66: `nan`, `inf`, `0` and `1/sqrt(12)` -/
theorem conforms_quantization : quantizationNoise 0 0 = .nan ∧ quantizationNoise 1 0 = .pinf ∧
    quantizationNoise 0 1 = 0 ∧ quantizationNoise 1 1 = .fin (1 / Real.sqrt 12) := by
  have h12 : XR.sqrt 12 = .fin (Real.sqrt 12) := by
    rw [XR.ofNat_def, XR.fin_sqrt (by norm_num)]
  have hp : Real.sqrt 12 ≠ 0 := by positivity
  refine ⟨?_, ?_, ?_, ?_⟩ <;> simp only [quantizationNoise, h12, XR.zero_def, XR.one_def] <;>
    xr_simp <;> norm_num [XR.fin_div_zero, XR.mulInf]
  · rw [XR.fin_div _ hp]; simp
  · rw [XR.fin_div _ hp]; simp

/-! ## `tests/radiance/test_functional.py` -/

/-- lines 66-83: `at_focal_plane_irradiance(0.0, f, [])` raises `ZeroDivisionError` -/
theorem conforms_irradiance_zero (f : ℝ) (L : List XR) :
    atFocalPlaneIrradiance (.py 0) (.py (.fin f)) L = .error .zeroDivisionError := by
  unfold atFocalPlaneIrradiance
  rw [Scal.div_zero (by trivial) (by trivial) rfl]
  rfl

/-- lines 85-117: empty in, empty out; `L = 1` gives pi at `f = 0` and `pi / 5` at `f = D` -/
theorem conforms_irradiance :
    (∃ x, atFocalPlaneIrradiance (.py 1) (.py 0) [] = .ok x ∧ x = []) ∧
    atFocalPlaneIrradiance (.py 1) (.py 0) [1] = .ok [.fin Real.pi] ∧
    atFocalPlaneIrradiance (.py 1) (.py 1) [1, 2] =
      .ok [.fin (Real.pi / 5), .fin (2 * Real.pi / 5)] := by
  have h0 : Scal.div (.py 0) (.py 1) = .ok (.py (.fin 0)) := by
    simp only [Scal.div, XR.zero_def, XR.one_def, XR.fin_eq]
    norm_num
    rw [XR.fin_div _ (by norm_num)]
    simp
  have h1 : Scal.div (.py 1) (.py 1) = .ok (.py (.fin 1)) := by
    simp only [Scal.div, XR.zero_def, XR.one_def, XR.fin_eq]
    norm_num
    rw [XR.fin_div _ (by norm_num)]
    simp
  refine ⟨⟨[], ?_, rfl⟩, ?_, ?_⟩
  · simp only [atFocalPlaneIrradiance, h0, ok_bind, List.map]
  · simp only [atFocalPlaneIrradiance, h0, ok_bind, List.map, Scal.val_py]
    simp only [XR.one_def, XR.ofNat_def]
    xr_simp
    norm_num
    rw [XR.fin_div _ (by norm_num)]
    simp
  · simp only [atFocalPlaneIrradiance, h1, ok_bind, List.map, Scal.val_py]
    simp only [XR.one_def, XR.ofNat_def]
    xr_simp
    norm_num
    rw [XR.fin_div _ (by norm_num), XR.fin_div _ (by norm_num)]
    simp

/-- lines 134-163: `resample_by_wavelength` on an empty table or a table of two lengths -/
theorem conforms_resample_error :
    resampleByWavelength [] [] [] = .error .valueError ∧
    resampleByWavelength [1] [] [1] = .error .valueError ∧
    resampleByWavelength [] [1] [1] = .error .valueError ∧
    resampleByWavelength [1, 2] [1, 1.5, 2] [0, 1, 3] = .error .valueError ∧
    resampleByWavelength [1, 2, 3] [1, 2] [0, 1, 3] = .error .valueError := by
  refine ⟨?_, ?_, ?_, ?_, ?_⟩ <;> simp [resampleByWavelength, npInterp]

/-- lines 165-216: `resample_by_wavelength` inside the table is linear, outside it is zero -/
theorem conforms_resample :
    resampleByWavelength [1] [1] [] = .ok [] ∧
    resampleByWavelength [1] [1] [1] = .ok [1] ∧
    resampleByWavelength [1, 2] [1, 3] [1, 1.5, 2] = .ok [1, 2, 3] ∧
    resampleByWavelength [1, 2] [1, 2] [0, 1, 3] = .ok [0, 1, 0] := by
  refine ⟨?_, ?_, ?_, ?_⟩ <;>
    simp only [resampleByWavelength, npInterp, List.map, interpTable, interpFrom, List.zip,
      List.zipWith, XR.zero_def, XR.one_def, XR.ofNat_def, XR.sci_def, XR.fin_lt, XR.fin_eq,
      XR.fin_isNan, segment, if_false, reduceCtorEq, List.length, false_or, ne_eq, not_true_eq_false]
  · norm_num
  · norm_num
    xr_simp
    norm_num
    rw [XR.fin_div _ (by norm_num)]
    xr_simp
    norm_num
  · norm_num

/-- lines 824-835 (`total_radiance` of an all-ones atmosphere): at reflectance 0 and temperature 0
the black body does not radiate and two of the four terms remain -/
theorem conforms_total_radiance (n : ℕ) :
    totalRadiance (List.replicate n fun _ => 1) 0 0 = List.replicate n 2 := by
  have hb : blackbody 1 0 = 0 := by
    have hk : (1 : XR) * .fin kC * 0 = .fin 0 := by simp only [XR.one_def, XR.zero_def]; xr_simp; simp
    have hh : (0:ℝ) < hC * cC := by unfold hC cC; positivity
    unfold blackbody
    rw [hk, XR.fin_mul, XR.fin_div_zero]
    simp only [XR.mulInf, hh, if_true]
    have : (1 : XR) / (XR.exp .pinf - 1) = .fin 0 := rfl
    rw [this]
    simp only [XR.one_def, XR.zero_def, XR.ofNat_def]
    xr_simp
    norm_num
    rw [XR.fin_div _ (by norm_num)]
    xr_simp
    simp
  simp only [totalRadiance, List.map_replicate, hb]
  congr 1
  simp only [XR.one_def, XR.zero_def, XR.ofNat_def, XR.sci_def]
  rw [XR.fin_div _ (by norm_num)]
  xr_simp
  norm_num

/-! ## `tests/otf/test_otf.py` -/

/-- lines 22-40: `coherence_diameter` on an empty path is a `ValueError` -/
theorem conforms_coherence_error (l : Scal) (c : List XR) :
    coherenceDiameter l [] c = .error .valueError := rfl

/-- lines 97-120: the Hufnagel-Valley profile at ground level is the one-metre value
up to the `2.7e-16` background -/
theorem conforms_hv : hvProfile 1 1 0 = .fin (1 + 2.7e-16) := by
  unfold hvProfile
  simp only [XR.one_def, XR.zero_def, XR.ofNat_def, XR.sci_def]
  rw [XR.fin_div _ (by norm_num), XR.fin_neg, XR.fin_div _ (by norm_num),
    XR.fin_div _ (by norm_num), XR.fin_div _ (by norm_num)]
  xr_simp
  norm_num

/-- lines 122-140: `weighted_by_wavelength` on empty or unequal arrays -/
theorem conforms_weighted_error (g : XR → Except PyErr (List XR)) (hg : ∀ x, ∃ l, g x = .ok l) :
    weightedByWavelength [] [] g = .error .indexError ∧
    weightedByWavelength [] [0] g = .error .indexError ∧
    weightedByWavelength [0] [] g = .error .indexError ∧
    weightedByWavelength [1, 2] [1] g = .error .indexError := by
  refine ⟨rfl, rfl, rfl, ?_⟩
  obtain ⟨l, h⟩ := hg 1
  simp only [weightedByWavelength, List.map, h, ok_bind, List.foldlM, List.length]
  rfl

/-- lines 142-160: `weighted_by_wavelength` with zero weights is `nan` -/
theorem conforms_weighted_nan (x : ℝ) :
    weightedByWavelength [.fin x] [0] (fun l => .ok [l]) = .ok [.nan] := by
  simp only [weightedByWavelength, List.map, asum, List.foldr, ok_bind, List.foldlM, XR.zero_def]
  xr_simp
  simp [XR.fin_div_zero, XR.mulInf, XR.nan_mul, pure, Except.pure]

/-- lines 162-198: `weighted_by_wavelength` of the identity: 1/3 with an unused second weight -/
theorem conforms_weighted_unused :
    weightedByWavelength [1] [1, 2] (fun l => .ok [l]) = .ok [.fin (1 / 3)] := by
  simp only [weightedByWavelength, List.map, asum, List.foldr, ok_bind, List.foldlM, XR.zero_def,
    XR.one_def, XR.ofNat_def]
  xr_simp
  norm_num [pure, Except.pure]
  rw [XR.fin_div _ (by norm_num)]
  xr_simp
  norm_num

/-- lines 162-198: `weighted_by_wavelength` of the identity: the weighted mean 5/3 -/
theorem conforms_weighted :
    weightedByWavelength [1, 2] [1, 2] (fun l => .ok [l]) = .ok [.fin (5 / 3)] := by
  have h1 : XR.fin 1 / .fin 3 = .fin (1 / 3) := XR.fin_div _ (by norm_num)
  have h2 : XR.fin 2 / .fin 3 = .fin (2 / 3) := XR.fin_div _ (by norm_num)
  simp only [weightedByWavelength, List.map, asum, List.foldr, ok_bind, List.foldlM, XR.zero_def,
    XR.one_def, XR.ofNat_def]
  xr_simp
  norm_num [h1, h2, List.zip, List.zipWith, List.filter, bc2, XR.fin_mul, XR.fin_add, ok_bind,
    XR.fin_eq, pure, Except.pure]

/-- lines 203-245: `object_domain_defocus_radii` raises for `R = 0` and for `R0 = 0` -/
theorem conforms_object_radii (D : ℝ) :
    objectDomainDefocusRadii (.py (.fin D)) (.py 0) (.py 1) = .error .zeroDivisionError ∧
    objectDomainDefocusRadii (.py (.fin D)) (.py 1) (.py 0) = .error .zeroDivisionError ∧
    objectDomainDefocusRadii (.py (.fin D)) (.py 1) (.py 1) = .ok (.fin 0) := by
  have h1 : Scal.div (.py 1) (.py 1) = .ok (.py (.fin 1)) := by
    simp only [Scal.div, XR.zero_def, XR.one_def, XR.fin_eq]
    norm_num
    rw [XR.fin_div _ (by norm_num)]
    simp
  have h0 : Scal.div (.py 1) (.py 0) = .error .zeroDivisionError :=
    Scal.div_zero (by trivial) (by trivial) rfl
  refine ⟨?_, ?_, ?_⟩ <;> simp only [objectDomainDefocusRadii, h0, h1, ok_bind, error_bind]
  simp only [Scal.val_py, XR.sci_def]
  xr_simp
  simp

/-- lines 297-313: `image_domain_defocus_radii` raises for `f = 0` -/
theorem conforms_image_radii :
    imageDomainDefocusRadii (.py 1) (.py 1) (.py 0) = .error .zeroDivisionError := by
  unfold imageDomainDefocusRadii
  rw [Scal.div_zero]
  · rfl
  · simp [Scal.isPy_mul, Scal.isPy_py]
  · simp [Scal.isPy_pow, Scal.isPy_py]
  · simp only [Scal.val_pow, Scal.val_py, XR.zero_def, XR.fin_pow]; simp

/-- lines 332-360: `resample_2D` raises for `dx_out = 0` and hands OpenCV an empty size for
`dx_in = 0` -/
theorem conforms_resample2d (img : Img) (dx : ℝ) :
    resample2D true img (.py (.fin dx)) (.py 0) = .error .zeroDivisionError ∧
    resample2D true img (.py 0) (.py 1) = .error .cv2Error := by
  constructor
  · simp only [resample2D, resampledSize, Bool.not_true]
    rw [Scal.div_zero (by simp [Scal.isPy_mul, Scal.isPy_py]) (by trivial) rfl]
    rfl
  · have h : ∀ n : ℕ, resampledSize n (.py 0) (.py 1) = .ok 0 := by
      intro n
      obtain ⟨c, h1, h2⟩ := Scal.div_fin (a := Scal.py (.fin n) * .py 0) (b := .py 1) (x := n * 0)
        (y := 1) rfl rfl (by norm_num)
      simp only [resampledSize, h1, ok_bind, h2, mul_zero, zero_div]
      norm_num [roundHalfEven]
    simp only [resample2D, h, ok_bind, Bool.not_true]
    simp [cvResize]

/-- lines 478-500: `otf_to_psf` raises for `df = 0` and for `dx_out = 0` -/
theorem conforms_psf_zero (M N : ℕ) (otf : ℕ → ℕ → ℂ) (dx : ℝ) (hM : M ≠ 0) :
    otfToPsf true M N otf (.py 0) (.py (.fin dx)) = .error .zeroDivisionError ∧
    otfToPsf true M N otf (.py 1) (.py 0) = .error .zeroDivisionError := by
  constructor
  · simp only [otfToPsf, Bool.not_true]
    rw [Scal.div_zero (by trivial) (by simp [Scal.isPy_mul, Scal.isPy_py])
      (by simp only [Scal.val_mul, Scal.val_py, XR.zero_def, XR.fin_mul]; simp)]
    rfl
  · have hm : Scal.div (.py 1) (Scal.py (.fin M) * .py 1) = .ok (.py (.fin (1 / (M * 1)))) := by
      show (if XR.eq (.fin (M * 1)) 0 then _ else _) = _
      have hM' : (M : ℝ) * 1 ≠ 0 := by simpa using hM
      rw [if_neg (by rw [XR.zero_def, XR.fin_eq]; exact hM'), XR.one_def]
      show Except.ok (Scal.py (.fin 1 / .fin (M * 1))) = _
      rw [XR.fin_div _ hM']
    simp only [otfToPsf, Bool.not_true, hm, ok_bind]
    rw [Scal.div_zero (by simp [Scal.isPy_mul, Scal.isPy_py]) (by trivial) rfl]
    rfl

/-- lines 524-548: `cte_OTF` with a zero focal length is `nan` -/
theorem conforms_cte_nan : cteOTF 1 1 0 0 0 0 1 1 0 = .nan ∧ cteOTF 1 1 1 1 1 1 0 0 0 = .nan := by
  have hpi := Real.pi_pos
  constructor <;>
  · simp only [cteOTF, cteXY, XR.zero_def, XR.one_def, XR.ofNat_def]
    xr_simp
    simp [XR.fin_div_zero, XR.mulInf, XR.cos, XR.sub_nan, XR.mul_nan, XR.exp, hpi]

/-- lines 550-610: `cte_OTF` values 1 and exp 8 -/
theorem conforms_cte : cteOTF 1 1 0 0 1 1 1 1 1 = 1 ∧ cteOTF 1 1 1 1 1 1 1 1 1 = 1 ∧
    cteOTF 1 1 0 1 1 2 2 2 2 = .fin (Real.exp 8) := by
  refine ⟨?_, ?_, ?_⟩ <;>
  · simp only [cteOTF, cteXY, XR.zero_def, XR.one_def, XR.ofNat_def]
    xr_simp
    rw [XR.fin_div _ (by norm_num)]
    try rw [XR.fin_div _ (by norm_num)]
    xr_simp
    norm_num

/-- lines 705-780 and 1552-1615: `detector_OTF` is `nan` for a zero focal length and 1 for
vanishing detectors -/
theorem conforms_detector : detectorOTF 1 1 0 0 0 = .nan ∧ detectorOTF 1 1 1 1 0 = .nan ∧
    detectorOTF 1 1 0 0 1 = 1 ∧ detectorOTF 1 1 1 0 1 = 0 := by
  refine ⟨?_, ?_, ?_, ?_⟩ <;> simp only [detectorOTF, XR.zero_def, XR.one_def] <;> xr_simp
  · simp [XR.fin_div_zero, XR.mulInf, XR.sinc, XR.nan_mul]
  · simp [XR.fin_div_zero, XR.mulInf, XR.sinc, XR.nan_mul]
  · rw [XR.fin_div _ (by norm_num)]
    xr_simp
    simp [XR.fin_sinc]
  · rw [XR.fin_div _ (by norm_num), XR.fin_div _ (by norm_num)]
    xr_simp
    simp [XR.fin_sinc, Real.sinc_of_ne_zero Real.pi_ne_zero]

/-- lines 1636-1665 and 1690-1725: no drift and no jitter leave the contrast alone -/
theorem conforms_motion : driftOTF 1 1 0 0 = 1 ∧ driftOTF 1 1 1 1 = 0 ∧ jitterOTF 1 1 0 0 = 1 ∧
    jitterOTF 1 1 1 0 = .fin (Real.exp (-2 * Real.pi ^ 2)) := by
  refine ⟨?_, ?_, ?_, ?_⟩ <;>
    simp only [driftOTF, jitterOTF, XR.zero_def, XR.one_def, XR.ofNat_def] <;> xr_simp <;>
    simp [XR.fin_sinc, Real.sinc_of_ne_zero Real.pi_ne_zero]

/-- lines 1019-1052: `wavefront_OTF_2` without aberration is 1 -/
theorem conforms_wavefront2 : wavefrontOTF2 1 1 1 0 = 1 := by
  simp only [wavefrontOTF2, XR.zero_def, XR.one_def, XR.ofNat_def, XR.sci_def]
  xr_simp
  rw [XR.fin_sqrt (by norm_num), XR.fin_div _ (by norm_num), XR.fin_div _ (by norm_num)]
  xr_simp
  simp

/-- lines 52-68: `coherence_diameter` along a path of one point is infinite: the integral is zero -/
theorem conforms_coherence_inf (c : XR) (z : XR) : coherenceDiameter (.py 1) [z] [c] = .ok .pinf := by
  have hk : Scal.div (.py (2 * .fin Real.pi)) (.py 1) = .ok (.py (.fin (2 * Real.pi))) := by
    simp only [Scal.div, XR.zero_def, XR.one_def, XR.ofNat_def, XR.fin_eq]
    norm_num
    xr_simp
    rw [XR.fin_div _ (by norm_num)]
    simp
  show (Scal.div (.py (2 * .fin Real.pi)) (.py 1) >>= fun k => Except.ok ((0 * 0.423 * k.val ^ 2).rpow (-3 / 5))) = _
  rw [hk, ok_bind]
  simp only [Scal.val_py, XR.zero_def, XR.sci_def]
  xr_simp
  norm_num [XR.rpow]

/-- lines 804-812: `diffusion_OTF` with no absorption is `nan` -/
theorem conforms_diffusion : diffusionOTF 1 1 0 2 (.py 2) 1 = .ok .nan := by
  have hp : ∀ a : ℝ, diffusionParams (.fin a) 0 2 = .fin 0 := by
    intro a
    simp only [diffusionParams, XR.zero_def, XR.one_def, XR.ofNat_def]
    xr_simp
    norm_num
    rw [XR.fin_div _ (by norm_num)]
    xr_simp
    norm_num
  have hq : Scal.div (.py 1) (Scal.py 2 ^ 2) = .ok (.py (.fin (1 / 4))) := by
    show (if XR.eq (.fin (2 ^ 2)) 0 then _ else _) = _
    rw [if_neg (by rw [XR.zero_def, XR.fin_eq]; norm_num), XR.one_def]
    show Except.ok (Scal.py (.fin 1 / .fin (2 ^ 2))) = _
    rw [XR.fin_div _ (by norm_num)]
    norm_num
  have hr : radial 1 1 = .fin (Real.sqrt 2) := by
    simp only [radial, XR.one_def]
    xr_simp
    rw [XR.fin_sqrt (by norm_num)]
    norm_num
  have hs : ∃ a, XR.sqrt (1 / (.fin (1 / 4) + (2 * .fin Real.pi * .fin (Real.sqrt 2) / 1) ^ 2)) = .fin a := by
    simp only [XR.one_def, XR.ofNat_def]
    xr_simp
    rw [XR.fin_div _ (by norm_num)]
    xr_simp
    rw [XR.fin_div _ (by positivity), XR.fin_sqrt (by positivity)]
    exact ⟨_, rfl⟩
  obtain ⟨a, hs⟩ := hs
  unfold diffusionOTF
  rw [hq, ok_bind]
  simp only [hr, Scal.val_py, hs, hp]
  have h2 : diffusionParams 2 0 2 = .fin 0 := hp 2
  rw [h2, XR.fin_div_zero]
  simp [XR.mulInf]

/-- lines 1078-1140: `polychromatic_turbulence_OTF` on a path of no length raises -/
theorem conforms_polychromatic_zero (us vs wl ws : List XR) (alt : ℝ) (D w c t a : XR) :
    polychromaticTurbulenceOTF us vs wl ws (.py (.fin alt)) (.py 0) D w c t a = .error .zeroDivisionError := by
  unfold polychromaticTurbulenceOTF
  have := conforms_altitude_zero 0 alt
  rw [← XR.zero_def] at this
  rw [this]
  rfl

/-- lines 1745-1800: `common_OTFs` with a slant range of zero raises (the aperture is computed first) -/
theorem conforms_common_zero (diag : ℕ → ℕ → Bool) {s : Sensor} {sc : Scenario} {us vs wl ws : List XR} {t : XR}
    {ap : List XR} {alt : ℝ} (hc : XR.lt 0 sc.cn2At1m) (ha : sc.altitude = .fin alt)
    (h : weightedByWavelength wl ws (fun w => circularApertureOTF us vs (.np w) (.py s.D) s.eta) = .ok ap) :
    commonOTFs diag s sc us vs wl ws (.py 0) t = .error .zeroDivisionError := by
  unfold commonOTFs
  rw [h, ok_bind]
  unfold commonTurbulence
  rw [if_pos hc, ha, conforms_polychromatic_zero]
  rfl

/-- lines 1802-1900: `common_OTFs` without wavelengths or without weights raises `IndexError` -/
theorem conforms_common_index (diag : ℕ → ℕ → Bool) (s : Sensor) (sc : Scenario) (us vs wl ws : List XR) (r : Scal)
    (t : XR) : commonOTFs diag s sc us vs [] ws r t = .error .indexError ∧
    commonOTFs diag s sc us vs wl [] r t = .error .indexError := by
  constructor
  · unfold commonOTFs weightedByWavelength
    cases ws <;> rfl
  · unfold commonOTFs weightedByWavelength
    rfl

/-! ## `tests/simulation/test_simulation.py` and `test_ref_image.py` -/

/-- lines 8-20: empty or unequal calibration tables -/
theorem conforms_reflectance_error : imgToReflectance [] [] [] = .error .valueError ∧
    imgToReflectance [0] [] [] = .error .valueError ∧
    imgToReflectance [] [0] [] = .error .valueError ∧
    imgToReflectance [] [] [0] = .error .valueError := by
  refine ⟨?_, ?_, ?_, ?_⟩ <;> simp [imgToReflectance]

/-- lines 22-36: a calibration table with one repeated pixel value gives `nan` -/
theorem conforms_reflectance_nan (x : ℝ) :
    imgToReflectance [.fin x, .fin x] [.fin x, .fin x] [.fin x, .fin x] = .ok [.nan, .nan] := by
  have hs : segment (.fin x) (.fin x) (.fin x) (.fin x) (.fin x) = .nan := by
    simp only [segment]
    xr_simp
    simp [XR.fin_div_zero, XR.mulInf, XR.nan_mul, XR.nan_add]
  have hc : clip01 .nan = .nan := by
    have h1 : ¬ XR.lt 1 .nan := id
    have h2 : ¬ XR.lt .nan 0 := id
    simp only [clip01, if_neg h1, if_neg h2]
  simp [imgToReflectance, sortKey, insertKey, XR.fin_lt, interp1dSeg, hs, hc]

/-- lines 38-60: the identity table, and a table that would exceed full reflectance -/
theorem conforms_reflectance : imgToReflectance [0, 1] [0, 1] [0, 1] = .ok [0, 1] ∧
    imgToReflectance [1] [0, 1] [0, 2] = .ok [1] := by
  constructor <;>
  · simp only [imgToReflectance, sortKey, insertKey, List.zip, List.zipWith, XR.zero_def,
      XR.one_def, XR.ofNat_def, XR.fin_lt, List.map]
    norm_num [interp1dSeg, segment]
    xr_simp
    norm_num
    rw [XR.fin_div _ (by norm_num)]
    xr_simp
    simp only [clip01, XR.one_def, XR.zero_def, XR.fin_lt]
    norm_num [XR.fin_lt]
    exact fun h => absurd h (List.cons_ne_nil _ _)

/-- `test_ref_image.py` lines 17-40: pixel values without reflectances are refused; reflectances
without pixel values are ignored -/
theorem conforms_ref_image (img : Img) (g : XR) (p r : List XR) :
    RefImage.new img g (some p) none = .error .valueError ∧
    RefImage.new img g none (some r) = RefImage.new img g := ⟨rfl, rfl⟩

end PyBSM
