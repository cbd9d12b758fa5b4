import Verif.Spec.Angles
import Verif.Props.Exchange
import Verif.Props.Equilibrium

/-!
# C131: only angles matter to sharpness

Which lengths of the camera and of the scene may be multiplied together without changing any OTF or simulated image, and
what the light does meanwhile.
-/

noncomputable section

open Classical

namespace PyBSM

open Spec

theorem XR.ratio_scale {k : ℝ} (hk : 0 < k) (a b : XR) : (.fin k * a) / (.fin k * b) = a / b := by
  have hs : ∀ d : ℝ, k * d < 0 ↔ d < 0 := by
    intro d
    constructor
    · intro h; by_contra h'; nlinarith [mul_nonneg hk.le (not_lt.mp h')]
    · intro h; nlinarith
  cases b with
  | fin y =>
    cases a with
    | fin x =>
      rw [XR.fin_mul, XR.fin_mul]
      rcases eq_or_ne y 0 with rfl | hy
      · rw [mul_zero, XR.fin_div_zero, XR.fin_div_zero, XR.mulInf_scale hk]
      · rw [XR.fin_div _ (mul_ne_zero hk.ne' hy), XR.fin_div _ hy, mul_div_mul_left _ _ hk.ne']
    | pinf =>
      rw [XR.pos_mul_pinf hk]
      show (if k * y < 0 then XR.ninf else .pinf) = if y < 0 then XR.ninf else .pinf
      simp only [hs]
    | ninf =>
      rw [XR.pos_mul_ninf hk]
      show (if k * y < 0 then XR.pinf else .ninf) = if y < 0 then XR.pinf else .ninf
      simp only [hs]
    | nan => rfl
  | pinf =>
    rw [XR.pos_mul_pinf hk]
    cases a with
    | fin x => rfl
    | pinf => rw [XR.pos_mul_pinf hk]
    | ninf => rw [XR.pos_mul_ninf hk]
    | nan => rfl
  | ninf =>
    rw [XR.pos_mul_ninf hk]
    cases a with
    | fin x => rfl
    | pinf => rw [XR.pos_mul_pinf hk]
    | ninf => rw [XR.pos_mul_ninf hk]
    | nan => rfl
  | nan =>
    show .fin k * a / XR.nan = a / XR.nan
    cases a with
    | fin x => rfl
    | pinf => rw [XR.pos_mul_pinf hk]
    | ninf => rw [XR.pos_mul_ninf hk]
    | nan => rfl

theorem XR.eq_scale {k : ℝ} (hk : 0 < k) (a b : XR) : XR.eq (.fin k * a) (.fin k * b) ↔ XR.eq a b := by
  cases a with
  | fin x =>
    cases b with
    | fin y =>
      show k * x = k * y ↔ x = y
      exact mul_right_inj' hk.ne'
    | pinf => rw [XR.pos_mul_pinf hk]; exact Iff.rfl
    | ninf => rw [XR.pos_mul_ninf hk]; exact Iff.rfl
    | nan => exact Iff.rfl
  | pinf =>
    rw [XR.pos_mul_pinf hk]
    cases b with
    | fin y => exact Iff.rfl
    | pinf => rw [XR.pos_mul_pinf hk]
    | ninf => rw [XR.pos_mul_ninf hk]
    | nan => exact Iff.rfl
  | ninf =>
    rw [XR.pos_mul_ninf hk]
    cases b with
    | fin y => exact Iff.rfl
    | pinf => rw [XR.pos_mul_pinf hk]
    | ninf => rw [XR.pos_mul_ninf hk]
    | nan => exact Iff.rfl
  | nan => cases b <;> exact Iff.rfl

theorem XR.eq_zero_scale {k : ℝ} (hk : 0 < k) (b : XR) : XR.eq (.fin k * b) 0 ↔ XR.eq b 0 := by
  have := XR.eq_scale hk b 0
  rwa [show (XR.fin k * 0 : XR) = 0 from congrArg XR.fin (mul_zero k)] at this

/-- The quotient of two scaled numbers. -/
theorem Scal.div_scale {k : ℝ} (hk : 0 < k) (a b : Scal) :
    Scal.div (Scal.py (.fin k) * a) (Scal.py (.fin k) * b) = Scal.div a b := by
  cases a with
  | py x =>
    cases b with
    | py y =>
      show (if XR.eq (.fin k * y) 0 then Except.error PyErr.zeroDivisionError else .ok (Scal.py (.fin k * x / (.fin k * y)))) = _
      simp only [XR.eq_zero_scale hk, XR.ratio_scale hk]
      rfl
    | np y => exact congrArg (fun z => Except.ok (Scal.np z)) (XR.ratio_scale hk x y)
  | np x =>
    cases b with
    | py y => exact congrArg (fun z => Except.ok (Scal.np z)) (XR.ratio_scale hk x y)
    | np y => exact congrArg (fun z => Except.ok (Scal.np z)) (XR.ratio_scale hk x y)

theorem Scal.half_scale {k : ℝ} (hk : 0 < k) (a : Scal) :
    Scal.div (Scal.py (.fin k) * a) (.py 2) = (Scal.div a (.py 2)).map (Scal.py (.fin k) * ·) := by
  have h2 : ¬ XR.eq (2 : XR) 0 := by
    show ¬ (2 : ℝ) = 0
    norm_num
  cases a with
  | py x =>
    show (if XR.eq (2 : XR) 0 then Except.error PyErr.zeroDivisionError else .ok (Scal.py (.fin k * x / 2)))
      = (if XR.eq (2 : XR) 0 then Except.error PyErr.zeroDivisionError else .ok (Scal.py (x / 2))).map _
    rw [if_neg h2, if_neg h2, XR.pos_mul_div hk]
    rfl
  | np x =>
    show Except.ok (Scal.np (.fin k * x / 2)) = .ok (Scal.np (.fin k * (x / 2)))
    rw [XR.pos_mul_div hk]

/-! ## C131 -/

/-- **C131** (focal plane): focal length, pitches and widths of the detectors multiplied by the same positive number leave
every OTF as it is, at all frequencies, and exceptions too. -/
theorem C131_focal_plane {k : ℝ} (hk : 0 < k) (diag : ℕ → ℕ → Bool) (s : Sensor) (sc : Scenario)
    (us vs wl weights : List XR) (slant : Scal) (T : XR) :
    commonOTFs diag (enlarged k s) sc us vs wl weights slant T = commonOTFs diag s sc us vs wl weights slant T := by
  have e1 : commonTurbulence (enlarged k s) sc us vs wl weights slant T
      = commonTurbulence s sc us vs wl weights slant T := rfl
  have e2 : commonFilter diag (enlarged k s) us vs = commonFilter diag s us vs := by
    unfold commonFilter
    have := Scal.div_scale hk (.py s.pX) (.py s.f)
    have e : Scal.div (.py (enlarged k s).pX) (.py (enlarged k s).f) = Scal.div (.py s.pX) (.py s.f) := this
    rw [e]
    rfl
  have e3 : ∀ u v, detectorOTF u v (enlarged k s).wX (enlarged k s).wY (enlarged k s).f
      = detectorOTF u v s.wX s.wY s.f := by
    intro u v
    show (XR.fin k * s.wX * u / (.fin k * s.f)).sinc * (XR.fin k * s.wY * v / (.fin k * s.f)).sinc = _
    rw [XR.pos_mul_assoc hk, XR.pos_mul_assoc hk, XR.ratio_scale hk, XR.ratio_scale hk]
    rfl
  unfold commonOTFs
  simp only [e1, e2, e3]
  rfl

theorem weighted_scale {k : ℝ} (hk : 0 < k) (wl weights : List XR) (g : XR → Except PyErr (List XR)) :
    weightedByWavelength (wl.map (.fin k * ·)) weights g = weightedByWavelength wl weights fun w => g (.fin k * w) := by
  have z : ∀ (wl w : List XR) (l : XR),
      (((wl.map (.fin k * ·)).zip w).filter (fun p => XR.eq p.1 (.fin k * l))).map (·.2)
        = ((wl.zip w).filter (fun p => XR.eq p.1 l)).map (·.2) := by
    intro wl w l
    rw [List.zip_map_left, List.filter_map, List.map_map]
    congr 1
    apply List.filter_congr
    intro p _
    simp only [Function.comp, Prod.map, decide_eq_decide]
    exact XR.eq_scale hk p.1 l
  unfold weightedByWavelength
  cases wl with
  | nil => cases weights <;> rfl
  | cons l0 ls =>
    cases weights with
    | nil => rfl
    | cons w0 ws =>
      simp only [List.map_cons, List.foldlM_map]
      have z' := fun w l => z (l0 :: ls) w l
      simp only [List.map_cons] at z'
      simp only [z', List.length_cons, List.length_map]

theorem XR.div_pos_right {k : ℝ} (hk : 0 < k) (a b : XR) : a / (.fin k * b) = .fin k⁻¹ * (a / b) := by
  have := XR.ratio_scale hk (.fin k⁻¹ * a) b
  rw [XR.scale_cancel hk] at this
  rw [this, XR.pos_mul_div (inv_pos.mpr hk)]

theorem XR.pos_mul_add {k : ℝ} (hk : 0 < k) (a b : XR) : .fin k * (a + b) = .fin k * a + .fin k * b := by
  cases a with
  | fin x =>
    cases b with
    | fin y => exact congrArg XR.fin (mul_add k x y)
    | pinf => show XR.fin k * .pinf = .fin (k * x) + .fin k * .pinf; rw [XR.pos_mul_pinf hk]; rfl
    | ninf => show XR.fin k * .ninf = .fin (k * x) + .fin k * .ninf; rw [XR.pos_mul_ninf hk]; rfl
    | nan => rfl
  | pinf =>
    rw [XR.pos_mul_pinf hk]
    cases b with
    | fin y => show XR.fin k * .pinf = .pinf + .fin (k * y); rw [XR.pos_mul_pinf hk]; rfl
    | pinf => show XR.fin k * .pinf = .pinf + .fin k * .pinf; rw [XR.pos_mul_pinf hk]; rfl
    | ninf => rw [XR.pos_mul_ninf hk]; rfl
    | nan => rfl
  | ninf =>
    rw [XR.pos_mul_ninf hk]
    cases b with
    | fin y => show XR.fin k * .ninf = .ninf + .fin (k * y); rw [XR.pos_mul_ninf hk]; rfl
    | pinf => rw [XR.pos_mul_pinf hk]; rfl
    | ninf => show XR.fin k * .ninf = .ninf + .fin k * .ninf; rw [XR.pos_mul_ninf hk]; rfl
    | nan => rfl
  | nan => rfl

theorem XR.neg_pos_mul {k : ℝ} (hk : 0 < k) (a : XR) : -(.fin k * a) = .fin k * -a := by
  cases a with
  | fin x => exact congrArg XR.fin (neg_mul_eq_mul_neg k x)
  | pinf => rw [XR.pos_mul_pinf hk]; exact (XR.pos_mul_ninf hk).symm
  | ninf => rw [XR.pos_mul_ninf hk]; exact (XR.pos_mul_pinf hk).symm
  | nan => rfl

/-- **C131** (aperture): without turbulence, the aperture, all wavelengths and the correlation lengths of the wavefront
error multiplied by the same positive number leave every OTF as it is. -/
theorem C131_aperture {k : ℝ} (hk : 0 < k) (diag : ℕ → ℕ → Bool) (s : Sensor) (sc : Scenario)
    (us vs wl weights : List XR) (slant : Scal) (T : XR) (h : ¬ XR.lt 0 sc.cn2At1m) :
    commonOTFs diag (widened k s) sc us vs (wl.map (.fin k * ·)) weights slant T
      = commonOTFs diag s sc us vs wl weights slant T := by
  have e1 : commonTurbulence (widened k s) sc us vs (wl.map (.fin k * ·)) weights slant T
      = commonTurbulence s sc us vs wl weights slant T := by
    unfold commonTurbulence
    rw [if_neg h, if_neg h]
  have e2 : commonFilter diag (widened k s) us vs = commonFilter diag s us vs := rfl
  have e3 : ∀ w : XR, circularApertureOTF us vs (.np (.fin k * w)) (.py (widened k s).D) (widened k s).eta
      = circularApertureOTF us vs (.np w) (.py s.D) s.eta := by
    intro w
    unfold circularApertureOTF
    have := Scal.div_scale hk (.py s.D) (.np w)
    have e : Scal.div (.py (widened k s).D) (.np (.fin k * w)) = Scal.div (.py s.D) (.np w) := this
    rw [e]
    rfl
  have e4 : ∀ u v w : XR, wavefrontOTF u v (.fin k * w) ((widened k s).pv * ((widened k s).pvWavelength / (.fin k * w)) ^ 2)
        (widened k s).lX (widened k s).lY
      = wavefrontOTF u v w (s.pv * (s.pvWavelength / w) ^ 2) s.lX s.lY := by
    intro u v w
    have k2 : 0 < k ^ 2 := by positivity
    show wavefrontOTF u v (.fin k * w) (s.pv * (.fin k * s.pvWavelength / (.fin k * w)) ^ 2) (.fin k * s.lX) (.fin k * s.lY) = _
    unfold wavefrontOTF
    rw [XR.ratio_scale hk, XR.div_pos_right hk, XR.div_pos_right hk, XR.pos_mul_sq (inv_pos.mpr hk),
      XR.pos_mul_sq (inv_pos.mpr hk), XR.pos_mul_sq hk, ← XR.pos_mul_add (by positivity), XR.neg_pos_mul k2, inv_pow,
      XR.trade k2]
  unfold commonOTFs
  simp only [e1, e2, weighted_scale hk, e3, e4]
  rfl

/-- **C131** (ground): `apply_otf_to_image` needs the ground sample distance of the reference image and its distance only
up to a common positive factor. -/
theorem C131_ground {k : ℝ} (hk : 0 < k) (usable : Bool) (img : Img) (gsd range : Scal) (M N : ℕ) (otf : ℕ → ℕ → ℂ)
    (df ifov : Scal) :
    applyOtfToImage usable img (Scal.py (.fin k) * gsd) (Scal.py (.fin k) * range) M N otf df ifov
      = applyOtfToImage usable img gsd range M N otf df ifov := by
  unfold applyOtfToImage
  rw [Scal.div_scale hk, Scal.half_scale hk]
  cases usable with
  | false => rfl
  | true =>
    cases hh : Scal.div gsd (.py 2) with
    | error e => rfl
    | ok half =>
      simp only [Except.map, ok_bind]
      rw [Scal.div_scale hk]

/-- **C131** (field of view): neither does the field of view of a detector change with the size of the camera. -/
theorem C131_fov {k : ℝ} (hk : 0 < k) (w f : Scal) :
    instantaneousFOV (Scal.py (.fin k) * w) (Scal.py (.fin k) * f) = instantaneousFOV w f := Scal.div_scale hk w f

theorem enlarged_toSensor (k : ℝ) (s : RealSensor) : (s.enlarged k).toSensor = enlarged k s.toSensor := rfl

theorem lightGain_bounds {k F : ℝ} (hk : 1 ≤ k) (hF : F ≠ 0) :
    1 ≤ lightGain k F ∧ lightGain k F ≤ k ^ 2 ∧ lightGain k F ≤ 1 + 1 / (4 * F ^ 2) := by
  unfold lightGain
  have hF2 : 0 < F ^ 2 := by positivity
  have k2 : 1 ≤ k ^ 2 := by nlinarith
  have hd : 0 < 1 + 4 * (k * F) ^ 2 := by positivity
  refine ⟨?_, ?_, ?_⟩
  · rw [one_le_div hd]; nlinarith
  · rw [div_le_iff₀ hd]
    have : F ^ 2 ≤ (k * F) ^ 2 := by rw [mul_pow]; nlinarith
    nlinarith
  · rw [div_le_iff₀ hd]
    have e : (1 + 1 / (4 * F ^ 2)) * (1 + 4 * (k * F) ^ 2) = k ^ 2 * (1 + 4 * F ^ 2) + (1 + 1 / (4 * F ^ 2)) := by
      field_simp
      ring
    have : 0 < 1 / (4 * F ^ 2) := by positivity
    rw [e]
    linarith

theorem apertureFactor_enlarged {d : ℝ} (hd : d ≠ 0) (k f : ℝ) :
    k ^ 2 * apertureFactor d (k * f) = lightGain k (f / d) * apertureFactor d f := by
  unfold apertureFactor lightGain
  have h1 : (1 : ℝ) + 4 * (k * f / d) ^ 2 ≠ 0 := by positivity
  have h2 : (1 : ℝ) + 4 * (f / d) ^ 2 ≠ 0 := by positivity
  rw [← mul_div_assoc k f d]
  generalize k * f / d = x at *
  generalize f / d = y at *
  field_simp

/-- **C131** (light): what does change is the light. The difference in photoelectrons per second between target and
background is multiplied by a number that depends on the f-number only: at least 1, at most `k ^ 2`, and at most
`1 + 1 / (4 F ^ 2)` however large the camera. -/
theorem C131_light {s : RealSensor} (hs : s.Usable) (hf : s.f ≠ 0) {k : ℝ} (hk : 1 ≤ k) {n : ℕ} {wl : ℕ → ℝ}
    (hl : ∀ i < n, 0 < wl i) (L M : ℕ → ℝ) :
    ∃ (m m' : SNRMetrics) (t b t' b' : ℝ), photonDetectorSNR s.toSensor (vec n wl) (vec n L) (vec n M) = .ok m
      ∧ photonDetectorSNR (enlarged k s.toSensor) (vec n wl) (vec n L) (vec n M) = .ok m'
      ∧ m.tgtNRate = .fin t ∧ m.bkgNRate = .fin b ∧ m'.tgtNRate = .fin t' ∧ m'.bkgNRate = .fin b'
      ∧ t' - b' = lightGain k (s.f / s.D) * (t - b)
      ∧ 1 ≤ lightGain k (s.f / s.D) ∧ lightGain k (s.f / s.D) ≤ k ^ 2
      ∧ lightGain k (s.f / s.D) ≤ 1 + 1 / (4 * (s.f / s.D) ^ 2) := by
  obtain ⟨m, h1, h2, h3, -⟩ := snr_total hs hl L M
  have hs' : (s.enlarged k).Usable := ⟨hs.1, hs.2, hs.3, hs.4, hs.5, hs.6, hs.7, hs.8⟩
  obtain ⟨m', h1', h2', h3', -⟩ := snr_total hs' hl L M
  rw [enlarged_toSensor] at h1'
  refine ⟨m, m', _, _, _, _, h1, h1', h2, h3, h2', h3', ?_, lightGain_bounds hk (div_ne_zero hf hs.aperture)⟩
  have d : ∀ (r : RealSensor), r.rate n wl L - r.rate n wl M = trap n wl fun i =>
      wl i / (planckH * lightC) * tableAt r.qe (wl i) * (r.wX * r.wY) * (r.transAt (wl i) * (apertureFactor r.D r.f * (L i - M i))) := by
    intro r
    unfold RealSensor.rate
    have e : (trap n wl fun i => r.spectral (wl i) (L i)) = (trap n wl fun i => r.spectral (wl i) (M i))
        + trap n wl fun i => wl i / (planckH * lightC) * tableAt r.qe (wl i) * (r.wX * r.wY)
          * (r.transAt (wl i) * (apertureFactor r.D r.f * (L i - M i))) := by
      rw [← trap_add]
      apply trap_congr
      intro i _
      unfold RealSensor.spectral spectralRate
      ring
    rw [e]
    ring
  rw [d, d, ← trap_smul]
  apply trap_congr
  intro i _
  have e := apertureFactor_enlarged hs.aperture k s.f
  show wl i / (planckH * lightC) * tableAt s.qe (wl i) * (k * s.wX * (k * s.wY))
    * (s.transAt (wl i) * (apertureFactor s.D (k * s.f) * (L i - M i))) = _
  calc _ = wl i / (planckH * lightC) * tableAt s.qe (wl i) * (s.wX * s.wY)
      * (s.transAt (wl i) * (k ^ 2 * apertureFactor s.D (k * s.f) * (L i - M i))) := by ring
    _ = _ := by rw [e]; ring

/-- Non-vacuity of `C131_light` and `C131_aperture`: the demonstration camera, and a scenario without turbulence. -/
example : demoSensor.Usable ∧ demoSensor.f ≠ 0
    ∧ ¬ XR.lt 0 { demoScenario with cn2At1m := 0 }.cn2At1m := by
  refine ⟨demo_imaging.usable, demo_imaging.optical.focal, ?_⟩
  show ¬ (0 : ℝ) < 0
  exact lt_irrefl _

end PyBSM
