import Verif.Props.Angles
import Verif.Props.SystemValue
import Verif.Lemmas.Compare

/-!
# C132: what a wider aperture does

Without turbulence a wider clear aperture never lowers an MTF. With turbulence it does, in short exposures. The light it
collects grows at most like its area.
-/

noncomputable section

open Classical

namespace PyBSM

open Spec

theorem diffraction_clear {lam D : ℝ} (hl : 0 < lam) (hD : 0 < D) (u v : ℝ) :
    diffractionMTF lam D 0 u v = 2 / Real.pi * segArea 1 (Real.sqrt (u ^ 2 + v ^ 2) / (D / lam)) := by
  have h1 := aperture_diffraction hl hD le_rfl one_pos u v
  have h2 := aperture_noObscuration (r0 := D / lam) (by positivity) u v
  rw [XR.zero_def] at h2
  exact XR.fin.inj (h1.symm.trans h2)

theorem segArea_anti {x y : ℝ} (h0 : 0 ≤ x) (h : x ≤ y) : segArea 1 y ≤ segArea 1 x := by
  rcases le_total 1 y with hy | hy
  · rw [segArea_of_le one_pos hy]
    rcases le_total 1 x with hx | hx
    · rw [segArea_of_le one_pos hx]
    · rw [← segArea_of_le one_pos (le_refl (1 : ℝ))]
      exact segArea_strictAnti.antitoneOn ⟨h0, hx⟩ ⟨zero_le_one, le_rfl⟩ hx
  · exact segArea_strictAnti.antitoneOn ⟨h0, h.trans hy⟩ ⟨h0.trans h, hy⟩ h

theorem diffraction_wider {lam D D' : ℝ} (hl : 0 < lam) (hD : 0 < D) (h : D ≤ D') (u v : ℝ) :
    diffractionMTF lam D 0 u v ≤ diffractionMTF lam D' 0 u v := by
  have hD' := hD.trans_le h
  rw [diffraction_clear hl hD, diffraction_clear hl hD']
  have := Real.pi_pos
  apply mul_le_mul_of_nonneg_left _ (by positivity)
  apply segArea_anti (by positivity)
  apply div_le_div_of_nonneg_left (by positivity) (by positivity)
  exact div_le_div_of_nonneg_right h hl.le

theorem turbMix_wider {lam D D' r t w : ℝ} (hl : 0 < lam) (hD : 0 < D) (h : D ≤ D') (hr : 0 < r) (u v : ℝ) :
    turbMix lam D' r t w u v ≤ turbMix lam D r t w u v := by
  have hD' := hD.trans_le h
  unfold turbMix
  dsimp only
  apply add_le_add_left
  apply mul_le_mul_of_nonneg_left _ (Real.exp_pos _).le
  rw [Real.exp_le_exp, neg_le_neg_iff]
  have hx : 0 ≤ (lam * Real.sqrt (u ^ 2 + v ^ 2) / r) ^ ((5 : ℝ) / 3) := by positivity
  have hy : (lam * Real.sqrt (u ^ 2 + v ^ 2) / D') ^ ((1 : ℝ) / 3) ≤ (lam * Real.sqrt (u ^ 2 + v ^ 2) / D) ^ ((1 : ℝ) / 3) := by
    apply Real.rpow_le_rpow (by positivity) _ (by norm_num)
    exact div_le_div_of_nonneg_left (by positivity) hD h
  apply mul_le_mul_of_nonneg_left _ (by positivity)
  linarith

/-! ## C132 -/

/-- **C132** (sharper): without turbulence and obscuration, a wider aperture gives an MTF that is at least as large at
every frequency, and an OTF of the same sign. -/
theorem C132_sharper (diag : ℕ → ℕ → Bool) {s : RealSensor} (hs : s.Optical) (he : s.eta = 0) {D' : ℝ} (hD : s.D ≤ D')
    {g : RealScene} (hg : g.Viewing) (hc : g.cn2 ≤ 0) {sc : Scenario} (hsc : g.Of sc) {sr : Scal}
    (hsr : sr.val = curvedEarthSlantRange (.fin 0) sc.altitude sc.groundRange) {pairs : List (ℝ × ℝ)} (hb : Band pairs)
    (t : ℝ) (m : ℕ) (U V : ℕ → ℝ) (hp : 1 < s.filterKernel.length → s.pX ≠ 0) :
    ∃ (S S' : ℕ → ℝ) (o o' : OTFRow),
      commonOTFs diag s.toSensor sc (vec m U) (vec m V) (pairs.map fun p => .fin p.1)
          (pairs.map fun p => .fin p.2) sr (.fin t) = .ok o
      ∧ commonOTFs diag { s.toSensor with D := .fin D' } sc (vec m U) (vec m V) (pairs.map fun p => .fin p.1)
          (pairs.map fun p => .fin p.2) sr (.fin t) = .ok o'
      ∧ o.system = vec m S ∧ o'.system = vec m S' ∧ ∀ j, |S j| ≤ |S' j| ∧ 0 ≤ S j * S' j := by
  rw [hsc.slant_eq] at hsr
  have hs' : { s with D := D' }.Optical := ⟨hs.1.trans_le hD, hs.2, hs.3, hs.4, hs.5, hs.6⟩
  refine ⟨_, _, _, _, commonOTFs_value diag hs hg hsc.sky hsr hb t m U V hp,
    commonOTFs_value diag (s := { s with D := D' }) hs' hg hsc.sky hsr hb t m U V hp, rfl, rfl, ?_⟩
  intro j
  have hA : apertureAt s pairs (U j) (V j) ≤ apertureAt { s with D := D' } pairs (U j) (V j) := by
    unfold apertureAt
    apply wmean_mono hb.weights hb.total
    intro p hp
    dsimp only
    rw [he]
    exact diffraction_wider (hb.positive p hp) hs.aperture hD _ _
  have h0 : 0 ≤ apertureAt s pairs (U j) (V j) := by
    have := wmean_mono hb.weights hb.total (F := fun _ => 0) (G := fun l => diffractionMTF l s.D s.eta (U j) (V j))
      (fun p hp => (mtf_range (lam := p.1) hs.aperture hs.obscuration hs.open_ _ _).1)
    rwa [wmean_const hb.total.ne' (c := 0) (fun _ _ => rfl)] at this
  have e : ∀ r : RealSensor, turbulenceAt r g pairs t (U j) (V j) = 1 := by
    intro r
    unfold turbulenceAt
    rw [if_neg (not_lt.mpr hc)]
  obtain ⟨a, ha⟩ : ∃ a, a = apertureAt s pairs (U j) (V j) := ⟨_, rfl⟩
  obtain ⟨a', ha'⟩ : ∃ a', a' = apertureAt { s with D := D' } pairs (U j) (V j) := ⟨_, rfl⟩
  rw [← ha] at hA h0
  rw [← ha'] at hA
  obtain ⟨R, hR⟩ : ∃ R, R = detectorAt s (U j) (V j) * jitterAt s (U j) (V j) * driftAt s t (U j) (V j)
    * wavefrontAt s pairs (U j) (V j) * filterAt diag s (U j) (V j) := ⟨_, rfl⟩
  have e1 : opticsAt s g pairs t (U j) (V j) * filterAt diag s (U j) (V j) = a * R := by
    unfold opticsAt
    rw [e, ha, hR]
    ring
  have e2 : opticsAt { s with D := D' } g pairs t (U j) (V j) * filterAt diag { s with D := D' } (U j) (V j) = a' * R := by
    unfold opticsAt
    rw [e, ha', hR]
    change apertureAt { s with D := D' } pairs (U j) (V j) * 1 * detectorAt s (U j) (V j) * jitterAt s (U j) (V j)
      * driftAt s t (U j) (V j) * wavefrontAt s pairs (U j) (V j) * filterAt diag s (U j) (V j) = _
    ring
  rw [e1, e2]
  constructor
  · rw [abs_mul, abs_mul]
    apply mul_le_mul_of_nonneg_right _ (abs_nonneg _)
    rw [abs_of_nonneg h0, abs_of_nonneg (h0.trans hA)]
    exact hA
  · have : a * R * (a' * R) = a * a' * R ^ 2 := by ring
    rw [this]
    have := h0.trans hA
    positivity

/-- **C132** (turbulence): the turbulence OTF never gains by a wider aperture. -/
theorem C132_turbulence (diag : ℕ → ℕ → Bool) {s : RealSensor} (hs : s.Optical) {D' : ℝ} (hD : s.D ≤ D')
    {g : RealScene} (hg : g.Viewing) {sc : Scenario} (hsc : g.Of sc) {sr : Scal}
    (hsr : sr.val = curvedEarthSlantRange (.fin 0) sc.altitude sc.groundRange) {pairs : List (ℝ × ℝ)} (hb : Band pairs)
    (t : ℝ) (m : ℕ) (U V : ℕ → ℝ) (hp : 1 < s.filterKernel.length → s.pX ≠ 0) :
    ∃ (A A' : ℕ → ℝ) (o o' : OTFRow),
      commonOTFs diag s.toSensor sc (vec m U) (vec m V) (pairs.map fun p => .fin p.1)
          (pairs.map fun p => .fin p.2) sr (.fin t) = .ok o
      ∧ commonOTFs diag { s.toSensor with D := .fin D' } sc (vec m U) (vec m V) (pairs.map fun p => .fin p.1)
          (pairs.map fun p => .fin p.2) sr (.fin t) = .ok o'
      ∧ o.turb = vec m A ∧ o'.turb = vec m A' ∧ ∀ j, A' j ≤ A j := by
  rw [hsc.slant_eq] at hsr
  have hs' : { s with D := D' }.Optical := ⟨hs.1.trans_le hD, hs.2, hs.3, hs.4, hs.5, hs.6⟩
  refine ⟨_, _, _, _, commonOTFs_value diag hs hg hsc.sky hsr hb t m U V hp,
    commonOTFs_value diag (s := { s with D := D' }) hs' hg hsc.sky hsr hb t m U V hp, rfl, rfl, ?_⟩
  intro j
  unfold turbulenceAt
  by_cases hc : 0 < g.cn2
  · rw [if_pos hc, if_pos hc]
    apply wmean_mono hb.weights hb.total
    intro p hp
    exact turbMix_wider (hb.positive p hp) hs.aperture hD (fried_pos_of hg hc.le (hb.positive p hp)) _ _
  · rw [if_neg hc, if_neg hc]

/-- **C132** (seeing): the loss can exceed the gain. Let one aperture be wider than another, and take any frequency the
narrower one resolves. If the turbulence is strong enough, the wider one shows less contrast in a short exposure. -/
theorem C132_seeing {lam D D' a u v : ℝ} (hl : 0 < lam) (hD : 0 < D) (h : D < D') (ha : 0 < a)
    (h0 : 0 < u ^ 2 + v ^ 2) (h1 : Real.sqrt (u ^ 2 + v ^ 2) < D / lam) :
    ∃ r, 0 < r ∧ ∀ r0, 0 < r0 → r0 < r → ∃ A A' T T' : ℝ,
      circularApertureOTF [.fin u] [.fin v] (.py (.fin lam)) (.py (.fin D)) 0 = .ok [.fin A]
      ∧ circularApertureOTF [.fin u] [.fin v] (.py (.fin lam)) (.py (.fin D')) 0 = .ok [.fin A']
      ∧ turbulenceOTF (.fin u) (.fin v) (.fin lam) (.fin D) (.fin r0) (.fin a) = .fin T
      ∧ turbulenceOTF (.fin u) (.fin v) (.fin lam) (.fin D') (.fin r0) (.fin a) = .fin T'
      ∧ A < A' ∧ A' * T' < A * T := by
  have hD' := hD.trans h
  have hq := Real.sqrt_pos.mpr h0
  have key : ∀ {d : ℝ}, 0 < d → circularApertureOTF [.fin u] [.fin v] (.py (.fin lam)) (.py (.fin d)) 0
      = .ok [.fin (2 / Real.pi * segArea 1 (Real.sqrt (u ^ 2 + v ^ 2) / (d / lam)))] := by
    intro d hd
    have := C28_diffraction_mtf hl hd (lambda0 := .py (.fin lam)) (dia := .py (.fin d)) rfl rfl 1 (fun _ => u) (fun _ => v)
    rw [diffraction_clear hl hd] at this
    exact this
  obtain ⟨q, eq⟩ : ∃ q, q = Real.sqrt (u ^ 2 + v ^ 2) := ⟨_, rfl⟩
  rw [← eq] at hq h1
  have hpi := Real.pi_pos
  have hlt : q / (D' / lam) < q / (D / lam) :=
    div_lt_div_of_pos_left hq (by positivity) (div_lt_div_of_pos_right h hl)
  have hone : q / (D / lam) < 1 := (div_lt_one (by positivity)).mpr h1
  have s1 : segArea 1 (q / (D / lam)) < segArea 1 (q / (D' / lam)) :=
    segArea_strictAnti ⟨by positivity, by linarith⟩ ⟨by positivity, hone.le⟩ hlt
  have s2 : 0 < segArea 1 (q / (D / lam)) := by
    rw [← segArea_of_le one_pos (le_refl (1 : ℝ))]
    exact segArea_strictAnti ⟨by positivity, hone.le⟩ ⟨zero_le_one, le_rfl⟩ hone
  have s3 : segArea 1 (q / (D' / lam)) ≤ Real.pi / 2 := by
    have := segArea_anti le_rfl (show (0 : ℝ) ≤ q / (D' / lam) by positivity)
    rwa [segArea_zero, one_pow, one_mul] at this
  obtain ⟨A, eA⟩ : ∃ A, A = 2 / Real.pi * segArea 1 (q / (D / lam)) := ⟨_, rfl⟩
  obtain ⟨A', eA'⟩ : ∃ A', A' = 2 / Real.pi * segArea 1 (q / (D' / lam)) := ⟨_, rfl⟩
  have hA : 0 < A := by rw [eA]; positivity
  have hAA : A < A' := by
    rw [eA, eA']
    exact mul_lt_mul_of_pos_left s1 (by positivity)
  have hA1 : A' ≤ 1 := by
    rw [eA']
    calc _ ≤ 2 / Real.pi * (Real.pi / 2) := mul_le_mul_of_nonneg_left s3 (by positivity)
      _ = 1 := by field_simp
  obtain ⟨y, ey⟩ : ∃ y, y = (lam * q / D) ^ ((1 : ℝ) / 3) := ⟨_, rfl⟩
  obtain ⟨y', ey'⟩ : ∃ y', y' = (lam * q / D') ^ ((1 : ℝ) / 3) := ⟨_, rfl⟩
  have hyy : y' < y := by
    rw [ey, ey']
    exact Real.rpow_lt_rpow (by positivity) (div_lt_div_of_pos_left (by positivity) hD h) (by norm_num)
  obtain ⟨c, ec⟩ : ∃ c, c = 3.44 * a * (y - y') := ⟨_, rfl⟩
  have hc : 0 < c := by
    rw [ec]
    have := sub_pos.mpr hyy
    positivity
  refine ⟨min (lam * q) (c * A * (lam * q)), lt_min (by positivity) (by positivity), ?_⟩
  intro r0 hr hrr
  refine ⟨A, A', _, _, ?_, ?_, turbulence_fin u v lam a hD hr hl.le, turbulence_fin u v lam a hD' hr hl.le, hAA, ?_⟩
  · rw [key hD, ← eq, eA]
  · rw [key hD', ← eq, eA']
  rw [← eq, ← ey, ← ey']
  obtain ⟨x, ex⟩ : ∃ x, x = (lam * q / r0) ^ ((5 : ℝ) / 3) := ⟨_, rfl⟩
  rw [← ex]
  have hz1 : 1 ≤ lam * q / r0 := ((one_lt_div hr).mpr (hrr.trans_le (min_le_left _ _))).le
  have hx : lam * q / r0 ≤ x := by
    rw [ex]
    exact Real.self_le_rpow_of_one_le hz1 (by norm_num)
  have hz2 : 1 < c * A * (lam * q / r0) := by
    have := (one_lt_div hr).mpr (hrr.trans_le (min_le_right _ _))
    rwa [mul_div_assoc] at this
  have hcx : 1 < A * (c * x) := by
    calc 1 < c * A * (lam * q / r0) := hz2
      _ ≤ c * A * x := mul_le_mul_of_nonneg_left hx (by positivity)
      _ = _ := by ring
  have hE : A' * Real.exp (-(c * x)) < A := by
    have h1 : c * x + 1 ≤ Real.exp (c * x) := Real.add_one_le_exp _
    have h2 := Real.exp_pos (c * x)
    rw [Real.exp_neg, ← div_eq_mul_inv, div_lt_iff₀ h2]
    nlinarith
  have e : Real.exp (-(3.44 * x * (1 - a * y'))) = Real.exp (-(c * x)) * Real.exp (-(3.44 * x * (1 - a * y))) := by
    rw [← Real.exp_add]
    congr 1
    rw [ec]
    ring
  rw [e, ← mul_assoc]
  exact mul_lt_mul_of_pos_right hE (Real.exp_pos _)

/-- **C132** (light): the difference in photoelectrons per second between target and background grows, at most like the
area of the aperture. -/
theorem C132_light {s : RealSensor} (hs : s.Usable) (h0 : 0 < s.D) {D' : ℝ} (hD : s.D ≤ D') {n : ℕ} {wl : ℕ → ℝ}
    (hl : ∀ i < n, 0 < wl i) (L M : ℕ → ℝ) :
    ∃ (m m' : SNRMetrics) (t b t' b' k : ℝ), photonDetectorSNR s.toSensor (vec n wl) (vec n L) (vec n M) = .ok m
      ∧ photonDetectorSNR { s.toSensor with D := .fin D' } (vec n wl) (vec n L) (vec n M) = .ok m'
      ∧ m.tgtNRate = .fin t ∧ m.bkgNRate = .fin b ∧ m'.tgtNRate = .fin t' ∧ m'.bkgNRate = .fin b'
      ∧ t' - b' = k * (t - b) ∧ 1 ≤ k ∧ k ≤ (D' / s.D) ^ 2 := by
  have h0' := h0.trans_le hD
  have hs' : { s with D := D' }.Usable := ⟨h0'.ne', hs.2, hs.3, hs.4, hs.5, hs.6, hs.7, hs.8⟩
  obtain ⟨m, h1, h2, h3, -⟩ := snr_total hs hl L M
  obtain ⟨m', h1', h2', h3', -⟩ := snr_total hs' hl L M
  have g : ∀ {d : ℝ}, 0 < d → apertureFactor d s.f = Real.pi * d ^ 2 / (d ^ 2 + 4 * s.f ^ 2) := by
    intro d hd
    unfold apertureFactor
    field_simp
  have hpi := Real.pi_pos
  have p : 0 < apertureFactor s.D s.f := by rw [g h0]; positivity
  have hsq : s.D ^ 2 ≤ D' ^ 2 := pow_le_pow_left₀ h0.le hD 2
  refine ⟨m, m', _, _, _, _, apertureFactor D' s.f / apertureFactor s.D s.f, h1, h1', h2, h3, h2', h3', ?_, ?_, ?_⟩
  · have d : ∀ (r : RealSensor), r.rate n wl L - r.rate n wl M = trap n wl fun i =>
        wl i / (planckH * lightC) * tableAt r.qe (wl i) * (r.wX * r.wY) * (r.transAt (wl i) * (apertureFactor r.D r.f * (L i - M i))) := by
      intro r
      unfold RealSensor.rate
      have e : (trap n wl fun i => r.spectral (wl i) (L i)) = (trap n wl fun i => r.spectral (wl i) (M i))
          + trap n wl fun i => wl i / (planckH * lightC) * tableAt r.qe (wl i) * (r.wX * r.wY)
            * (r.transAt (wl i) * (apertureFactor r.D r.f * (L i - M i))) := by
        rw [← trap_add]
        apply trap_congr
        intro i _
        unfold RealSensor.spectral spectralRate
        ring
      rw [e]
      ring
    rw [d, d, ← trap_smul]
    apply trap_congr
    intro i _
    show wl i / (planckH * lightC) * tableAt s.qe (wl i) * (s.wX * s.wY)
      * (s.transAt (wl i) * (apertureFactor D' s.f * (L i - M i))) = _
    have := p.ne'
    field_simp
  · rw [one_le_div p, g h0, g h0', div_le_div_iff₀ (by positivity) (by positivity)]
    nlinarith [mul_nonneg hpi.le (mul_nonneg (sub_nonneg.mpr hsq) (sq_nonneg s.f))]
  · rw [div_le_iff₀ p, g h0, g h0', div_pow]
    have : D' ^ 2 / s.D ^ 2 * (Real.pi * s.D ^ 2 / (s.D ^ 2 + 4 * s.f ^ 2)) = Real.pi * D' ^ 2 / (s.D ^ 2 + 4 * s.f ^ 2) := by
      field_simp
    rw [this]
    apply div_le_div_of_nonneg_left (by positivity) (by positivity)
    linarith

/-- Non-vacuity of C132: the demonstration camera with a clear aperture; the scene of the demonstration without
turbulence; and a frequency that an aperture of 0.1 m resolves at half a micron. -/
example : { demoSensor with eta := 0 }.Optical ∧ { demoSensor with eta := 0 }.eta = 0 ∧ demoSensor.Usable
    ∧ 0 < demoSensor.D ∧ Real.sqrt ((30000 : ℝ) ^ 2 + 40000 ^ 2) < 0.1 / 0.0000005 := by
  have h := demo_imaging.optical
  refine ⟨⟨h.1, h.2, le_rfl, one_pos, h.5, h.6⟩, rfl, demo_imaging.usable, h.aperture, ?_⟩
  have : ((30000 : ℝ) ^ 2 + 40000 ^ 2) = 50000 ^ 2 := by norm_num
  rw [this, Real.sqrt_sq (by norm_num)]
  norm_num

end PyBSM
