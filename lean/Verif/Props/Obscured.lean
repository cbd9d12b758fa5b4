import Verif.Props.Wider

/-!
# C136: what a central obscuration does

It takes light away and lowers the contrast of coarse detail; the contrast of the finest detail rises, by exactly as much
as the light falls.
-/

noncomputable section

open Classical MeasureTheory

namespace PyBSM

open Spec

theorem pupil_area_finite (D eta : ℝ) : volume (pupil D eta) ≠ ⊤ := by
  rw [pupil_eq]
  exact ne_top_of_le_ne_top measure_closedBall_lt_top.ne (measure_mono Set.sdiff_subset)

/-- The open part of the aperture, unlike the MTF, is not normalised. -/
theorem autocorrelation_mtf {lam D eta : ℝ} (hD : 0 < D) (he : 0 ≤ eta) (he1 : eta < 1) (u v : ℝ) :
    autocorrelation (pupil D eta) (lam * (u + v * Complex.I))
      = Real.pi * (D / 2) ^ 2 * ((1 - eta ^ 2) * diffractionMTF lam D eta u v) := by
  have h0 := autocorrelation_zero hD he he1
  have hden : 0 < 1 - eta ^ 2 := by nlinarith
  have hpi := Real.pi_pos
  unfold diffractionMTF
  rw [h0]
  field_simp

theorem pupil_smaller {D a b : ℝ} (hD : 0 < D) (h : a ≤ b) : pupil D b ⊆ pupil D a := by
  intro z hz
  exact ⟨lt_of_le_of_lt (mul_le_mul_of_nonneg_right h (by positivity)) hz.1, hz.2⟩

theorem mtf_light {lam D a b : ℝ} (hD : 0 < D) (ha : 0 ≤ a) (h : a ≤ b) (hb : b < 1) (u v : ℝ) :
    (1 - b ^ 2) * diffractionMTF lam D b u v ≤ (1 - a ^ 2) * diffractionMTF lam D a u v := by
  have hpi := Real.pi_pos
  have key : autocorrelation (pupil D b) (lam * (u + v * Complex.I))
      ≤ autocorrelation (pupil D a) (lam * (u + v * Complex.I)) := by
    unfold autocorrelation
    refine measureReal_mono ?_ (ne_top_of_le_ne_top (pupil_area_finite D a) (measure_mono Set.inter_subset_left))
    rintro z ⟨h1, h2⟩
    exact ⟨pupil_smaller hD h h1, pupil_smaller hD h h2⟩
  rw [autocorrelation_mtf hD (ha.trans h) hb, autocorrelation_mtf hD ha (h.trans_lt hb)] at key
  exact le_of_mul_le_mul_left key (by positivity)

/-- Shifted far enough, the pupil and its copy overlap outside both obscurations. -/
theorem mtf_fine {lam D a b : ℝ} (hl : 0 < lam) (hD : 0 < D) (ha : 0 ≤ a) (h : a ≤ b) (hb : b < 1) {u v : ℝ}
    (hf : (1 + b) / 2 * (D / lam) < Real.sqrt (u ^ 2 + v ^ 2)) :
    (1 - b ^ 2) * diffractionMTF lam D b u v = (1 - a ^ 2) * diffractionMTF lam D a u v := by
  have hpi := Real.pi_pos
  have hs : (1 + b) * (D / 2) < ‖(lam : ℂ) * (u + v * Complex.I)‖ := by
    rw [norm_shift hl]
    have := mul_lt_mul_of_pos_left hf hl
    have e : lam * ((1 + b) / 2 * (D / lam)) = (1 + b) * (D / 2) := by field_simp
    rwa [e] at this
  have key : autocorrelation (pupil D b) (lam * (u + v * Complex.I))
      = autocorrelation (pupil D a) (lam * (u + v * Complex.I)) := by
    unfold autocorrelation
    congr 1
    generalize (lam : ℂ) * (u + v * Complex.I) = s at hs ⊢
    apply Set.Subset.antisymm
    · rintro z ⟨h1, h2⟩
      exact ⟨pupil_smaller hD h h1, pupil_smaller hD h h2⟩
    · rintro z ⟨h1, h2⟩
      have h2' : z - s ∈ pupil D a := h2
      have t : ‖s‖ ≤ ‖z‖ + ‖z - s‖ := by
        have := norm_sub_le z (z - s)
        rwa [sub_sub_cancel] at this
      refine ⟨⟨?_, h1.2⟩, (?_ : z - s ∈ pupil D b)⟩
      · have := h2'.2
        nlinarith
      · refine ⟨?_, h2'.2⟩
        have := h1.2
        nlinarith
  rw [autocorrelation_mtf hD (ha.trans h) hb, autocorrelation_mtf hD ha (h.trans_lt hb)] at key
  exact mul_left_cancel₀ (by positivity) key

/-- Shifted little, the pupil loses the whole area of at least one obscuration. -/
theorem mtf_coarse {lam D b : ℝ} (hl : 0 < lam) (hD : 0 < D) (hb0 : 0 ≤ b) (hb : b < 1) {u v : ℝ}
    (hc : Real.sqrt (u ^ 2 + v ^ 2) ≤ (1 - b) / 2 * (D / lam)) :
    diffractionMTF lam D b u v ≤ diffractionMTF lam D 0 u v := by
  have hpi := Real.pi_pos
  have hR : 0 < D / 2 := by positivity
  have hs : ‖(lam : ℂ) * (u + v * Complex.I)‖ ≤ (1 - b) * (D / 2) := by
    rw [norm_shift hl]
    have := mul_le_mul_of_nonneg_left hc hl.le
    have e : lam * ((1 - b) / 2 * (D / lam)) = (1 - b) * (D / 2) := by field_simp
    rwa [e] at this
  have key : autocorrelation (pupil D b) (lam * (u + v * Complex.I)) + Real.pi * (b * (D / 2)) ^ 2
      ≤ autocorrelation (pupil D 0) (lam * (u + v * Complex.I)) := by
    unfold autocorrelation
    generalize (lam : ℂ) * (u + v * Complex.I) = s at hs ⊢
    have hnull : volume.real (Metric.closedBall (0 : ℂ) (b * (D / 2)) \ {0, s}) = Real.pi * (b * (D / 2)) ^ 2 := by
      rw [← volume_closedBall_real (by positivity)]
      unfold Measure.real
      rw [measure_sdiff_null (Set.Finite.measure_zero (Set.toFinite _) _)]
    rw [← hnull, ← measureReal_union (h₁ := ne_top_of_le_ne_top (pupil_area_finite D b) (measure_mono Set.inter_subset_left))
      (h₂ := ne_top_of_le_ne_top measure_closedBall_lt_top.ne (measure_mono Set.sdiff_subset))]
    · refine measureReal_mono ?_ (ne_top_of_le_ne_top (pupil_area_finite D 0) (measure_mono Set.inter_subset_left))
      rintro z (⟨h1, h2⟩ | ⟨h1, h2⟩)
      · exact ⟨pupil_smaller hD hb0 h1, pupil_smaller hD hb0 h2⟩
      · have hz : ‖z‖ ≤ b * (D / 2) := by simpa using h1
        have hz0 : z ≠ 0 := fun h => h2 (by simp [h])
        have hzs : z - s ≠ 0 := fun h => h2 (by simp [sub_eq_zero.mp h])
        refine ⟨⟨by rw [zero_mul]; exact norm_pos_iff.mpr hz0, by nlinarith⟩, (?_ : z - s ∈ pupil D 0)⟩
        refine ⟨by rw [zero_mul]; exact norm_pos_iff.mpr hzs, ?_⟩
        have := norm_sub_le z s
        nlinarith
    · rw [Set.disjoint_left]
      rintro z ⟨h1, -⟩ ⟨h2, -⟩
      have hz : ‖z‖ ≤ b * (D / 2) := by simpa using h2
      exact absurd h1.1 (not_lt.mpr hz)
    · exact Metric.isClosed_closedBall.measurableSet.diff (Set.toFinite _).measurableSet
  have top := (mtf_range (lam := lam) hD le_rfl one_pos u v).2
  rw [autocorrelation_mtf hD hb0 hb, autocorrelation_mtf hD le_rfl one_pos] at key
  have hq : 0 < Real.pi * (D / 2) ^ 2 := by positivity
  have k2 : Real.pi * (D / 2) ^ 2 * ((1 - b ^ 2) * diffractionMTF lam D b u v + b ^ 2)
      ≤ Real.pi * (D / 2) ^ 2 * diffractionMTF lam D 0 u v := by
    nlinarith [key]
  have k3 := le_of_mul_le_mul_left k2 hq
  have hden : 0 < 1 - b ^ 2 := by nlinarith
  have : (1 - b ^ 2) * diffractionMTF lam D b u v ≤ (1 - b ^ 2) * diffractionMTF lam D 0 u v := by
    nlinarith [mul_nonneg (sq_nonneg b) (sub_nonneg.mpr top)]
  exact le_of_mul_le_mul_left this hden

theorem wmean_smul (pairs : List (ℝ × ℝ)) (k : ℝ) (F : ℝ → ℝ) : wmean pairs (fun l => k * F l) = k * wmean pairs F := by
  unfold wmean
  rw [← mul_div_assoc, ← List.sum_map_mul_left]
  congr 2
  apply List.map_congr_left
  intro p _
  ring

/-! ## C136 -/

/-- **C136** (contrast): in every weather, the MTF of the system times the open share of the aperture never rises with the
obscuration, and the OTF keeps its sign. For frequencies above `(1 + eta') / 2` of the diffraction cutoff at every
wavelength the product stays the same, so that the MTF itself rises. Up to `(1 - eta') / 2` of the cutoff the MTF is no
higher than that of the clear aperture. -/
theorem C136_contrast (diag : ℕ → ℕ → Bool) {s : RealSensor} (hs : s.Optical) {eta' : ℝ} (he : s.eta ≤ eta')
    (he1 : eta' < 1) {g : RealScene} (hg : g.Viewing) {sc : Scenario} (hsc : g.Of sc) {sr : Scal}
    (hsr : sr.val = curvedEarthSlantRange (.fin 0) sc.altitude sc.groundRange) {pairs : List (ℝ × ℝ)} (hb : Band pairs)
    (t : ℝ) (m : ℕ) (U V : ℕ → ℝ) (hp : 1 < s.filterKernel.length → s.pX ≠ 0) :
    ∃ (S S' : ℕ → ℝ) (o o' : OTFRow),
      commonOTFs diag s.toSensor sc (vec m U) (vec m V) (pairs.map fun p => .fin p.1)
          (pairs.map fun p => .fin p.2) sr (.fin t) = .ok o
      ∧ commonOTFs diag { s.toSensor with eta := .fin eta' } sc (vec m U) (vec m V) (pairs.map fun p => .fin p.1)
          (pairs.map fun p => .fin p.2) sr (.fin t) = .ok o'
      ∧ o.system = vec m S ∧ o'.system = vec m S'
      ∧ ∀ j, (1 - eta' ^ 2) * |S' j| ≤ (1 - s.eta ^ 2) * |S j| ∧ 0 ≤ S j * S' j
        ∧ ((∀ p ∈ pairs, (1 + eta') / 2 * (s.D / p.1) < Real.sqrt (U j ^ 2 + V j ^ 2)) →
            (1 - eta' ^ 2) * S' j = (1 - s.eta ^ 2) * S j)
        ∧ (s.eta = 0 → (∀ p ∈ pairs, Real.sqrt (U j ^ 2 + V j ^ 2) ≤ (1 - eta') / 2 * (s.D / p.1)) →
            |S' j| ≤ |S j|) := by
  rw [hsc.slant_eq] at hsr
  have he0 := hs.obscuration.trans he
  have hs' : { s with eta := eta' }.Optical := ⟨hs.1, hs.2, he0, he1, hs.5, hs.6⟩
  refine ⟨_, _, _, _, commonOTFs_value diag hs hg hsc.sky hsr hb t m U V hp,
    commonOTFs_value diag (s := { s with eta := eta' }) hs' hg hsc.sky hsr hb t m U V hp, rfl, rfl, ?_⟩
  intro j
  have hd : 0 < 1 - s.eta ^ 2 := by nlinarith [hs.obscuration, hs.open_]
  have hd' : 0 < 1 - eta' ^ 2 := by nlinarith
  have h0 := (apertureAt_range hs hb (U j) (V j)).1
  have h0' := (apertureAt_range hs' hb (U j) (V j)).1
  have light : (1 - eta' ^ 2) * apertureAt { s with eta := eta' } pairs (U j) (V j)
      ≤ (1 - s.eta ^ 2) * apertureAt s pairs (U j) (V j) := by
    unfold apertureAt
    rw [← wmean_smul, ← wmean_smul]
    exact wmean_mono hb.weights hb.total fun p hp => mtf_light hs.aperture hs.obscuration he he1 _ _
  have fine : (∀ p ∈ pairs, (1 + eta') / 2 * (s.D / p.1) < Real.sqrt (U j ^ 2 + V j ^ 2)) →
      (1 - eta' ^ 2) * apertureAt { s with eta := eta' } pairs (U j) (V j)
        = (1 - s.eta ^ 2) * apertureAt s pairs (U j) (V j) := by
    intro hf
    unfold apertureAt
    rw [← wmean_smul, ← wmean_smul]
    have e : ∀ p ∈ pairs, (1 - eta' ^ 2) * diffractionMTF p.1 s.D eta' (U j) (V j)
        = (1 - s.eta ^ 2) * diffractionMTF p.1 s.D s.eta (U j) (V j) := fun p hp =>
      mtf_fine (hb.positive p hp) hs.aperture hs.obscuration he he1 (hf p hp)
    exact le_antisymm (wmean_mono hb.weights hb.total fun p hp => (e p hp).le)
      (wmean_mono hb.weights hb.total fun p hp => (e p hp).ge)
  have coarse : s.eta = 0 → (∀ p ∈ pairs, Real.sqrt (U j ^ 2 + V j ^ 2) ≤ (1 - eta') / 2 * (s.D / p.1)) →
      apertureAt { s with eta := eta' } pairs (U j) (V j) ≤ apertureAt s pairs (U j) (V j) := by
    intro hz hc
    unfold apertureAt
    rw [hz]
    exact wmean_mono hb.weights hb.total fun p hp => mtf_coarse (hb.positive p hp) hs.aperture he0 he1 (hc p hp)
  obtain ⟨a, ha⟩ : ∃ a, a = apertureAt s pairs (U j) (V j) := ⟨_, rfl⟩
  obtain ⟨a', ha'⟩ : ∃ a', a' = apertureAt { s with eta := eta' } pairs (U j) (V j) := ⟨_, rfl⟩
  rw [← ha, ← ha'] at light fine coarse
  rw [← ha] at h0
  rw [← ha'] at h0'
  obtain ⟨R, hR⟩ : ∃ R, R = turbulenceAt s g pairs t (U j) (V j) * detectorAt s (U j) (V j) * jitterAt s (U j) (V j)
    * driftAt s t (U j) (V j) * wavefrontAt s pairs (U j) (V j) * filterAt diag s (U j) (V j) := ⟨_, rfl⟩
  have e1 : opticsAt s g pairs t (U j) (V j) * filterAt diag s (U j) (V j) = a * R := by
    unfold opticsAt
    rw [ha, hR]
    ring
  have e2 : opticsAt { s with eta := eta' } g pairs t (U j) (V j) * filterAt diag { s with eta := eta' } (U j) (V j)
      = a' * R := by
    unfold opticsAt
    rw [ha', hR]
    change apertureAt { s with eta := eta' } pairs (U j) (V j) * turbulenceAt s g pairs t (U j) (V j)
      * detectorAt s (U j) (V j) * jitterAt s (U j) (V j)
      * driftAt s t (U j) (V j) * wavefrontAt s pairs (U j) (V j) * filterAt diag s (U j) (V j) = _
    ring
  rw [e1, e2]
  refine ⟨?_, ?_, fun h => ?_, fun h1 h2 => ?_⟩
  · rw [abs_mul, abs_mul, abs_of_nonneg h0, abs_of_nonneg h0', ← mul_assoc, ← mul_assoc]
    exact mul_le_mul_of_nonneg_right light (abs_nonneg _)
  · have : a * R * (a' * R) = a * a' * R ^ 2 := by ring
    rw [this]
    positivity
  · rw [← mul_assoc, ← mul_assoc, fine h]
  · rw [abs_mul, abs_mul, abs_of_nonneg h0, abs_of_nonneg h0']
    exact mul_le_mul_of_nonneg_right (coarse h1 h2) (abs_nonneg _)

/-- **C136** (light): the difference in photoelectrons per second between target and background falls in proportion to the
open share of the aperture, whatever the spectra. -/
theorem C136_light {s : RealSensor} (hs : s.Usable) (eta' : ℝ) {n : ℕ} {wl : ℕ → ℝ} (hl : ∀ i < n, 0 < wl i) (L M : ℕ → ℝ) :
    ∃ (m m' : SNRMetrics) (t b t' b' : ℝ), photonDetectorSNR s.toSensor (vec n wl) (vec n L) (vec n M) = .ok m
      ∧ photonDetectorSNR { s.toSensor with eta := .fin eta' } (vec n wl) (vec n L) (vec n M) = .ok m'
      ∧ m.tgtNRate = .fin t ∧ m.bkgNRate = .fin b ∧ m'.tgtNRate = .fin t' ∧ m'.bkgNRate = .fin b'
      ∧ (1 - s.eta ^ 2) * (t' - b') = (1 - eta' ^ 2) * (t - b) := by
  have hs' : { s with eta := eta' }.Usable := ⟨hs.1, hs.2, hs.3, hs.4, hs.5, hs.6, hs.7, hs.8⟩
  obtain ⟨m, h1, h2, h3, -⟩ := snr_total hs hl L M
  obtain ⟨m', h1', h2', h3', -⟩ := snr_total hs' hl L M
  refine ⟨m, m', _, _, _, _, h1, h1', h2, h3, h2', h3', ?_⟩
  have d : ∀ (r : RealSensor), r.rate n wl L - r.rate n wl M = trap n wl fun i =>
      wl i / (planckH * lightC) * tableAt r.qe (wl i) * (r.wX * r.wY) * (r.transAt (wl i) * (apertureFactor r.D r.f * (L i - M i))) := by
    intro r
    unfold RealSensor.rate
    have e : (trap n wl fun i => r.spectral (wl i) (L i)) = (trap n wl fun i => r.spectral (wl i) (M i))
        + trap n wl fun i => wl i / (planckH * lightC) * tableAt r.qe (wl i) * (r.wX * r.wY)
          * (r.transAt (wl i) * (apertureFactor r.D r.f * (L i - M i))) := by
      rw [← trap_add]
      apply trap_congr
      intro i _
      unfold RealSensor.spectral spectralRate
      ring
    rw [e]
    ring
  rw [d, d, ← trap_smul, ← trap_smul]
  apply trap_congr
  intro i _
  show (1 - s.eta ^ 2) * (wl i / (planckH * lightC) * tableAt s.qe (wl i) * (s.wX * s.wY)
    * (s.coldFilterTransmission * (1 - eta' ^ 2) * tableAt s.transmission (wl i) * (apertureFactor s.D s.f * (L i - M i)))) = _
  unfold RealSensor.transAt
  ring

/-- **C136** (detail): the amplitude of a pattern of any frequency, in photoelectrons per second (the difference between
its bright and dark parts times the MTF), never rises with the obscuration, and does not change at all above
`(1 + eta') / 2` of the cutoff. -/
theorem C136_detail (diag : ℕ → ℕ → Bool) {s : RealSensor} (hs : s.Optical) (hu : s.Usable) {eta' : ℝ} (he : s.eta ≤ eta')
    (he1 : eta' < 1) {g : RealScene} (hg : g.Viewing) {sc : Scenario} (hsc : g.Of sc) {sr : Scal}
    (hsr : sr.val = curvedEarthSlantRange (.fin 0) sc.altitude sc.groundRange) {pairs : List (ℝ × ℝ)} (hb : Band pairs)
    (t : ℝ) (k : ℕ) (U V : ℕ → ℝ) (hp : 1 < s.filterKernel.length → s.pX ≠ 0) {n : ℕ} {wl : ℕ → ℝ}
    (hl : ∀ i < n, 0 < wl i) (L M : ℕ → ℝ) :
    ∃ (S S' : ℕ → ℝ) (o o' : OTFRow) (m m' : SNRMetrics) (b d b' d' : ℝ),
      commonOTFs diag s.toSensor sc (vec k U) (vec k V) (pairs.map fun p => .fin p.1)
          (pairs.map fun p => .fin p.2) sr (.fin t) = .ok o
      ∧ commonOTFs diag { s.toSensor with eta := .fin eta' } sc (vec k U) (vec k V) (pairs.map fun p => .fin p.1)
          (pairs.map fun p => .fin p.2) sr (.fin t) = .ok o'
      ∧ o.system = vec k S ∧ o'.system = vec k S'
      ∧ photonDetectorSNR s.toSensor (vec n wl) (vec n L) (vec n M) = .ok m
      ∧ photonDetectorSNR { s.toSensor with eta := .fin eta' } (vec n wl) (vec n L) (vec n M) = .ok m'
      ∧ m.tgtNRate = .fin b ∧ m.bkgNRate = .fin d ∧ m'.tgtNRate = .fin b' ∧ m'.bkgNRate = .fin d'
      ∧ ∀ j, |(b' - d') * S' j| ≤ |(b - d) * S j|
        ∧ ((∀ p ∈ pairs, (1 + eta') / 2 * (s.D / p.1) < Real.sqrt (U j ^ 2 + V j ^ 2)) →
            (b' - d') * S' j = (b - d) * S j) := by
  obtain ⟨S, S', o, o', h1, h2, h3, h4, h5⟩ := C136_contrast diag hs he he1 hg hsc hsr hb t k U V hp
  obtain ⟨m, m', b, d, b', d', k1, k2, k3, k4, k5, k6, k7⟩ := C136_light hu eta' hl L M
  have hd : 0 < 1 - s.eta ^ 2 := by nlinarith [hs.obscuration, hs.open_]
  refine ⟨S, S', o, o', m, m', b, d, b', d', h1, h2, h3, h4, k1, k2, k3, k4, k5, k6, fun j => ⟨?_, fun h => ?_⟩⟩
  · obtain ⟨a1, -⟩ := h5 j
    have e : (1 - s.eta ^ 2) * |(b' - d') * S' j| = |b - d| * ((1 - eta' ^ 2) * |S' j|) := by
      have hd' : 0 < 1 - eta' ^ 2 := by nlinarith [hs.obscuration]
      rw [abs_mul, ← mul_assoc, ← abs_of_pos hd, ← abs_mul, k7, abs_mul, abs_of_pos hd']
      ring
    have := mul_le_mul_of_nonneg_left a1 (abs_nonneg (b - d))
    rw [← e] at this
    have e' : |b - d| * ((1 - s.eta ^ 2) * |S j|) = (1 - s.eta ^ 2) * |(b - d) * S j| := by
      rw [abs_mul]; ring
    rw [e'] at this
    exact le_of_mul_le_mul_left this hd
  · obtain ⟨-, -, a2, -⟩ := h5 j
    have := a2 h
    apply mul_left_cancel₀ hd.ne'
    calc (1 - s.eta ^ 2) * ((b' - d') * S' j) = ((1 - s.eta ^ 2) * (b' - d')) * S' j := by ring
      _ = (b - d) * ((1 - eta' ^ 2) * S' j) := by rw [k7]; ring
      _ = (1 - s.eta ^ 2) * ((b - d) * S j) := by rw [this]; ring

/-- Non-vacuity of C136: the demonstration camera with a clear aperture, obscured to half its diameter. -/
example : { demoSensor with eta := 0 }.Optical ∧ demoSensor.Usable ∧ ({ demoSensor with eta := 0 } : RealSensor).eta ≤ 0.5
    ∧ (1 + 0.5) / 2 * ((0.1 : ℝ) / 0.0000005) < Real.sqrt ((96000 : ℝ) ^ 2 + 128000 ^ 2)
    ∧ Real.sqrt ((30000 : ℝ) ^ 2 + 40000 ^ 2) ≤ (1 - 0.5) / 2 * (0.1 / 0.0000005) := by
  have h := demo_imaging.optical
  have e1 : ((30000 : ℝ) ^ 2 + 40000 ^ 2) = 50000 ^ 2 := by norm_num
  have e2 : ((96000 : ℝ) ^ 2 + 128000 ^ 2) = 160000 ^ 2 := by norm_num
  refine ⟨⟨h.1, h.2, le_rfl, one_pos, h.5, h.6⟩, demo_imaging.usable, by norm_num, ?_, ?_⟩
  · rw [e2, Real.sqrt_sq (by norm_num)]
    norm_num
  · rw [e1, Real.sqrt_sq (by norm_num)]
    norm_num

end PyBSM
