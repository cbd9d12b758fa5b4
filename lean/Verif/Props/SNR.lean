import Verif.Lemmas.Sensor

/-!
# C18 - C20: `photon_detector_SNR`
-/

noncomputable section

open Classical

namespace PyBSM

open Spec

theorem max_comm_XR (a b : XR) : XR.max a b = XR.max b a := by
  cases a with
  | fin x =>
    cases b with
    | fin y => rw [XR.fin_max, XR.fin_max, max_comm]
    | _ => simp [XR.max, XR.isNan, XR.lt]
  | _ => cases b <;> simp [XR.max, XR.isNan, XR.lt]

theorem neg_sub_XR (a b : XR) : a - b = -(b - a) := by
  cases a <;> cases b <;> first | rfl | skip
  rw [XR.fin_sub, XR.fin_sub, XR.fin_neg, neg_sub]

theorem neg_div_XR (a b : XR) : -a / b = -(a / b) := by
  cases a with
  | nan => simp [XR.neg_nan, XR.nan_div]
  | fin x =>
    cases b with
    | nan => simp [XR.div_nan, XR.neg_nan, XR.fin_neg]
    | pinf => show XR.fin 0 = XR.fin (-0); simp
    | ninf => show XR.fin 0 = XR.fin (-0); simp
    | fin y =>
      by_cases h : y = 0
      · subst h
        rw [XR.fin_neg, XR.fin_div_zero, XR.fin_div_zero]
        unfold XR.mulInf
        rcases lt_trichotomy x 0 with h | h | h
        · rw [if_pos (by linarith), if_neg (by linarith), if_pos h]; rfl
        · subst h; simp; rfl
        · rw [if_neg (by linarith), if_pos (by linarith), if_pos h]; rfl
      · rw [XR.fin_neg, XR.fin_div _ h, XR.fin_div _ h, XR.fin_neg, neg_div]
  | pinf =>
    cases b with
    | fin y =>
      show (if y < 0 then XR.pinf else XR.ninf) = -(if y < 0 then XR.ninf else XR.pinf)
      split_ifs <;> rfl
    | _ => rfl
  | ninf =>
    cases b with
    | fin y =>
      show (if y < 0 then XR.ninf else XR.pinf) = -(if y < 0 then XR.pinf else XR.ninf)
      split_ifs <;> rfl
    | _ => rfl

/-! ## C18 -/

/-- **C18** (rates). For a usable sensor and finite spectra of any length the calculation succeeds,
and the detection rates are the trapezoid integrals of the spectral rates plus the dark current. -/
theorem C18_rates {s : RealSensor} (hs : s.Usable) {n : ℕ} {wl : ℕ → ℝ} (hl : ∀ i < n, 0 < wl i)
    (L M : ℕ → ℝ) :
    ∃ m, photonDetectorSNR s.toSensor (vec n wl) (vec n L) (vec n M) = .ok m
      ∧ m.tgtNRate = .fin (s.rate n wl L) ∧ m.bkgNRate = .fin (s.rate n wl M) := by
  obtain ⟨m, h1, h2, h3, -⟩ := snr_total hs hl L M
  exact ⟨m, h1, h2, h3⟩

/-- **C18** (well fill). Whatever the sensor: if the calculation succeeds with finite rates, then the
counts are rate × reported integration time × `n_tdi`, the well is filled to at most
`max_well_fill`, the integration time is not lengthened, it is kept if the well is not overfilled, and
otherwise the well is filled to exactly `max_well_fill`. -/
theorem C18_well_fill {s : Sensor} {wl tgt bkg : List XR} {m : SNRMetrics}
    (h : photonDetectorSNR s wl tgt bkg = .ok m) {r1 r2 t k M W : ℝ} (h1 : m.tgtNRate = .fin r1)
    (h2 : m.bkgNRate = .fin r2) (ht : s.intTime = .fin t) (hk : s.nTdi = .fin k)
    (hM : s.maxN = .fin M) (hW : s.maxWellFill = .fin W) (hMpos : 0 < M) (hW0 : 0 ≤ W) :
    ∃ τ n1 n2 wf : ℝ, m.intTime = .fin τ ∧ m.tgtN = .fin n1 ∧ m.bkgN = .fin n2
      ∧ m.wellFraction = .fin wf
      ∧ n1 = r1 * τ * k ∧ n2 = r2 * τ * k ∧ wf = max n1 n2 / M
      ∧ wf ≤ W
      ∧ (0 ≤ t → 0 ≤ τ ∧ τ ≤ t)
      ∧ (max (r1 * t * k) (r2 * t * k) ≤ W * M → τ = t)
      ∧ (W * M < max (r1 * t * k) (r2 * t * k) → wf = W) := by
  obtain ⟨sc, -, -, -, -, -, hsc, e1, e2, e3, e4, -⟩ := snr_inv h
  rw [h1, ht, hk] at e1 hsc
  rw [h2] at hsc
  rw [h2, ht, hk] at e2
  rw [ht] at e3
  rw [hW, hM] at hsc
  xr_simp at e1 e2 hsc
  obtain ⟨x, hx, hx0, hx1, hcase⟩ : ∃ x : ℝ, sc.val = .fin x ∧ 0 ≤ x ∧ x ≤ 1
      ∧ ((max (r1 * t * k) (r2 * t * k) ≤ W * M ∧ x = 1)
        ∨ (W * M < max (r1 * t * k) (r2 * t * k) ∧ x * max (r1 * t * k) (r2 * t * k) = W * M)) := by
    unfold checkWellFill at hsc
    simp only [Scal.val_py, Scal.val_np, XR.fin_lt] at hsc
    have h0 : 0 ≤ W * M := by positivity
    split_ifs at hsc with hlt
    · have hpos : 0 < max (r1 * t * k) (r2 * t * k) := lt_of_le_of_lt h0 hlt
      have := Scal.div_ok_val hsc
      rw [Scal.val_py, Scal.val_np, XR.fin_div _ hpos.ne'] at this
      exact ⟨_, this, by positivity, (div_le_one hpos).mpr hlt.le, Or.inr ⟨hlt,
        div_mul_cancel₀ _ hpos.ne'⟩⟩
    · rw [Except.ok.injEq] at hsc
      rw [← hsc]
      exact ⟨1, rfl, zero_le_one, le_rfl, Or.inl ⟨not_lt.mp hlt, rfl⟩⟩
  rw [hx, XR.fin_mul] at e1 e2 e3
  rw [e1, e2, hM, XR.fin_max, XR.fin_div _ hMpos.ne'] at e4
  have hmax : max (x * (r1 * t * k)) (x * (r2 * t * k)) = x * max (r1 * t * k) (r2 * t * k) :=
    (mul_max_of_nonneg _ _ hx0).symm
  refine ⟨x * t, _, _, _, e3, e1, e2, e4, by ring, by ring, rfl, ?_, ?_, ?_, ?_⟩
  · rw [hmax, div_le_iff₀ hMpos]
    rcases hcase with ⟨hle, rfl⟩ | ⟨-, he⟩
    · rw [one_mul]; exact hle
    · exact he.le
  · intro h0
    exact ⟨mul_nonneg hx0 h0, by nlinarith⟩
  · intro hle
    rcases hcase with ⟨-, rfl⟩ | ⟨hlt, -⟩
    · rw [one_mul]
    · exact absurd hle (not_le.mpr hlt)
  · intro hlt
    rcases hcase with ⟨hle, -⟩ | ⟨-, he⟩
    · exact absurd hlt (not_lt.mpr hle)
    · rw [hmax, he, mul_div_cancel_right₀ _ hMpos.ne']

/-- A concrete sensor used to show that hypotheses are satisfiable: 0.1 m aperture, 1 m focal length,
10 µm detectors, 3–5 µm band. -/
def demoSensor : RealSensor where
  D := 0.1
  f := 1
  pX := 1e-5
  pY := 1e-5
  wX := 1e-5
  wY := 1e-5
  transmission := [(3e-6, 0.8), (4e-6, 0.9), (5e-6, 0.7)]
  eta := 0.2
  intTime := 0.01
  darkCurrent := 100
  readNoise := 20
  maxN := 100000
  maxWellFill := 0.5
  bitDepth := 12
  nTdi := 1
  qe := [(3e-6, 0.7), (5e-6, 0.6)]
  coldShieldTemperature := 70
  opticsTemperature := 270
  opticsEmissivity := 0.05
  coldFilterTransmission := 0.9
  coldFilterTemperature := 70
  coldFilterEmissivity := 0.1
  sX := 0
  sY := 0
  daX := 1e-5
  daY := 1e-5
  pv := 0
  pvWavelength := 0.633e-6
  lX := 0.1
  lY := 0.1
  otherNoise := [0, 3]
  filterKernel := [[1]]
  frameStacks := 1

theorem demoSensor_usable : demoSensor.Usable where
  aperture := by norm_num [demoSensor]
  transmission_ne := by simp [demoSensor]
  transmission_inc := by simp [demoSensor, Increasing]; norm_num
  qe_ne := by simp [demoSensor]
  qe_inc := by simp [demoSensor, Increasing]; norm_num
  coldShield := by norm_num [demoSensor]
  optics := by norm_num [demoSensor]
  coldFilter := by norm_num [demoSensor]

/-- The demonstration wavelengths 3, 3.5, 4, ... µm. -/
def demoWl (i : ℕ) : ℝ := (3 + i / 2) * 1e-6

theorem demoWl_pos (i : ℕ) : 0 < demoWl i := by unfold demoWl; positivity

/-- The hypotheses of `C18_well_fill` hold for a real sensor and any two finite spectra. -/
example (L M : ℕ → ℝ) : ∃ m r1 r2,
    photonDetectorSNR demoSensor.toSensor (vec 4 demoWl) (vec 4 L) (vec 4 M) = .ok m
      ∧ m.tgtNRate = .fin r1 ∧ m.bkgNRate = .fin r2 ∧ demoSensor.toSensor.maxN = .fin 100000 := by
  obtain ⟨m, h1, h2, h3⟩ := C18_rates demoSensor_usable (fun i (_ : i < 4) => demoWl_pos i) L M
  exact ⟨m, _, _, h1, h2, h3, rfl⟩

/-! ## C19 -/

/-- **C19.** For every sensor and spectra whatsoever (special values included). -/
theorem C19_swap {s : Sensor} {wl tgt bkg : List XR} {m : SNRMetrics}
    (h : photonDetectorSNR s wl tgt bkg = .ok m) :
    ∃ m', photonDetectorSNR s wl bkg tgt = .ok m'
      ∧ m'.contrastSignal = -m.contrastSignal ∧ m'.snr = -m.snr
      ∧ m'.intTime = m.intTime ∧ m'.wellFraction = m.wellFraction
      ∧ m'.signalNoise = m.signalNoise ∧ m'.darkCurrentNoise = m.darkCurrentNoise
      ∧ m'.quantizationNoise = m.quantizationNoise ∧ m'.selfEmissionNoise = m.selfEmissionNoise
      ∧ m'.totalNoise = m.totalNoise ∧ m'.tgtN = m.bkgN ∧ m'.bkgN = m.tgtN := by
  unfold photonDetectorSNR at h
  rw [bind_ok] at h; obtain ⟨a1, h1, h⟩ := h
  rw [bind_ok] at h; obtain ⟨a2, h2, h⟩ := h
  rw [bind_ok] at h; obtain ⟨a3, h3, h⟩ := h
  rw [bind_ok] at h; obtain ⟨⟨r1, i1, w1⟩, h4, h⟩ := h
  simp only at h
  rw [bind_ok] at h; obtain ⟨⟨r2, i2, w2⟩, h5, h⟩ := h
  simp only at h
  rw [bind_ok] at h; obtain ⟨sc, h6, h⟩ := h
  rw [bind_ok] at h; obtain ⟨p, h7, h⟩ := h
  rw [bind_ok] at h; obtain ⟨q, h8, h⟩ := h
  rw [Except.ok.injEq] at h
  subst h
  unfold photonDetectorSNR
  rw [h1, ok_bind, h2, ok_bind, h3, ok_bind, h5, ok_bind]
  simp only
  rw [h4, ok_bind]
  simp only
  rw [max_comm_XR (r2 * s.intTime * s.nTdi), h6, ok_bind, h7, ok_bind, h8, ok_bind,
    max_comm_XR (sc.val * (r2 * s.intTime * s.nTdi))]
  refine ⟨_, rfl, neg_sub_XR _ _, ?_, rfl, rfl, rfl, rfl, rfl, rfl, rfl, rfl, rfl⟩
  simp only
  rw [neg_sub_XR, neg_div_XR]

/-- **C19** (identical spectra). -/
theorem C19_no_contrast {s : Sensor} {wl tgt : List XR} {m : SNRMetrics}
    (h : photonDetectorSNR s wl tgt tgt = .ok m) {n : ℝ} (hn : m.tgtN = .fin n) :
    m.contrastSignal = .fin 0 := by
  obtain ⟨sc, -, -, -, h4, ⟨w, h5⟩, -, e1, e2, -, -, e5, -⟩ := snr_inv h
  rw [h4, Except.ok.injEq, Prod.mk.injEq] at h5
  rw [← h5.1, ← e1] at e2
  rw [e5, e2, hn, XR.fin_sub, sub_self]

example (L M : ℕ → ℝ) : ∃ m m',
    photonDetectorSNR demoSensor.toSensor (vec 4 demoWl) (vec 4 L) (vec 4 M) = .ok m
    ∧ photonDetectorSNR demoSensor.toSensor (vec 4 demoWl) (vec 4 M) (vec 4 L) = .ok m'
    ∧ m'.snr = -m.snr := by
  obtain ⟨m, h1, -⟩ := C18_rates demoSensor_usable (fun i (_ : i < 4) => demoWl_pos i) L M
  obtain ⟨m', h2, -, h3, -⟩ := C19_swap h1
  exact ⟨m, m', h1, h2, h3⟩

/-! ## C20 -/

theorem twelve_bits {b : ℝ} (hb : 0 < b) : 0 < (2 : ℝ) ^ b - 1 := by
  have := Real.one_lt_rpow (by norm_num : (1 : ℝ) < 2) hb
  linarith

theorem quantizationNoise_fin (M : ℝ) {b : ℝ} (hb : 0 < b) :
    quantizationNoise (.fin M) b = .fin (M / (Real.sqrt 12 * ((2 : ℝ) ^ b - 1))) := by
  unfold quantizationNoise
  have h12 : (0 : ℝ) < Real.sqrt 12 := Real.sqrt_pos.mpr (by norm_num)
  rw [XR.ofNat_def, XR.fin_sqrt (by norm_num)]
  xr_simp
  rw [XR.fin_div _ (mul_pos h12 (twelve_bits hb)).ne']

/-- **C20** (noise budget). -/
theorem C20_noise_budget {s : Sensor} {wl tgt bkg : List XR} {m : SNRMetrics}
    (h : photonDetectorSNR s wl tgt bkg = .ok m) {a b M r : ℝ} {o : List ℝ} (ha : m.tgtN = .fin a)
    (hb : m.bkgN = .fin b) (ha0 : 0 ≤ a) (hM : s.maxN = .fin M)
    (hr : s.readNoise = .fin r) (ho : s.otherNoise = o.map .fin) (hbits : 0 < s.bitDepth) :
    ∃ sn q tot : ℝ, m.signalNoise = .fin sn ∧ m.quantizationNoise = .fin q ∧ m.totalNoise = .fin tot
      ∧ 0 ≤ sn ∧ 0 ≤ tot
      ∧ sn ^ 2 = max a b
      ∧ q = M / (Real.sqrt 12 * ((2 : ℝ) ^ s.bitDepth - 1))
      ∧ tot ^ 2 = sn ^ 2 + q ^ 2 + r ^ 2 + (o.map (· ^ 2)).sum := by
  obtain ⟨sc, -, -, -, -, -, -, -, -, -, -, -, e6, -, e8, -, e10, -⟩ := snr_inv h
  have hm : 0 ≤ max a b := le_max_of_le_left ha0
  rw [ha, hb, XR.fin_max, XR.fin_sqrt hm] at e6
  rw [hM, quantizationNoise_fin M hbits] at e8
  have hsum : 0 ≤ (o.map (· ^ 2)).sum := by
    apply List.sum_nonneg
    intro x hx
    obtain ⟨y, -, rfl⟩ := List.mem_map.mp hx
    positivity
  have hos : asum (s.otherNoise.map (· ^ 2)) = .fin (o.map (· ^ 2)).sum := by
    rw [ho, List.map_map, ← asum_fin, List.map_map]
    rfl
  rw [e6, e8, hr, hos] at e10
  xr_simp at e10
  rw [XR.fin_sqrt (by positivity)] at e10
  refine ⟨_, _, _, e6, e8, e10, Real.sqrt_nonneg _, Real.sqrt_nonneg _, Real.sq_sqrt hm, rfl, ?_⟩
  rw [Real.sq_sqrt (by positivity)]

/-- **C20** (each contribution is a lower bound; photon-noise limit). -/
theorem C20_photon_limit {s : Sensor} {wl tgt bkg : List XR} {m : SNRMetrics}
    (h : photonDetectorSNR s wl tgt bkg = .ok m) {a b M r : ℝ} {o : List ℝ} (ha : m.tgtN = .fin a)
    (hb : m.bkgN = .fin b) (ha0 : 0 ≤ a) (hb0 : 0 ≤ b) (hM : s.maxN = .fin M)
    (hr : s.readNoise = .fin r) (ho : s.otherNoise = o.map .fin) (hbits : 0 < s.bitDepth) :
    ∃ sn q tot : ℝ, m.signalNoise = .fin sn ∧ m.quantizationNoise = .fin q ∧ m.totalNoise = .fin tot
      ∧ sn ≤ tot ∧ |q| ≤ tot ∧ |r| ≤ tot ∧ (∀ x ∈ o, |x| ≤ tot)
      ∧ (0 < tot → ∃ x : ℝ, m.snr = .fin x ∧ x = (a - b) / tot ∧ x ^ 2 ≤ max a b) := by
  obtain ⟨sn, q, tot, h1, h2, h3, h4, h5, h6, -, h7⟩ :=
    C20_noise_budget h ha hb ha0 hM hr ho hbits
  have hpos : ∀ y ∈ o.map (· ^ 2), (0 : ℝ) ≤ y := by
    intro x hx
    obtain ⟨y, -, rfl⟩ := List.mem_map.mp hx
    positivity
  have hsum : 0 ≤ (o.map (· ^ 2)).sum := List.sum_nonneg hpos
  have q1 := sq_nonneg sn
  have q2 := sq_nonneg q
  have q3 := sq_nonneg r
  refine ⟨sn, q, tot, h1, h2, h3, ?_, ?_, ?_, ?_, ?_⟩
  · exact abs_le_of_sq_le_sq' (by linarith) h5 |>.2
  · exact abs_le_of_sq_le_sq (by linarith) h5
  · exact abs_le_of_sq_le_sq (by linarith) h5
  · intro x hx
    apply abs_le_of_sq_le_sq _ h5
    have : x ^ 2 ≤ (o.map (· ^ 2)).sum :=
      List.single_le_sum hpos _ (List.mem_map.mpr ⟨x, hx, rfl⟩)
    linarith
  · intro htot
    obtain ⟨sc, -, -, -, -, -, -, -, -, -, -, e5, -, -, -, -, -, e11⟩ := snr_inv h
    rw [e5, ha, hb, XR.fin_sub, h3, XR.fin_div _ htot.ne'] at e11
    refine ⟨_, e11, rfl, ?_⟩
    have hm : 0 ≤ max a b := le_max_of_le_left ha0
    have hab : (a - b) ^ 2 ≤ max a b ^ 2 := by
      apply sq_le_sq'
      · linarith [le_max_right a b]
      · linarith [le_max_left a b]
    rw [div_pow, div_le_iff₀ (by positivity)]
    nlinarith [mul_nonneg hm (show 0 ≤ tot ^ 2 - max a b by linarith)]

example : ∃ m a b, photonDetectorSNR demoSensor.toSensor (vec 0 demoWl) (vec 0 0) (vec 0 0) = .ok m
    ∧ m.tgtN = .fin a ∧ m.bkgN = .fin b ∧ 0 ≤ a ∧ 0 ≤ b
    ∧ demoSensor.toSensor.otherNoise = [0, 3].map .fin ∧ 0 < demoSensor.toSensor.bitDepth := by
  obtain ⟨m, h1, h2, h3⟩ := C18_rates demoSensor_usable (n := 0) (wl := demoWl) (by simp) 0 0
  obtain ⟨τ, n1, n2, wf, -, e1, e2, -, f1, f2, -, -, ht, -⟩ :=
    C18_well_fill h1 h2 h3 (t := 0.01) (k := 1) (M := 100000) (W := 0.5) rfl rfl rfl rfl (by norm_num)
      (by norm_num)
  obtain ⟨ht0, -⟩ := ht (by norm_num)
  refine ⟨m, n1, n2, h1, e1, e2, ?_, ?_, rfl, by norm_num [demoSensor, RealSensor.toSensor]⟩
  · rw [f1, show demoSensor.rate 0 demoWl 0 = 100 by simp [RealSensor.rate, trap, demoSensor]]
    positivity
  · rw [f2, show demoSensor.rate 0 demoWl 0 = 100 by simp [RealSensor.rate, trap, demoSensor]]
    positivity

end PyBSM
