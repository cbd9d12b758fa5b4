import Verif.Lemmas.Radiance
import Verif.Spec.Sensor

noncomputable section

open Classical

namespace PyBSM

open Spec

theorem bind_ok {ε α β : Type} {x : Except ε α} {f : α → Except ε β} {b : β} :
    (x >>= f) = .ok b ↔ ∃ a, x = .ok a ∧ f a = .ok b := by
  cases x with
  | error e => simp [bind, Except.bind]
  | ok a => simp [bind, Except.bind]

theorem ok_bind {ε α β : Type} (a : α) (f : α → Except ε β) : (Except.ok a >>= f) = f a := rfl

theorem error_bind {ε α β : Type} (e : ε) (f : α → Except ε β) :
    ((Except.error e : Except ε α) >>= f) = .error e := rfl

theorem tableAt_onTable {tbl : List (ℝ × ℝ)} (hinc : Increasing tbl) {x y : ℝ} (h : OnTable tbl x y) :
    tableAt tbl x = y := by
  have hex : ∃ y, OnTable tbl x y := ⟨y, h⟩
  unfold tableAt
  rw [dif_pos hex]
  exact hex.choose_spec.unique hinc h

theorem tableAt_off {tbl : List (ℝ × ℝ)} {x : ℝ} (h : (∀ q ∈ tbl, x < q.1) ∨ ∀ q ∈ tbl, q.1 < x) :
    tableAt tbl x = 0 := by
  unfold tableAt
  rw [dif_neg]
  rintro ⟨y, hy⟩
  obtain ⟨⟨q, hq, hq'⟩, ⟨r, hr, hr'⟩⟩ := hy.between
  rcases h with h | h
  · linarith [h q hq]
  · linarith [h r hr]

theorem interpTable_tableAt {tbl : List (ℝ × ℝ)} (hne : tbl ≠ []) (hinc : Increasing tbl) (x : ℝ) :
    interpTable (.fin x) (.fin 0) (.fin 0) (tbl.map finP) = .fin (tableAt tbl x) := by
  rcases interpTable_fin x 0 0 hne hinc with ⟨e, h⟩ | ⟨y, e, h⟩ | ⟨e, h⟩
  · rw [e, tableAt_off (Or.inl h)]
  · rw [e, tableAt_onTable hinc h]
  · rw [e, tableAt_off (Or.inr h)]

theorem tableAt_range {tbl : List (ℝ × ℝ)} {x m M : ℝ} (hm : m ≤ 0) (hM : 0 ≤ M)
    (hb : ∀ q ∈ tbl, m ≤ q.2 ∧ q.2 ≤ M) : m ≤ tableAt tbl x ∧ tableAt tbl x ≤ M := by
  unfold tableAt
  split_ifs with h
  · exact h.choose_spec.range hb
  · exact ⟨hm, hM⟩

theorem resample_eq {tbl : List (ℝ × ℝ)} (hne : tbl ≠ []) (news : List ℝ) :
    resampleByWavelength ((tbl.map (·.1)).map .fin) ((tbl.map (·.2)).map .fin) (news.map .fin)
      = .ok (news.map fun x => interpTable (.fin x) 0 0 (tbl.map finP)) := by
  unfold resampleByWavelength npInterp
  have hz : ((tbl.map (·.1)).map XR.fin).zip ((tbl.map (·.2)).map XR.fin) = tbl.map finP := by
    rw [List.map_map, List.map_map, List.zip_map']
    rfl
  rw [if_neg (by simp [hne]), hz, List.map_map]
  rfl

theorem resample_vec {tbl : List (ℝ × ℝ)} (hne : tbl ≠ []) (hinc : Increasing tbl) (n : ℕ) (wl : ℕ → ℝ) :
    resampleByWavelength ((tbl.map (·.1)).map .fin) ((tbl.map (·.2)).map .fin) (vec n wl)
      = .ok (vec n fun i => tableAt tbl (wl i)) := by
  have : vec n wl = ((List.range n).map wl).map XR.fin := by
    unfold vec; rw [List.map_map]; rfl
  rw [this, resample_eq hne, List.map_map]
  unfold vec
  congr 1
  apply List.map_congr_left
  intro i _
  exact interpTable_tableAt hne hinc _

theorem systemTransmission_vec {s : RealSensor} (hs : s.Usable) (n : ℕ) (wl : ℕ → ℝ) :
    systemTransmission s.toSensor (vec n wl) = .ok (vec n fun i => s.transAt (wl i)) := by
  unfold systemTransmission
  rw [show s.toSensor.optTransWavelengths = (s.transmission.map (·.1)).map .fin from rfl,
    show s.toSensor.opticsTransmission = (s.transmission.map (·.2)).map .fin from rfl,
    resample_vec hs.transmission_ne hs.transmission_inc, ok_bind]
  rw [vec_map (g := fun x => s.coldFilterTransmission * (1 - s.eta ^ 2) * x)]
  · rfl
  · intro x
    show XR.fin _ * (1 - XR.fin _ ^ 2) * XR.fin x = _
    xr_simp

theorem qe_vec {s : RealSensor} (hs : s.Usable) (n : ℕ) (wl : ℕ → ℝ) :
    resampleByWavelength s.toSensor.qeWavelengths s.toSensor.qe (vec n wl)
      = .ok (vec n fun i => tableAt s.qe (wl i)) := resample_vec hs.qe_ne hs.qe_inc n wl

theorem coldShield_vec {D f : Scal} {d fl : ℝ} (hD : D.val = .fin d) (hf : f.val = .fin fl) (hd : d ≠ 0)
    {n : ℕ} {lam : ℕ → ℝ} (hl : ∀ i < n, 0 < lam i) {T : ℝ} (hT : 0 < T) :
    coldShieldSelfEmission (vec n lam) (.fin T) D f
      = .ok (vec n fun i => (Real.pi - apertureFactor d fl) * planck (lam i) T) := by
  unfold coldShieldSelfEmission
  obtain ⟨c, h1, h2⟩ := Scal.div_fin hf hD hd
  simp only [h1, bind, Except.bind, h2]
  rw [blackbodyRadiance_vec hl hT, vec_map (g := fun b => (Real.pi - apertureFactor d fl) * b)]
  intro b
  xr_simp
  rw [XR.fin_div _ (by positivity)]
  xr_simp
  unfold apertureFactor
  rw [add_comm]

theorem coldStop_vec {D f : Scal} {d fl : ℝ} (hD : D.val = .fin d) (hf : f.val = .fin fl) (hd : d ≠ 0)
    {n : ℕ} {lam : ℕ → ℝ} (hl : ∀ i < n, 0 < lam i) {T : ℝ} (hT : 0 < T) (e : ℝ) :
    coldStopSelfEmission (vec n lam) (.fin T) (.fin e) D f
      = .ok (vec n fun i => apertureFactor d fl * (e * planck (lam i) T)) := by
  unfold coldStopSelfEmission
  rw [blackbodyRadiance_vec hl hT, vec_map (g := fun b => e * b) (fun x => by xr_simp),
    atFocal_vec hD hf hd]

theorem opticsSelf_vec {D f : Scal} {d fl : ℝ} (hD : D.val = .fin d) (hf : f.val = .fin fl) (hd : d ≠ 0)
    {n : ℕ} {lam : ℕ → ℝ} (hl : ∀ i < n, 0 < lam i) {T : ℝ} (hT : 0 < T) (e c : ℝ) :
    opticsSelfEmission (vec n lam) (.fin T) (.fin e) (.fin c) D f
      = .ok (vec n fun i => apertureFactor d fl * (c * e * planck (lam i) T)) := by
  unfold opticsSelfEmission
  rw [blackbodyRadiance_vec hl hT, vec_map (g := fun b => c * e * b) (fun x => by xr_simp),
    atFocal_vec hD hf hd]

theorem selfEmission_vec {s : RealSensor} (hs : s.Usable) {n : ℕ} {wl : ℕ → ℝ}
    (hl : ∀ i < n, 0 < wl i) :
    selfEmission s.toSensor (vec n wl) = .ok (vec n fun i => s.selfAt (wl i)) := by
  unfold selfEmission
  have hD : (Scal.py s.toSensor.D).val = .fin s.D := rfl
  have hf : (Scal.py s.toSensor.f).val = .fin s.f := rfl
  rw [show s.toSensor.coldShieldTemperature = .fin s.coldShieldTemperature from rfl,
    coldShield_vec hD hf hs.aperture hl hs.coldShield, ok_bind,
    show s.toSensor.opticsTemperature = .fin s.opticsTemperature from rfl,
    show s.toSensor.opticsEmissivity = .fin s.opticsEmissivity from rfl,
    show s.toSensor.coldFilterTransmission = .fin s.coldFilterTransmission from rfl,
    opticsSelf_vec hD hf hs.aperture hl hs.optics, ok_bind,
    show s.toSensor.coldFilterTemperature = .fin s.coldFilterTemperature from rfl,
    show s.toSensor.coldFilterEmissivity = .fin s.coldFilterEmissivity from rfl,
    coldStop_vec hD hf hs.aperture hl hs.coldFilter, ok_bind, bc2_vec_add, ok_bind, bc2_vec_add]
  rfl

theorem sensorRate_vec {s : RealSensor} (hs : s.Usable) (n : ℕ) (wl L : ℕ → ℝ) :
    signalRate (vec n wl) (vec n L) (vec n fun i => s.transAt (wl i)) (.py s.toSensor.D)
      (.py s.toSensor.f) s.toSensor.wX s.toSensor.wY (vec n fun i => tableAt s.qe (wl i))
      (vec n fun i => s.selfAt (wl i)) s.toSensor.darkCurrent
      = .ok (.fin (s.rate n wl L),
          vec n (fun i => s.transAt (wl i) * (apertureFactor s.D s.f * L i) + s.selfAt (wl i)),
          vec n fun i => s.spectral (wl i) (L i)) :=
  signalRate_vec rfl rfl hs.aperture n wl L _ _ _ s.wX s.wY s.darkCurrent

/-- Everything `photon_detector_SNR` reports, from the three arrays it computes first. -/
theorem snr_inv {s : Sensor} {wl tgt bkg : List XR} {m : SNRMetrics}
    (h : photonDetectorSNR s wl tgt bkg = .ok m) :
    ∃ sc,
      systemTransmission s wl = .ok m.optTrans
      ∧ resampleByWavelength s.qeWavelengths s.qe wl = .ok m.qe
      ∧ selfEmission s wl = .ok m.otherIrradiance
      ∧ signalRate wl tgt m.optTrans (.py s.D) (.py s.f) s.wX s.wY m.qe m.otherIrradiance s.darkCurrent
          = .ok (m.tgtNRate, m.tgtFPAIrradiance, m.weights)
      ∧ (∃ w, signalRate wl bkg m.optTrans (.py s.D) (.py s.f) s.wX s.wY m.qe m.otherIrradiance
          s.darkCurrent = .ok (m.bkgNRate, m.bkgFPAIrradiance, w))
      ∧ checkWellFill (.np (XR.max (m.tgtNRate * s.intTime * s.nTdi) (m.bkgNRate * s.intTime * s.nTdi)))
          (.py (s.maxWellFill * s.maxN)) = .ok sc
      ∧ m.tgtN = sc.val * (m.tgtNRate * s.intTime * s.nTdi)
      ∧ m.bkgN = sc.val * (m.bkgNRate * s.intTime * s.nTdi)
      ∧ m.intTime = sc.val * s.intTime
      ∧ m.wellFraction = XR.max m.tgtN m.bkgN / s.maxN
      ∧ m.contrastSignal = m.tgtN - m.bkgN
      ∧ m.signalNoise = XR.sqrt (XR.max m.tgtN m.bkgN)
      ∧ m.darkCurrentNoise = XR.sqrt (s.nTdi * s.darkCurrent * m.intTime)
      ∧ m.quantizationNoise = quantizationNoise s.maxN s.bitDepth
      ∧ (∃ selfRate selfN, photonDetectionRate m.otherIrradiance s.wX s.wY wl m.qe = .ok selfRate
          ∧ trapz selfRate wl = .ok selfN
          ∧ m.selfEmissionNoise = XR.sqrt (selfN * m.intTime * s.nTdi))
      ∧ m.totalNoise = XR.sqrt (m.signalNoise ^ 2 + m.quantizationNoise ^ 2 + s.readNoise ^ 2
          + asum (s.otherNoise.map (· ^ 2)))
      ∧ m.snr = m.contrastSignal / m.totalNoise := by
  unfold photonDetectorSNR at h
  rw [bind_ok] at h; obtain ⟨a1, h1, h⟩ := h
  rw [bind_ok] at h; obtain ⟨a2, h2, h⟩ := h
  rw [bind_ok] at h; obtain ⟨a3, h3, h⟩ := h
  rw [bind_ok] at h; obtain ⟨⟨r1, i1, w1⟩, h4, h⟩ := h
  simp only at h
  rw [bind_ok] at h; obtain ⟨⟨r2, i2, w2⟩, h5, h⟩ := h
  simp only at h
  rw [bind_ok] at h; obtain ⟨sc, h6, h⟩ := h
  rw [bind_ok] at h; obtain ⟨p, h7, h⟩ := h
  rw [bind_ok] at h; obtain ⟨q, h8, h⟩ := h
  rw [Except.ok.injEq] at h
  subst h
  exact ⟨sc, h1, h2, h3, h4, ⟨w2, h5⟩, h6, rfl, rfl, rfl, rfl, rfl, rfl, rfl, rfl, ⟨p, q, h7, h8, rfl⟩,
    rfl, rfl⟩

/-- `photon_detector_SNR` succeeds for a usable sensor and finite spectra. -/
theorem snr_total {s : RealSensor} (hs : s.Usable) {n : ℕ} {wl : ℕ → ℝ} (hl : ∀ i < n, 0 < wl i)
    (L M : ℕ → ℝ) :
    ∃ m, photonDetectorSNR s.toSensor (vec n wl) (vec n L) (vec n M) = .ok m
      ∧ m.tgtNRate = .fin (s.rate n wl L) ∧ m.bkgNRate = .fin (s.rate n wl M)
      ∧ m.weights = vec n (fun i => s.spectral (wl i) (L i))
      ∧ m.selfEmissionNoise = XR.sqrt (.fin (trap n wl fun i =>
          wl i / (planckH * lightC) * tableAt s.qe (wl i) * (s.wX * s.wY) * s.selfAt (wl i))
            * m.intTime * .fin s.nTdi) := by
  unfold photonDetectorSNR
  rw [systemTransmission_vec hs, ok_bind, qe_vec hs, ok_bind, selfEmission_vec hs hl, ok_bind,
    sensorRate_vec hs, ok_bind]
  simp only
  rw [sensorRate_vec hs, ok_bind]
  simp only
  obtain ⟨sc, hsc⟩ : ∃ sc, checkWellFill
      (.np (XR.max (.fin (s.rate n wl L) * s.toSensor.intTime * s.toSensor.nTdi)
        (.fin (s.rate n wl M) * s.toSensor.intTime * s.toSensor.nTdi)))
      (.py (s.toSensor.maxWellFill * s.toSensor.maxN)) = .ok sc := by
    unfold checkWellFill
    split_ifs
    · exact ⟨_, rfl⟩
    · exact ⟨_, rfl⟩
  rw [hsc, ok_bind, show s.toSensor.wX = .fin s.wX from rfl, show s.toSensor.wY = .fin s.wY from rfl,
    photonDetectionRate_vec, ok_bind, trapz_vec, ok_bind]
  exact ⟨_, rfl, rfl, rfl, rfl, rfl⟩

end PyBSM
