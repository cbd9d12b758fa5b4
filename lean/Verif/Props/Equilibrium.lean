import Verif.Spec.Equilibrium
import Verif.Props.SNR
import Verif.Props.Radiance

/-!
# C102: thermal equilibrium

A camera in an enclosure of its own temperature receives exactly the radiation of a black body of that temperature, as the
second law of thermodynamics requires, if its optics obey Kirchhoff's law.
-/

noncomputable section

open Classical

namespace PyBSM

open Spec

theorem fpa_irradiance {s : RealSensor} (hs : s.Usable) {n : ℕ} {wl : ℕ → ℝ} (hl : ∀ i < n, 0 < wl i) (L M : ℕ → ℝ) :
    ∃ m, photonDetectorSNR s.toSensor (vec n wl) (vec n L) (vec n M) = .ok m
      ∧ m.tgtNRate = .fin (s.rate n wl L)
      ∧ m.tgtFPAIrradiance = vec n fun i => s.transAt (wl i) * (apertureFactor s.D s.f * L i) + s.selfAt (wl i) := by
  obtain ⟨m, h1, h2, -⟩ := snr_total hs hl L M
  refine ⟨m, h1, h2, ?_⟩
  obtain ⟨-, a1, a2, a3, a4, -⟩ := snr_inv h1
  rw [systemTransmission_vec hs] at a1
  rw [qe_vec hs] at a2
  rw [selfEmission_vec hs hl] at a3
  rw [← Except.ok.inj a1, ← Except.ok.inj a2, ← Except.ok.inj a3, sensorRate_vec hs] at a4
  have := Except.ok.inj a4
  exact (Prod.mk.inj (Prod.mk.inj this).2).1.symm

theorem apertureFactor_bounds (d f : ℝ) : 0 < apertureFactor d f ∧ apertureFactor d f ≤ Real.pi := by
  unfold apertureFactor
  have := Real.pi_pos
  refine ⟨by positivity, div_le_self this.le ?_⟩
  nlinarith [sq_nonneg (f / d)]

/-- **C102** (general balance). In an enclosure of temperature `T`, with all parts of the camera at this temperature, the
irradiance on the detector at every wavelength is that of the black body, `π B`, minus the part of the aperture cone that
the camera description does not account for. -/
theorem C102_balance {s : RealSensor} (hs : s.Usable) {T : ℝ} (ht : s.AtTemperature T) {n : ℕ} {wl : ℕ → ℝ}
    (hl : ∀ i < n, 0 < wl i) (M : ℕ → ℝ) :
    ∃ m, photonDetectorSNR s.toSensor (vec n wl) (vec n fun i => planck (wl i) T) (vec n M) = .ok m
      ∧ m.tgtFPAIrradiance = vec n fun i =>
          Real.pi * planck (wl i) T - apertureFactor s.D s.f * planck (wl i) T * (1 - s.accounted (wl i)) := by
  obtain ⟨m, h1, -, h2⟩ := fpa_irradiance hs hl (fun i => planck (wl i) T) M
  refine ⟨m, h1, ?_⟩
  rw [h2]
  refine vec_congr fun i _ => ?_
  unfold RealSensor.transAt RealSensor.selfAt RealSensor.accounted
  rw [ht.shield, ht.optics, ht.filter]
  ring

/-- **C102** (equilibrium). If the optics obey Kirchhoff's law and there is no central obscuration, the irradiance is that
of the black body at every wavelength. -/
theorem C102_equilibrium {s : RealSensor} (hs : s.Usable) {T : ℝ} (ht : s.AtTemperature T) {n : ℕ} {wl : ℕ → ℝ}
    (hk : s.Kirchhoff n wl) (hl : ∀ i < n, 0 < wl i) (M : ℕ → ℝ) :
    ∃ m, photonDetectorSNR s.toSensor (vec n wl) (vec n fun i => planck (wl i) T) (vec n M) = .ok m
      ∧ m.tgtFPAIrradiance = vec n fun i => Real.pi * planck (wl i) T := by
  obtain ⟨m, h1, h2⟩ := C102_balance hs ht hl M
  refine ⟨m, h1, ?_⟩
  rw [h2]
  refine vec_congr fun i hi => ?_
  have : s.accounted (wl i) = 1 := by
    unfold RealSensor.accounted
    rw [hk.unobscured, hk.filter, hk.optics i hi]; ring
  rw [this]; ring

/-- **C102** (finding: the obscuration is cold). With a central obscuration, and otherwise as before, the irradiance is
smaller than in equilibrium by the part of the aperture that the obscuration covers: its own emission is not counted. -/
theorem C102_obscuration {s : RealSensor} (hs : s.Usable) {T : ℝ} (ht : s.AtTemperature T) {n : ℕ} {wl : ℕ → ℝ}
    (ho : ∀ i < n, s.opticsEmissivity = 1 - tableAt s.transmission (wl i))
    (hf : s.coldFilterEmissivity = 1 - s.coldFilterTransmission) (hl : ∀ i < n, 0 < wl i) (M : ℕ → ℝ) :
    ∃ m, photonDetectorSNR s.toSensor (vec n wl) (vec n fun i => planck (wl i) T) (vec n M) = .ok m
      ∧ m.tgtFPAIrradiance = vec n fun i => Real.pi * planck (wl i) T
          - apertureFactor s.D s.f * (s.eta ^ 2 * (s.coldFilterTransmission * tableAt s.transmission (wl i)))
            * planck (wl i) T := by
  obtain ⟨m, h1, h2⟩ := C102_balance hs ht hl M
  refine ⟨m, h1, ?_⟩
  rw [h2]
  refine vec_congr fun i hi => ?_
  have : s.accounted (wl i) = 1 - s.eta ^ 2 * (s.coldFilterTransmission * tableAt s.transmission (wl i)) := by
    unfold RealSensor.accounted
    rw [hf, ho i hi]; ring
  rw [this]; ring

/-- **C102** (nothing exceeds the hottest body). If nothing in the camera is hotter than `T`, the scene is nowhere brighter
than a black body of temperature `T`, and the camera does not emit more than it absorbs, then the irradiance on the
detector lies between zero and that of the black body. -/
theorem C102_bound {s : RealSensor} (hs : s.Usable) {T : ℝ} (ht : s.NotAbove T) {n : ℕ} {wl : ℕ → ℝ}
    (hp : s.Passive n wl) (hl : ∀ i < n, 0 < wl i) {L : ℕ → ℝ} (hL : ∀ i < n, 0 ≤ L i ∧ L i ≤ planck (wl i) T) (M : ℕ → ℝ) :
    ∃ m E, photonDetectorSNR s.toSensor (vec n wl) (vec n L) (vec n M) = .ok m ∧ m.tgtFPAIrradiance = vec n E
      ∧ ∀ i < n, 0 ≤ E i ∧ E i ≤ Real.pi * planck (wl i) T := by
  obtain ⟨m, h1, -, h2⟩ := fpa_irradiance hs hl L M
  refine ⟨m, _, h1, h2, fun i hi => ?_⟩
  obtain ⟨a0, a1⟩ := apertureFactor_bounds s.D s.f
  have mono : ∀ T', 0 < T' → T' ≤ T → 0 ≤ planck (wl i) T' ∧ planck (wl i) T' ≤ planck (wl i) T := by
    intro T' h0 h
    refine ⟨(planck_pos (hl i hi) h0).le, ?_⟩
    rcases h.eq_or_lt with rfl | h
    · exact le_rfl
    · exact (planck_lt (hl i hi) h0 h).le
  obtain ⟨s0, s1⟩ := mono _ hs.coldShield ht.shield
  obtain ⟨o0, o1⟩ := mono _ hs.optics ht.optics
  obtain ⟨f0, f1⟩ := mono _ hs.coldFilter ht.filter
  obtain ⟨l0, l1⟩ := hL i hi
  have g := hp.glass i hi
  have acc := hp.absorbs i hi
  have e1 := hp.optics
  have e2 := hp.filter
  have e3 := hp.transmission
  have e4 : 0 ≤ 1 - s.eta ^ 2 := by linarith [hp.obscuration]
  unfold RealSensor.accounted at acc
  unfold RealSensor.transAt RealSensor.selfAt
  set B := planck (wl i) T
  set A := apertureFactor s.D s.f
  have B0 : 0 ≤ B := s0.trans s1
  have k1 : 0 ≤ s.coldFilterTransmission * (1 - s.eta ^ 2) * tableAt s.transmission (wl i) := by positivity
  have k2 : 0 ≤ s.coldFilterTransmission * s.opticsEmissivity := by positivity
  have p0 : 0 ≤ Real.pi - A := by linarith
  constructor
  · positivity
  · have b1 := mul_le_mul_of_nonneg_left l1 k1
    have b2 := mul_le_mul_of_nonneg_left o1 k2
    have b3 := mul_le_mul_of_nonneg_left f1 e2
    have b4 := mul_le_mul_of_nonneg_left s1 p0
    have b5 := mul_le_mul_of_nonneg_right acc B0
    have b6 : s.coldFilterTransmission * (1 - s.eta ^ 2) * tableAt s.transmission (wl i) * L i
        + s.coldFilterTransmission * s.opticsEmissivity * planck (wl i) s.opticsTemperature
        + s.coldFilterEmissivity * planck (wl i) s.coldFilterTemperature ≤ B := by
      linarith
    have b7 := mul_le_mul_of_nonneg_left b6 a0.le
    linarith

/-- **C102** (scene in equilibrium). Through an atmosphere of the same temperature, whose path emission is what it
absorbs, and without sunlight, a black target has the radiance of the black body; a target of reflectance `r` is darker by
the fraction `r` of what is transmitted, because the radiation of its surroundings that it reflects is not counted. -/
theorem C102_scene {n : ℕ} {A : ℕ → Fin 6 → ℝ} {T : ℝ} (hl : ∀ i < n, 0 < A i 0) (hT : 0 < T)
    (hk : ∀ i < n, A i 2 = (1 - A i 1) * planck (A i 0) T) (hsun : ∀ i < n, A i 4 = 0 ∧ A i 5 = 0) (r : ℝ) :
    totalRadiance (vecAtm n A) (.fin r) (.fin T) = vec n fun i => planck (A i 0) T - r * (A i 1 * planck (A i 0) T) := by
  rw [totalRadiance_vec hl r hT]
  refine vec_congr fun i hi => ?_
  unfold greyRadiance
  rw [hk i hi, (hsun i hi).1, (hsun i hi).2]
  ring

/-- **C102** (hotter targets). Raising the temperature of a target that is not a perfect mirror never lowers the detection
rate, and raises the radiance at every wavelength at which the atmosphere is not opaque. -/
theorem C102_hotter {s : RealSensor} (hs : s.Usable) {n : ℕ} {A : ℕ → Fin 6 → ℝ} (hl : ∀ i < n, 0 < A i 0)
    (hinc : ∀ i, i + 1 < n → A i 0 ≤ A (i + 1) 0) (hτ : ∀ i < n, 0 ≤ A i 1)
    (hpos : ∀ i < n, 0 ≤ s.transAt (A i 0) ∧ 0 ≤ tableAt s.qe (A i 0)) (hw : 0 ≤ s.wX * s.wY) {r T T' : ℝ} (hr : r < 1)
    (hT : 0 < T) (hTT : T < T') (bkg : ℕ → ℝ) :
    ∃ L L' m m' x x', totalRadiance (vecAtm n A) (.fin r) (.fin T) = vec n L
      ∧ totalRadiance (vecAtm n A) (.fin r) (.fin T') = vec n L'
      ∧ (∀ i < n, L i ≤ L' i ∧ (0 < A i 1 → L i < L' i))
      ∧ photonDetectorSNR s.toSensor (vec n fun i => A i 0) (vec n L) (vec n bkg) = .ok m
      ∧ photonDetectorSNR s.toSensor (vec n fun i => A i 0) (vec n L') (vec n bkg) = .ok m'
      ∧ m.tgtNRate = .fin x ∧ m'.tgtNRate = .fin x' ∧ x ≤ x' := by
  have hT' := hT.trans hTT
  obtain ⟨m, h1, h2, -⟩ := fpa_irradiance hs (wl := fun i => A i 0) hl (fun i => greyRadiance (A i) r T) bkg
  obtain ⟨m', h1', h2', -⟩ := fpa_irradiance hs (wl := fun i => A i 0) hl (fun i => greyRadiance (A i) r T') bkg
  have key : ∀ i < n, greyRadiance (A i) r T ≤ greyRadiance (A i) r T'
      ∧ (0 < A i 1 → greyRadiance (A i) r T < greyRadiance (A i) r T') := by
    intro i hi
    have p := planck_lt (hl i hi) hT hTT
    have t := hτ i hi
    have r' : 0 < 1 - r := by linarith
    unfold greyRadiance
    constructor
    · have := mul_le_mul_of_nonneg_left p.le (mul_nonneg r'.le t)
      linarith
    · intro t'
      have := mul_lt_mul_of_pos_left p (mul_pos r' t')
      linarith
  refine ⟨_, _, m, m', _, _, totalRadiance_vec hl r hT, totalRadiance_vec hl r hT', key, h1, h1', h2, h2', ?_⟩
  unfold RealSensor.rate
  have : trap n (fun i => A i 0) (fun i => s.spectral (A i 0) (greyRadiance (A i) r T))
      ≤ trap n (fun i => A i 0) (fun i => s.spectral (A i 0) (greyRadiance (A i) r T')) := by
    refine trap_mono hinc fun i hi => ?_
    unfold RealSensor.spectral spectralRate
    obtain ⟨p1, p2⟩ := hpos i hi
    have a0 := (apertureFactor_bounds s.D s.f).1
    have h0 := planckH_pos
    have c0 := lightC_pos
    have w0 := hl i hi
    have k : 0 ≤ A i 0 / (planckH * lightC) * tableAt s.qe (A i 0) * (s.wX * s.wY) := by positivity
    refine mul_le_mul_of_nonneg_left ?_ k
    have := mul_le_mul_of_nonneg_left (mul_le_mul_of_nonneg_left (key i hi).1 a0.le) p1
    linarith
  linarith

/-- A camera in equilibrium: transmission 0.8 over the band, emissivity 0.2, cold filter 0.9 / 0.1, all at 280 K. -/
def warmSensor : RealSensor := { demoSensor with
  transmission := [(2e-6, 0.8), (6e-6, 0.8)], eta := 0, coldShieldTemperature := 280, opticsTemperature := 280,
  coldFilterTemperature := 280, opticsEmissivity := 0.2, coldFilterTransmission := 0.9, coldFilterEmissivity := 0.1 }

theorem warmSensor_usable : warmSensor.Usable where
  aperture := demoSensor_usable.aperture
  transmission_ne := by simp [warmSensor]
  transmission_inc := by simp [warmSensor, Increasing]; norm_num
  qe_ne := demoSensor_usable.qe_ne
  qe_inc := demoSensor_usable.qe_inc
  coldShield := by norm_num [warmSensor]
  optics := by norm_num [warmSensor]
  coldFilter := by norm_num [warmSensor]

example : warmSensor.Usable ∧ warmSensor.AtTemperature 280 ∧ warmSensor.NotAbove 280 ∧ warmSensor.Kirchhoff 4 demoWl
    ∧ warmSensor.Passive 4 demoWl := by
  have tr : ∀ i < 4, tableAt warmSensor.transmission (demoWl i) = 0.8 := by
    intro i hi
    have hi' : (i : ℝ) ≤ 3 := by exact_mod_cast (by omega : i ≤ 3)
    have hi0 : (0 : ℝ) ≤ i := Nat.cast_nonneg i
    refine tableAt_onTable warmSensor_usable.transmission_inc (Or.inr ⟨0, 2e-6, 0.8, 6e-6, 0.8, rfl, rfl, ?_, ?_, ?_⟩)
    · unfold demoWl; norm_num; linarith
    · unfold demoWl; norm_num; linarith
    · unfold line; norm_num
  refine ⟨warmSensor_usable, ⟨rfl, rfl, rfl⟩, ⟨le_rfl, le_rfl, le_rfl⟩, ⟨rfl, ?_, ?_⟩, ⟨?_, ?_, ?_, ?_, ?_, ?_⟩⟩
  · intro i hi; rw [tr i hi]; norm_num [warmSensor]
  · norm_num [warmSensor]
  · norm_num [warmSensor]
  · norm_num [warmSensor]
  · norm_num [warmSensor]
  · norm_num [warmSensor]
  · intro i hi; rw [tr i hi]; norm_num
  · intro i hi; unfold RealSensor.accounted; rw [tr i hi]; norm_num [warmSensor]

/-- An atmosphere and sensor that `C102_scene` and `C102_hotter` apply to. -/
example : ∃ A : ℕ → Fin 6 → ℝ, (∀ i < 4, 0 < A i 0) ∧ (∀ i, i + 1 < 4 → A i 0 ≤ A (i + 1) 0) ∧ (∀ i < 4, 0 < A i 1)
    ∧ (∀ i < 4, A i 2 = (1 - A i 1) * planck (A i 0) 280) ∧ (∀ i < 4, A i 4 = 0 ∧ A i 5 = 0)
    ∧ (∀ i < 4, 0 ≤ warmSensor.transAt (A i 0) ∧ 0 ≤ tableAt warmSensor.qe (A i 0)) ∧ 0 ≤ warmSensor.wX * warmSensor.wY := by
  refine ⟨fun i => ![demoWl i, 0.5, (1 - 0.5) * planck (demoWl i) 280, 0, 0, 0], fun i _ => demoWl_pos i, ?_, ?_, ?_, ?_, ?_, ?_⟩
  · intro i _
    show demoWl i ≤ demoWl (i + 1)
    unfold demoWl; push_cast; linarith
  · intro i _; show (0 : ℝ) < 0.5; norm_num
  · intro i _; rfl
  · intro i _; exact ⟨rfl, rfl⟩
  · intro i _
    refine ⟨?_, ?_⟩
    · unfold RealSensor.transAt
      have := (tableAt_range (tbl := warmSensor.transmission) (x := demoWl i) (m := 0) (M := 1) le_rfl zero_le_one
        (by intro q hq; simp only [warmSensor, List.mem_cons, List.not_mem_nil, or_false] at hq
            rcases hq with rfl | rfl <;> norm_num)).1
      show 0 ≤ warmSensor.coldFilterTransmission * (1 - warmSensor.eta ^ 2) * tableAt warmSensor.transmission (demoWl i)
      refine mul_nonneg ?_ this
      norm_num [warmSensor]
    · exact (tableAt_range (tbl := warmSensor.qe) (x := demoWl i) (m := 0) (M := 1) le_rfl zero_le_one
        (by intro q hq; simp only [warmSensor, demoSensor, List.mem_cons, List.not_mem_nil, or_false] at hq
            rcases hq with rfl | rfl <;> norm_num)).1
  · norm_num [warmSensor, demoSensor]

end PyBSM
