import Verif.Spec.Imaging
import Verif.Lemmas.Band
import Verif.Lemmas.Niirs
import Verif.Props.SNR
import Verif.Props.Radiance
import Verif.Props.System

/-!
# What `niirs` and `niirs5` compute before the image quality equation
-/

noncomputable section

open Classical

namespace PyBSM

open Spec

theorem map_vec (B : List (Fin 6 → ℝ)) (f : (Fin 6 → ℝ) → ℝ) :
    B.map (fun a => XR.fin (f a)) = vec B.length fun i => f (B.getD i 0) := by
  unfold vec
  apply List.ext_getElem
  · simp
  · intro i h1 h2
    have hi : i < B.length := by simpa using h1
    simp [hi]

theorem map_eq_range (B : List (Fin 6 → ℝ)) : B = (List.range B.length).map fun i => B.getD i 0 := by
  apply List.ext_getElem
  · simp
  · intro i h1 h2
    simp [h1]

theorem emissive_iff (s : RealSensor) : isEmissiveBand s.toSensor ↔ s.Thermal := by
  have e : (2.9e-6 : XR) = .fin 2.9e-6 := rfl
  unfold isEmissiveBand RealSensor.Thermal RealSensor.toSensor
  cases s.transmission with
  | nil => simp
  | cons p t =>
    simp only [List.map_cons, List.head?_cons, Option.some.injEq]
    rw [e, XR.fin_le]
    constructor
    · intro h; exact ⟨p, rfl, h⟩
    · rintro ⟨q, rfl, h⟩; exact h

theorem giqe_values (s : RealSensor) {B : List (Fin 6 → ℝ)} (hB : ∀ a ∈ B, 0 < a 0) :
    giqeRadiance (realAtm B) (isEmissiveBand s.toSensor)
      = (vec B.length (fun i => s.targetAt (B.getD i 0)), vec B.length fun i => s.backgroundAt (B.getD i 0)) := by
  have hl : ∀ i < B.length, 0 < B.getD i 0 0 := by
    intro i hi
    rw [List.getD_eq_getElem _ _ hi]
    exact hB _ (List.getElem_mem hi)
  rw [realAtm_vec]
  unfold RealSensor.targetAt RealSensor.backgroundAt
  by_cases h : s.Thermal
  · simp only [emissive_iff, h, if_true, decide_true]
    exact C24_emissive hl
  · simp only [emissive_iff, h, if_false, decide_false]
    exact C24_reflective hl

theorem cut_nonneg {s : RealSensor} {B : List (Fin 6 → ℝ)} (hM : 0 < s.maxN) (hW : 0 ≤ s.maxWellFill) : 0 ≤ s.cut B := by
  unfold RealSensor.cut
  split_ifs with h
  · exact zero_le_one
  · have : 0 ≤ s.maxWellFill * s.maxN := by positivity
    exact div_nonneg this (this.trans (not_le.mp h).le)

theorem noise_pos {s : RealSensor} {B : List (Fin 6 → ℝ)} (hM : 0 < s.maxN) (hW : 0 ≤ s.maxWellFill)
    (hb : 0 < s.bitDepth) (hc : 0 ≤ s.brightest B) : 0 < s.noise B := by
  unfold RealSensor.noise
  apply Real.sqrt_pos.mpr
  have h12 : (0 : ℝ) < Real.sqrt 12 := Real.sqrt_pos.mpr (by norm_num)
  have h1 := twelve_bits hb
  have h2 : 0 < (s.maxN / (Real.sqrt 12 * ((2 : ℝ) ^ s.bitDepth - 1))) ^ 2 := by positivity
  have h3 := mul_nonneg (cut_nonneg (s := s) (B := B) hM hW) hc
  have h4 : 0 ≤ (s.otherNoise.map (· ^ 2)).sum := by
    apply List.sum_nonneg
    intro x hx
    obtain ⟨y, -, rfl⟩ := List.mem_map.mp hx
    positivity
  positivity

/-- Everything the SNR calculation reports that later steps use. -/
theorem snr_imaging {s : RealSensor} (hs : s.Usable) {B : List (Fin 6 → ℝ)} (hB : ∀ a ∈ B, 0 < a 0)
    (hM : 0 < s.maxN) (hW : 0 ≤ s.maxWellFill) (hb : 0 < s.bitDepth) (hc : 0 ≤ s.brightest B) :
    ∃ m, photonDetectorSNR s.toSensor (vec B.length fun i => B.getD i 0 0)
        (vec B.length fun i => s.targetAt (B.getD i 0)) (vec B.length fun i => s.backgroundAt (B.getD i 0)) = .ok m
      ∧ m.intTime = .fin (s.exposure B)
      ∧ m.totalNoise = .fin (s.noise B)
      ∧ m.snr = .fin (s.contrastSNR B)
      ∧ m.signalNoise = XR.sqrt (.fin (s.cut B * s.brightest B))
      ∧ m.weights = vec B.length (fun i => s.spectral (B.getD i 0 0) (s.targetAt (B.getD i 0)))
      ∧ m.optTrans = vec B.length (fun i => s.transAt (B.getD i 0 0))
      ∧ m.qe = vec B.length (fun i => tableAt s.qe (B.getD i 0 0))
      ∧ m.otherIrradiance = vec B.length (fun i => s.selfAt (B.getD i 0 0))
      ∧ m.tgtFPAIrradiance = vec B.length (fun i => s.transAt (B.getD i 0 0)
          * (apertureFactor s.D s.f * s.targetAt (B.getD i 0)) + s.selfAt (B.getD i 0 0))
      ∧ m.bkgFPAIrradiance = vec B.length (fun i => s.transAt (B.getD i 0 0)
          * (apertureFactor s.D s.f * s.backgroundAt (B.getD i 0)) + s.selfAt (B.getD i 0 0)) := by
  have hl : ∀ i < B.length, 0 < B.getD i 0 0 := by
    intro i hi
    rw [List.getD_eq_getElem _ _ hi]
    exact hB _ (List.getElem_mem hi)
  obtain ⟨m, h, h1, h2, h3, -⟩ := snr_total hs hl (fun i => s.targetAt (B.getD i 0))
    (fun i => s.backgroundAt (B.getD i 0))
  obtain ⟨sc, g1, g2, g3, g4, ⟨w, g5⟩, g6, g7, g8, g9, -, g11, g12, -, g14, -, g16, g17⟩ := snr_inv h
  rw [systemTransmission_vec hs, Except.ok.injEq] at g1
  rw [qe_vec hs, Except.ok.injEq] at g2
  rw [selfEmission_vec hs hl, Except.ok.injEq] at g3
  rw [← g1, ← g2, ← g3, sensorRate_vec hs] at g4 g5
  simp only [Except.ok.injEq, Prod.mk.injEq] at g4 g5
  have hsc : sc.val = .fin (s.cut B) := by
    rw [h1, h2] at g6
    change checkWellFill (.np (XR.max (XR.fin _ * .fin s.intTime * .fin s.nTdi)
      (XR.fin _ * .fin s.intTime * .fin s.nTdi))) (.py (.fin s.maxWellFill * .fin s.maxN)) = .ok sc at g6
    simp only [XR.fin_mul, XR.fin_max] at g6
    change checkWellFill (.np (.fin (s.brightest B))) (.py (.fin (s.maxWellFill * s.maxN))) = .ok sc at g6
    unfold checkWellFill at g6
    simp only [Scal.val_py, Scal.val_np, XR.fin_lt] at g6
    unfold RealSensor.cut
    have h0 : 0 ≤ s.maxWellFill * s.maxN := by positivity
    split_ifs at g6 with hlt
    · have := Scal.div_ok_val g6
      rw [Scal.val_py, Scal.val_np, XR.fin_div _ (h0.trans_lt hlt).ne'] at this
      rw [if_neg (not_le.mpr hlt), this]
    · rw [Except.ok.injEq] at g6
      rw [if_pos (not_lt.mp hlt), ← g6]
      rfl
  have n1 : m.tgtN = .fin (s.cut B * s.electrons B s.targetAt) := by
    rw [g7, hsc, h1]
    exact rfl
  have n2 : m.bkgN = .fin (s.cut B * s.electrons B s.backgroundAt) := by
    rw [g8, hsc, h2]
    exact rfl
  have hmax : max (s.cut B * s.electrons B s.targetAt) (s.cut B * s.electrons B s.backgroundAt)
      = s.cut B * s.brightest B := (mul_max_of_nonneg _ _ (cut_nonneg hM hW)).symm
  have h0 := mul_nonneg (cut_nonneg (s := s) (B := B) hM hW) hc
  have hO : 0 ≤ (s.otherNoise.map (· ^ 2)).sum := by
    apply List.sum_nonneg
    intro x hx
    obtain ⟨y, -, rfl⟩ := List.mem_map.mp hx
    positivity
  have hn : m.totalNoise = .fin (s.noise B) := by
    rw [g16, g12, n1, n2, XR.fin_max, hmax, XR.fin_sqrt h0, g14]
    change XR.sqrt (XR.fin _ ^ 2 + quantizationNoise (.fin s.maxN) s.bitDepth ^ 2 + XR.fin s.readNoise ^ 2
      + asum ((s.otherNoise.map XR.fin).map (· ^ 2))) = _
    have : (s.otherNoise.map XR.fin).map (· ^ 2) = (s.otherNoise.map (· ^ 2)).map XR.fin := by
      rw [List.map_map, List.map_map]; rfl
    rw [quantizationNoise_fin _ hb, this, asum_fin]
    simp only [XR.fin_pow, XR.fin_add]
    rw [XR.fin_sqrt (by positivity), Real.sq_sqrt h0]
    rfl
  refine ⟨m, h, ?_, hn, ?_, by rw [g12, n1, n2, XR.fin_max, hmax], h3, g1.symm, g2.symm, g3.symm, g4.2.1.symm, g5.2.1.symm⟩
  · rw [g9, hsc]; rfl
  · rw [g17, g11, n1, n2, hn, XR.fin_sub, XR.fin_div _ (noise_pos hM hW hb hc).ne', ← mul_sub]
    rfl

theorem photonNoise_value {s : RealSensor} {B : List (Fin 6 → ℝ)} {m : SNRMetrics} (L : (Fin 6 → ℝ) → ℝ)
    (h1 : m.intTime = .fin (s.exposure B)) (h2 : m.qe = vec B.length (fun i => tableAt s.qe (B.getD i 0 0)))
    (h3 : m.otherIrradiance = vec B.length (fun i => s.selfAt (B.getD i 0 0))) :
    photonNoise s.toSensor m (vec B.length fun i => B.getD i 0 0) (vec B.length (fun i => s.transAt (B.getD i 0 0)
          * (apertureFactor s.D s.f * L (B.getD i 0)) + s.selfAt (B.getD i 0 0)))
      = .ok (XR.sqrt (.fin (s.photons B L))) := by
  unfold photonNoise
  rw [h3, bc2_vec (g := (· - ·)) (fun a b => by rw [XR.fin_sub]), ok_bind, h2]
  change photonDetectionRate _ (.fin s.wX) (.fin s.wY) _ _ >>= _ = _
  rw [photonDetectionRate_vec, ok_bind, trapz_vec, ok_bind, h1]
  change Except.ok (XR.sqrt (XR.fin _ * .fin _ * .fin s.nTdi)) = _
  rw [XR.fin_mul, XR.fin_mul]
  congr 3
  unfold RealSensor.photons
  congr 2
  apply trap_congr
  intro i _
  unfold spectralRate
  rw [add_sub_cancel_right, add_zero]

theorem pathRate_value {s : RealSensor} (hs : s.Usable) (B : List (Fin 6 → ℝ)) :
    ∃ a b, signalRate (vec B.length fun i => B.getD i 0 0) ((realAtm B).map fun r => r 2 + r 4)
      (vec B.length (fun i => s.transAt (B.getD i 0 0))) (.py s.toSensor.D) (.py s.toSensor.f) s.toSensor.wX
      s.toSensor.wY (vec B.length (fun i => tableAt s.qe (B.getD i 0 0))) [0] 0
      = .ok (.fin (trap B.length (fun i => B.getD i 0 0) (fun i => spectralRate s.D s.f s.wX s.wY (B.getD i 0 0)
          (pathAt (B.getD i 0)) (s.transAt (B.getD i 0 0)) (tableAt s.qe (B.getD i 0 0)) 0)), a, b) := by
  have e : (realAtm B).map (fun r => r 2 + r 4) = vec B.length fun i => pathAt (B.getD i 0) := by
    rw [← map_vec, realAtm, List.map_map]
    apply List.map_congr_left
    intro a _
    show XR.fin _ + XR.fin _ = _
    rw [XR.fin_add]; rfl
  have h := signalRate_vec (D := .py (.fin s.D)) (f := .py (.fin s.f)) (d := s.D) (fl := s.f) rfl rfl hs.aperture
    B.length (fun i => B.getD i 0 0)
    (fun i => pathAt (B.getD i 0)) (fun i => s.transAt (B.getD i 0 0)) (fun i => tableAt s.qe (B.getD i 0 0))
    (fun _ => 0) s.wX s.wY 0
  rw [add_zero] at h
  rw [e]
  refine ⟨_, _, Eq.trans ?_ h⟩
  change signalRate _ _ _ (.py (.fin s.D)) (.py (.fin s.f)) (.fin s.wX) (.fin s.wY) _ _ _ = _
  unfold signalRate
  have hz : ∀ x : List XR, (∃ y, x = vec B.length y) → bc2 (· + ·) x [0] = bc2 (· + ·) x (vec B.length fun _ => 0) := by
    rintro x ⟨y, rfl⟩
    rw [bc2_single, bc2_vec_add]
    congr 1
    exact vec_map (g := fun x => x + 0) (fun x => by rw [XR.zero_def, XR.fin_add]) _ _
  rw [atFocal_vec rfl rfl hs.aperture, ok_bind, bc2_vec_mul, ok_bind, hz _ ⟨_, rfl⟩, ok_bind, bc2_vec_mul, ok_bind]
  rfl

theorem band_lists (s : RealSensor) (B : List (Fin 6 → ℝ)) :
    ((vec B.length fun i => B.getD i 0 0).zip
        (vec B.length fun i => s.spectral (B.getD i 0 0) (s.targetAt (B.getD i 0)))).filter (fun p => XR.lt 0 p.2)
      = (s.band B).map fun p => (XR.fin p.1, XR.fin p.2) := by
  rw [← map_vec B (fun a => a 0), ← map_vec B (fun a => s.spectral (a 0) (s.targetAt a)), List.zip_map',
    RealSensor.band, List.filter_map, List.filter_map, List.map_map]
  rfl

theorem imaging_band {s : RealSensor} {B : List (Fin 6 → ℝ)} (hB : ∀ a ∈ B, 0 < a 0) (hd : (B.map (· 0)).Nodup)
    (hl : ∃ a ∈ B, 0 < s.spectral (a 0) (s.targetAt a)) : Band (s.band B) := by
  have hw : ∀ p ∈ s.band B, 0 < p.2 := by
    intro p hp
    have := (List.mem_filter.mp hp).2
    simpa using this
  refine ⟨?_, ?_, fun p hp => (hw p hp).le, ?_⟩
  · refine List.Nodup.sublist (List.Sublist.map _ List.filter_sublist) ?_
    rw [List.map_map]
    exact hd
  · intro p hp
    obtain ⟨a, ha, rfl⟩ := List.mem_map.mp (List.mem_filter.mp hp).1
    exact hB a ha
  · obtain ⟨a, ha, hpos⟩ := hl
    have hm : (a 0, s.spectral (a 0) (s.targetAt a)) ∈ s.band B :=
      List.mem_filter.mpr ⟨List.mem_map.mpr ⟨a, ha, rfl⟩, by simpa using hpos⟩
    have hmem : s.spectral (a 0) (s.targetAt a) ∈ (s.band B).map (·.2) := List.mem_map.mpr ⟨_, hm, rfl⟩
    refine lt_of_lt_of_le hpos (List.single_le_sum ?_ _ hmem)
    intro x hx
    obtain ⟨p, hp, rfl⟩ := List.mem_map.mp hx
    exact (hw p hp).le

/-- Everything computed before the OTFs. -/
theorem niirsMid_value {s : RealSensor} (hs : s.Usable) {B : List (Fin 6 → ℝ)} (hB : ∀ a ∈ B, 0 < a 0)
    (hl : ∃ a ∈ B, 0 < s.spectral (a 0) (s.targetAt a))
    (hM : 0 < s.maxN) (hW : 0 ≤ s.maxWellFill) (hb : 0 < s.bitDepth) (hc : 0 ≤ s.brightest B) :
    ∃ (m : NiirsMid) (c : ℝ), niirsMid s.toSensor (realAtm B) = .ok m
      ∧ m.wl = B.map (fun a => .fin (a 0))
      ∧ m.tgtRadiance = B.map (fun a => .fin (s.targetAt a))
      ∧ m.bkgRadiance = B.map (fun a => .fin (s.backgroundAt a))
      ∧ m.snr.intTime = .fin (s.exposure B)
      ∧ m.snr.totalNoise = .fin (s.noise B)
      ∧ m.snr.snr = .fin (s.contrastSNR B)
      ∧ photonDetectorSNR s.toSensor m.wl m.tgtRadiance m.bkgRadiance = .ok m.snr
      ∧ m.mtfWavelengths = (s.band B).map (fun p => .fin p.1)
      ∧ m.mtfWeights = (s.band B).map (fun p => .fin p.2)
      ∧ s.Cutoff B c ∧ m.cutoff = .fin c
      ∧ m.pathNoise = XR.sqrt (.fin (s.photons B pathAt))
      ∧ m.sceneNoise = XR.sqrt (XR.max (XR.sqrt (.fin (s.photons B s.targetAt)))
          (XR.sqrt (.fin (s.photons B s.backgroundAt))) ^ 2 - XR.sqrt (.fin (s.photons B pathAt)) ^ 2) := by
  obtain ⟨q, h, t1, t2, t3, -, t4, t5, t6, t7, t8, t9⟩ := snr_imaging hs hB hM hW hb hc
  have ewl : (realAtm B).map (· 0) = vec B.length fun i => B.getD i 0 0 := by
    rw [realAtm_vec, vecAtm_wl]
  have hne : s.band B ≠ [] := by
    obtain ⟨a, ha, hpos⟩ := hl
    have hm : (a 0, s.spectral (a 0) (s.targetAt a)) ∈ s.band B :=
      List.mem_filter.mpr ⟨List.mem_map.mpr ⟨a, ha, rfl⟩, by simpa using hpos⟩
    exact List.ne_nil_of_mem hm
  obtain ⟨lam, a1, a2, a3⟩ := amin_fin (xs := (s.band B).map (·.1)) (by simpa using hne)
  obtain ⟨p0, hp0, rfl⟩ := List.mem_map.mp a2
  have hpos : 0 < p0.1 := by
    obtain ⟨a, ha, he⟩ := List.mem_map.mp (List.mem_filter.mp hp0).1
    rw [← he]
    exact hB a ha
  obtain ⟨r1, r2, hp⟩ := pathRate_value hs B
  unfold niirsMid
  rw [giqe_values s hB]
  dsimp only
  rw [ewl, h, ok_bind, t8, photonNoise_value _ t1 t6 t7, ok_bind, t9, photonNoise_value _ t1 t6 t7, ok_bind, t5, t6,
    hp, ok_bind]
  dsimp only
  rw [t4, band_lists]
  have e1 : ((s.band B).map fun p => (XR.fin p.1, XR.fin p.2)).map (·.1) = ((s.band B).map (·.1)).map XR.fin := by
    rw [List.map_map, List.map_map]; rfl
  have e2 : ((s.band B).map fun p => (XR.fin p.1, XR.fin p.2)).map (·.2) = (s.band B).map (fun p => .fin p.2) := by
    rw [List.map_map]; rfl
  rw [e1, a1, ok_bind, e2, t1]
  have hpath : XR.fin (trap B.length (fun i => B.getD i 0 0) (fun i => spectralRate s.D s.f s.wX s.wY (B.getD i 0 0)
          (pathAt (B.getD i 0)) (s.transAt (B.getD i 0 0)) (tableAt s.qe (B.getD i 0 0)) 0))
        * .fin (s.exposure B) * s.toSensor.nTdi = .fin (s.photons B pathAt) := rfl
  rw [hpath]
  refine ⟨_, s.D / p0.1, rfl, (map_vec B fun a => a 0).symm, (map_vec B s.targetAt).symm,
    (map_vec B s.backgroundAt).symm, t1, t2, t3, h, ?_, rfl,
    ⟨p0.1, ⟨p0, hp0, rfl⟩, fun p hp => a3 _ (List.mem_map.mpr ⟨p, hp, rfl⟩), rfl⟩, ?_, rfl, rfl⟩
  · rw [List.map_map]; rfl
  · exact XR.fin_div _ hpos.ne'

end PyBSM
