import Verif.Props.NiirsValue
import Verif.Props.Photoelectrons
import Verif.Lemmas.Coherence

/-!
# C72: the noise breakout of `niirs` and `niirs5` adds up
-/

noncomputable section

open Classical

namespace PyBSM

open Spec

/-- What makes photon counts nonnegative: a physical sensor, in-band rows in the order of increasing wavelength with
nonnegative transmissions and radiances. -/
structure Spec.Counting (s : RealSensor) (B : List (Fin 6 → ℝ)) : Prop where
  physical : s.Physical
  increasing : (B.map (· 0)).Pairwise (· < ·)
  transmission : ∀ a ∈ B, 0 ≤ a 1
  path : ∀ a ∈ B, 0 ≤ a 2
  scattered : ∀ a ∈ B, 0 ≤ a 4
  reflected : ∀ a ∈ B, 0 ≤ a 5
  exposure : 0 ≤ s.intTime
  tdi : 0 ≤ s.nTdi

theorem counting_step {B : List (Fin 6 → ℝ)} (h : (B.map (· 0)).Pairwise (· < ·)) {i : ℕ} (hi : i + 1 < B.length) :
    B.getD i 0 0 < B.getD (i + 1) 0 0 := by
  have := List.pairwise_iff_getElem.mp h i (i + 1) (by simp; omega) (by simp; omega) (by omega)
  rw [List.getD_eq_getElem _ _ (by omega), List.getD_eq_getElem _ _ hi]
  simpa using this

theorem getD_mem {B : List (Fin 6 → ℝ)} {i : ℕ} (hi : i < B.length) : B.getD i 0 ∈ B := by
  rw [List.getD_eq_getElem _ _ hi]; exact List.getElem_mem hi

/-- Standard targets are at least as bright as the path. -/
theorem path_le_grey {a : Fin 6 → ℝ} (h0 : 0 < a 0) (h1 : 0 ≤ a 1) (h5 : 0 ≤ a 5) {r T : ℝ} (hr : 0 ≤ r) (hr1 : r ≤ 1)
    (hT : 0 < T) : pathAt a ≤ greyRadiance a r T := by
  unfold pathAt greyRadiance
  have hp := (planck_pos h0 hT).le
  have : 0 ≤ (1 - r) * a 1 * planck (a 0) T := mul_nonneg (mul_nonneg (by linarith) h1) hp
  have : 0 ≤ a 5 * r / 0.15 := by positivity
  linarith

theorem path_le_target {s : RealSensor} {a : Fin 6 → ℝ} (h0 : 0 < a 0) (h1 : 0 ≤ a 1) (h5 : 0 ≤ a 5) :
    pathAt a ≤ s.targetAt a := by
  unfold RealSensor.targetAt
  split_ifs <;> exact path_le_grey h0 h1 h5 (by norm_num) (by norm_num) (by norm_num)

theorem path_le_background {s : RealSensor} {a : Fin 6 → ℝ} (h0 : 0 < a 0) (h1 : 0 ≤ a 1) (h5 : 0 ≤ a 5) :
    pathAt a ≤ s.backgroundAt a := by
  unfold RealSensor.backgroundAt
  split_ifs <;> exact path_le_grey h0 h1 h5 (by norm_num) (by norm_num) (by norm_num)

theorem spectralRate_mono {s : RealSensor} (hp : s.Physical) {lam l l' : ℝ} (hl : 0 < lam) (h : l ≤ l') :
    spectralRate s.D s.f s.wX s.wY lam l (s.transAt lam) (tableAt s.qe lam) 0
      ≤ spectralRate s.D s.f s.wX s.wY lam l' (s.transAt lam) (tableAt s.qe lam) 0 := by
  unfold spectralRate
  have h1 := tableAt_nonneg hp.qe lam
  have h2 := tableAt_nonneg hp.transmission lam
  have h3 : 0 ≤ s.transAt lam := by
    unfold RealSensor.transAt
    have := hp.coldFilter
    have : 0 ≤ 1 - s.eta ^ 2 := by linarith [hp.eta]
    positivity
  have h4 := apertureFactor_pos s.D s.f
  have h5 := planckH_pos
  have h6 := lightC_pos
  have h7 := hp.width
  gcongr

theorem exposure_nonneg {s : RealSensor} {B : List (Fin 6 → ℝ)} (hM : 0 < s.maxN) (hW : 0 ≤ s.maxWellFill)
    (ht : 0 ≤ s.intTime) : 0 ≤ s.exposure B := mul_nonneg (cut_nonneg hM hW) ht

theorem photons_mono {s : RealSensor} {B : List (Fin 6 → ℝ)} (hM : 0 < s.maxN) (hW : 0 ≤ s.maxWellFill)
    (hB : ∀ a ∈ B, 0 < a 0) (hc : Counting s B) {L L' : (Fin 6 → ℝ) → ℝ} (h : ∀ a ∈ B, L a ≤ L' a) :
    s.photons B L ≤ s.photons B L' := by
  unfold RealSensor.photons
  have := exposure_nonneg (B := B) hM hW hc.exposure
  have := hc.tdi
  apply mul_le_mul_of_nonneg_right _ this
  apply mul_le_mul_of_nonneg_right _ (by assumption)
  exact trap_mono (fun i hi => (counting_step hc.increasing hi).le)
    (fun i hi => spectralRate_mono hc.physical (hB _ (getD_mem hi)) (h _ (getD_mem hi)))

theorem photons_zero (s : RealSensor) (B : List (Fin 6 → ℝ)) : s.photons B (fun _ => 0) = 0 := by
  unfold RealSensor.photons spectralRate
  simp [trap]

/-- Photoelectrons per second of the camera's own emission. -/
def Spec.RealSensor.ownRate (s : RealSensor) (B : List (Fin 6 → ℝ)) : ℝ :=
  trap B.length (fun i => B.getD i 0 0) fun i => B.getD i 0 0 / (planckH * lightC) * tableAt s.qe (B.getD i 0 0)
    * (s.wX * s.wY) * s.selfAt (B.getD i 0 0)

theorem electrons_split (s : RealSensor) (B : List (Fin 6 → ℝ)) (L : (Fin 6 → ℝ) → ℝ) :
    s.cut B * s.electrons B L = s.photons B L + s.ownRate B * s.exposure B * s.nTdi
      + s.nTdi * s.darkCurrent * s.exposure B := by
  have e : trap B.length (fun i => B.getD i 0 0) (fun i => s.spectral (B.getD i 0 0) (L (B.getD i 0)))
      = trap B.length (fun i => B.getD i 0 0) (fun i => spectralRate s.D s.f s.wX s.wY (B.getD i 0 0) (L (B.getD i 0))
          (s.transAt (B.getD i 0 0)) (tableAt s.qe (B.getD i 0 0)) 0) + s.ownRate B := by
    unfold RealSensor.ownRate
    rw [← trap_add]
    apply trap_congr
    intro i _
    unfold RealSensor.spectral spectralRate
    ring
  unfold RealSensor.electrons RealSensor.rate RealSensor.photons RealSensor.exposure
  rw [e]
  ring

/-- The radiometric part of the breakout. -/
theorem breakout_value {s : RealSensor} {g : RealScene} {B : List (Fin 6 → ℝ)} {m : Metrics} (hs : s.Usable)
    (hB : ∀ a ∈ B, 0 < a 0) (hM : 0 < s.maxN) (hW : 0 ≤ s.maxWellFill) (hb : 0 < s.bitDepth)
    (hn : 0 ≤ s.brightest B)
    (hc : Counting s B) (hr : Radiometry s g B m)
    (hp : m.pathNoise = XR.sqrt (.fin (s.photons B pathAt)))
    (hq : m.sceneNoise = XR.sqrt (XR.max (XR.sqrt (.fin (s.photons B s.targetAt)))
      (XR.sqrt (.fin (s.photons B s.backgroundAt))) ^ 2 - XR.sqrt (.fin (s.photons B pathAt)) ^ 2)) :
    ∃ p q d e t : ℝ, m.pathNoise = .fin p ∧ m.sceneNoise = .fin q ∧ m.snr.darkCurrentNoise = .fin d
      ∧ m.snr.selfEmissionNoise = .fin e ∧ m.snr.signalNoise = .fin t
      ∧ 0 ≤ p ∧ 0 ≤ q ∧ 0 ≤ d ∧ 0 ≤ e ∧ 0 ≤ t
      ∧ p ^ 2 = s.photons B pathAt
      ∧ p ^ 2 + q ^ 2 = max (s.photons B s.targetAt) (s.photons B s.backgroundAt)
      ∧ d ^ 2 = s.nTdi * s.darkCurrent * s.exposure B
      ∧ e ^ 2 = s.ownRate B * s.exposure B * s.nTdi
      ∧ t ^ 2 = p ^ 2 + q ^ 2 + d ^ 2 + e ^ 2 := by
  have hE := exposure_nonneg (B := B) hM hW hc.exposure
  have hK := hc.tdi
  have hPT : s.photons B pathAt ≤ s.photons B s.targetAt := photons_mono hM hW hB hc
    fun a ha => path_le_target (hB a ha) (hc.transmission a ha) (hc.reflected a ha)
  have hPB : s.photons B pathAt ≤ s.photons B s.backgroundAt := photons_mono hM hW hB hc
    fun a ha => path_le_background (hB a ha) (hc.transmission a ha) (hc.reflected a ha)
  have hP : 0 ≤ s.photons B pathAt := by
    have := photons_mono hM hW hB hc (L := fun _ => 0) (L' := pathAt)
      fun a ha => add_nonneg (hc.path a ha) (hc.scattered a ha)
    rwa [photons_zero] at this
  have hown : 0 ≤ s.ownRate B := by
    apply trap_nonneg (fun i hi => (counting_step hc.increasing hi).le)
    intro i hi
    have h0 := hB _ (getD_mem hi)
    have h1 := selfAt_nonneg hs hc.physical h0
    have h2 := tableAt_nonneg hc.physical.qe (B.getD i 0 0)
    have h3 := hc.physical.width
    have := planckH_pos
    have := lightC_pos
    positivity
  have hl : ∀ i < B.length, 0 < B.getD i 0 0 := fun i hi => hB _ (getD_mem hi)
  obtain ⟨m', h1, -, -, -, h5⟩ := snr_total hs hl (fun i => s.targetAt (B.getD i 0)) (fun i => s.backgroundAt (B.getD i 0))
  have hdet := hr.detector
  have w1 : m.radianceWavelengths = vec B.length fun i => B.getD i 0 0 := by rw [hr.wavelengths, ← map_vec B fun a => a 0]
  have w2 : m.tgtRadiance = vec B.length fun i => s.targetAt (B.getD i 0) := by rw [hr.target, ← map_vec]
  have w3 : m.bkgRadiance = vec B.length fun i => s.backgroundAt (B.getD i 0) := by rw [hr.background, ← map_vec]
  rw [w1, w2, w3] at hdet
  have hm : m' = m.snr := by rw [h1] at hdet; exact Except.ok.inj hdet
  subst hm
  obtain ⟨sc, -, -, -, -, -, -, n1, n2, n3, -, -, n6, n7, -⟩ := snr_inv hdet
  have hsg : m.snr.signalNoise = XR.sqrt (.fin (s.cut B * s.brightest B)) := by
    obtain ⟨q', t0, -, -, -, t4, -⟩ := snr_imaging hs hB hM hW hb hn
    rw [t0] at hdet
    rw [← Except.ok.inj hdet, t4]
  have hdk : m.snr.darkCurrentNoise = XR.sqrt (.fin (s.nTdi * s.darkCurrent * s.exposure B)) := by
    rw [n7, hr.exposure]
    change XR.sqrt (XR.fin s.nTdi * .fin s.darkCurrent * .fin _) = _
    rw [XR.fin_mul, XR.fin_mul]
  have hself : m.snr.selfEmissionNoise = XR.sqrt (.fin (s.ownRate B * s.exposure B * s.nTdi)) := by
    rw [h5, hr.exposure, XR.fin_mul, XR.fin_mul]
    rfl
  have hd0 : 0 ≤ s.nTdi * s.darkCurrent * s.exposure B := mul_nonneg (mul_nonneg hK hc.physical.dark) hE
  have he0 : 0 ≤ s.ownRate B * s.exposure B * s.nTdi := by positivity
  have hT0 := hP.trans hPT
  have hB0 := hP.trans hPB
  have hcut := cut_nonneg (s := s) (B := B) hM hW
  have hmax : Real.sqrt (s.photons B s.targetAt) ⊔ Real.sqrt (s.photons B s.backgroundAt)
      = Real.sqrt (max (s.photons B s.targetAt) (s.photons B s.backgroundAt)) :=
    (Monotone.map_max (f := Real.sqrt) fun _ _ h => Real.sqrt_le_sqrt h).symm
  have hM0 : 0 ≤ max (s.photons B s.targetAt) (s.photons B s.backgroundAt) := le_max_of_le_left hT0
  have hdiff : 0 ≤ max (s.photons B s.targetAt) (s.photons B s.backgroundAt) - s.photons B pathAt :=
    sub_nonneg.mpr (le_max_of_le_left hPT)
  have hscene : m.sceneNoise = .fin (Real.sqrt (max (s.photons B s.targetAt) (s.photons B s.backgroundAt)
      - s.photons B pathAt)) := by
    rw [hq, XR.fin_sqrt hT0, XR.fin_sqrt hB0, XR.fin_sqrt hP, XR.fin_max, hmax, XR.fin_pow, XR.fin_pow, XR.fin_sub,
      Real.sq_sqrt hM0, Real.sq_sqrt hP, XR.fin_sqrt hdiff]
  have hsig0 : 0 ≤ s.cut B * s.brightest B := mul_nonneg hcut hn
  rw [XR.fin_sqrt hsig0] at hsg
  rw [XR.fin_sqrt hd0] at hdk
  rw [XR.fin_sqrt he0] at hself
  rw [XR.fin_sqrt hP] at hp
  refine ⟨_, _, _, _, _, hp, hscene, hdk, hself, hsg, Real.sqrt_nonneg _, Real.sqrt_nonneg _, Real.sqrt_nonneg _,
    Real.sqrt_nonneg _, Real.sqrt_nonneg _, Real.sq_sqrt hP, ?_, Real.sq_sqrt hd0, Real.sq_sqrt he0, ?_⟩
  · rw [Real.sq_sqrt hP, Real.sq_sqrt hdiff]; ring
  · rw [Real.sq_sqrt hP, Real.sq_sqrt hdiff, Real.sq_sqrt hd0, Real.sq_sqrt he0, Real.sq_sqrt hsig0]
    unfold RealSensor.brightest
    rw [mul_max_of_nonneg _ _ hcut, electrons_split, electrons_split]
    rw [max_add_add_right, max_add_add_right]
    ring

/-- **C72** (`niirs`): for a physical sensor and nonnegative radiances all the noise terms that `niirs` reports are
finite. The path noise is the shot noise of the light from the path alone, path and scene noise together are the shot
noise of the brighter of target and background, and with the dark current and the camera's own emission they make up
exactly the signal noise. -/
theorem C72_niirs {env : Env} {s : RealSensor} {g : RealScene} {sc : Scenario} {interp : Bool}
    {B : List (Fin 6 → ℝ)} (h : Imaging env s g sc interp B) (hk : s.filterKernel.flatten.sum = 1)
    (hc : Counting s B) :
    ∃ (m : Metrics) (p q d e t : ℝ), (niirs env s.toSensor sc interp).1 = .ok m
      ∧ m.pathNoise = .fin p ∧ m.sceneNoise = .fin q ∧ m.snr.darkCurrentNoise = .fin d
      ∧ m.snr.selfEmissionNoise = .fin e ∧ m.snr.signalNoise = .fin t
      ∧ 0 ≤ p ∧ 0 ≤ q ∧ 0 ≤ d ∧ 0 ≤ e ∧ 0 ≤ t
      ∧ p ^ 2 = s.photons B pathAt
      ∧ p ^ 2 + q ^ 2 = max (s.photons B s.targetAt) (s.photons B s.backgroundAt)
      ∧ d ^ 2 = s.nTdi * s.darkCurrent * s.exposure B
      ∧ e ^ 2 = s.ownRate B * s.exposure B * s.nTdi
      ∧ t ^ 2 = p ^ 2 + q ^ 2 + d ^ 2 + e ^ 2 := by
  obtain ⟨m, c, eu, ev, φ, rer, eho, n4, gp, h1, h2, -, h4, h5, -⟩ := niirs_value h hk
  obtain ⟨p, q, d, e, t, hh⟩ := breakout_value h.usable h.wavelengths h.well h.fill h.bits h.counts hc h2 h4 h5
  exact ⟨m, p, q, d, e, t, h1, hh⟩

/-- **C72** (`niirs5`): the same holds of what `niirs5` reports. -/
theorem C72_niirs5 {env : Env} {s : RealSensor} {g : RealScene} {sc : Scenario} {interp : Bool}
    {B : List (Fin 6 → ℝ)} (h : Imaging env s g sc interp B) (hc : Counting s B) :
    ∃ (m : Metrics) (p q d e t : ℝ), (niirs5 env s.toSensor sc interp).1 = .ok m
      ∧ m.pathNoise = .fin p ∧ m.sceneNoise = .fin q ∧ m.snr.darkCurrentNoise = .fin d
      ∧ m.snr.selfEmissionNoise = .fin e ∧ m.snr.signalNoise = .fin t
      ∧ 0 ≤ p ∧ 0 ≤ q ∧ 0 ≤ d ∧ 0 ≤ e ∧ 0 ≤ t
      ∧ p ^ 2 = s.photons B pathAt
      ∧ p ^ 2 + q ^ 2 = max (s.photons B s.targetAt) (s.photons B s.backgroundAt)
      ∧ d ^ 2 = s.nTdi * s.darkCurrent * s.exposure B
      ∧ e ^ 2 = s.ownRate B * s.exposure B * s.nTdi
      ∧ t ^ 2 = p ^ 2 + q ^ 2 + d ^ 2 + e ^ 2 := by
  obtain ⟨m, c, φ, gw, rer, h1, h2, -, h4, h5, -⟩ := niirs5_value h
  obtain ⟨p, q, d, e, t, hh⟩ := breakout_value h.usable h.wavelengths h.well h.fill h.bits h.counts hc h2 h4 h5
  exact ⟨m, p, q, d, e, t, h1, hh⟩

end PyBSM
