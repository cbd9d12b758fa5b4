import Verif.Spec.Haze
import Verif.Props.NiirsValue
import Verif.Props.SimulateResults
import Verif.Props.SimulateDemo
import Verif.Props.Compare
import Verif.Props.Encoding
import Verif.Props.Split

/-!
# C139: what the air between camera and scene does to signal-to-noise ratio and image contrast

`niirs` and `niirs5` reduce the air to six numbers per wavelength. Air that passes a smaller fraction of the scene's light
(the same at every wavelength) and is at least as bright itself never gives a larger signal-to-noise ratio: not in the
shot-noise limit, not in the read-noise limit, and not where the exposure is cut to fit the well. In simulated images
pixels move closer together, absolutely and relative to their sum.
-/

noncomputable section

open Classical

namespace PyBSM

open Spec

/-! ## Light of the scene and light of the air -/

/-- What the scene itself contributes to the radiance at the camera. -/
def sceneLight (a : Fin 6 → ℝ) (ρ T : ℝ) : ℝ := (1 - ρ) * a 1 * planck (a 0) T + a 5 * ρ / 0.15

theorem grey_eq (a : Fin 6 → ℝ) (ρ T : ℝ) : greyRadiance a ρ T = pathAt a + sceneLight a ρ T := by
  unfold greyRadiance pathAt sceneLight
  ring

/-- Electrons per unit radiance. -/
def gainAt (s : RealSensor) (lam : ℝ) : ℝ :=
  lam / (planckH * lightC) * tableAt s.qe lam * (s.wX * s.wY) * (s.transAt lam * apertureFactor s.D s.f)

theorem spectral_affine (s : RealSensor) (lam l : ℝ) : s.spectral lam l = gainAt s lam * l + s.spectral lam 0 := by
  unfold RealSensor.spectral spectralRate gainAt
  ring

theorem gainAt_nonneg {s : RealSensor} (hs : s.Usable) (hp : s.Physical) {lam : ℝ} (hl : 0 < lam) : 0 ≤ gainAt s lam := by
  have h1 := spectral_nonneg hs hp hl (l := 0) le_rfl
  by_contra h
  push Not at h
  have h2 := spectral_nonneg hs hp hl (l := (s.spectral lam 0 + 1) / -(gainAt s lam)) (by
    have : 0 < -(gainAt s lam) := by linarith
    positivity)
  rw [spectral_affine] at h2
  have e : gainAt s lam * ((s.spectral lam 0 + 1) / -(gainAt s lam)) = -(s.spectral lam 0 + 1) := by
    have : gainAt s lam ≠ 0 := h.ne
    rw [div_neg, mul_neg, mul_div_cancel₀ _ this]
  linarith

/-- Electrons of a scene without the light of the air. -/
def sceneElectrons (s : RealSensor) (B : List (Fin 6 → ℝ)) (ρ T : ℝ) : ℝ :=
  trap B.length (fun i => B.getD i 0 0) (fun i => gainAt s (B.getD i 0 0) * sceneLight (B.getD i 0) ρ T) * s.intTime * s.nTdi

theorem electrons_grey (s : RealSensor) (B : List (Fin 6 → ℝ)) (ρ T : ℝ) :
    s.electrons B (fun a => greyRadiance a ρ T) = s.electrons B pathAt + sceneElectrons s B ρ T := by
  unfold RealSensor.electrons sceneElectrons RealSensor.rate
  have e : trap B.length (fun i => B.getD i 0 0) (fun i => s.spectral (B.getD i 0 0) (greyRadiance (B.getD i 0) ρ T))
      = trap B.length (fun i => B.getD i 0 0) (fun i => s.spectral (B.getD i 0 0) (pathAt (B.getD i 0)))
        + trap B.length (fun i => B.getD i 0 0) (fun i => gainAt s (B.getD i 0 0) * sceneLight (B.getD i 0) ρ T) := by
    rw [← trap_add]
    congr 1
    funext i
    rw [grey_eq, spectral_affine, spectral_affine s _ (pathAt _)]
    ring
  rw [e]
  ring

theorem hazier_getD {k : ℝ} {B B' : List (Fin 6 → ℝ)} (h : List.Forall₂ (Hazier k) B B') {i : ℕ} (hi : i < B.length) :
    Hazier k (B.getD i 0) (B'.getD i 0) := by
  have hl := h.length_eq
  rw [List.getD_eq_getElem _ _ hi, List.getD_eq_getElem _ _ (hl ▸ hi)]
  exact List.forall₂_iff_get.mp h |>.2 i hi (hl ▸ hi)

theorem trap_congr_on {n : ℕ} {x x' y y' : ℕ → ℝ} (hx : ∀ i < n, x i = x' i) (hy : ∀ i < n, y i = y' i) : trap n x y = trap n x' y' := by
  unfold trap
  refine Finset.sum_congr rfl fun i hi => ?_
  have := Finset.mem_range.mp hi
  rw [hx i (by omega), hx (i + 1) (by omega), hy i (by omega), hy (i + 1) (by omega)]

theorem sceneElectrons_hazier {s : RealSensor} {k : ℝ} {B B' : List (Fin 6 → ℝ)} (h : List.Forall₂ (Hazier k) B B') (ρ T : ℝ) :
    sceneElectrons s B' ρ T = k * sceneElectrons s B ρ T := by
  unfold sceneElectrons
  rw [← mul_assoc, ← mul_assoc, ← trap_smul, ← h.length_eq]
  congr 2
  refine trap_congr_on (fun i hi => (hazier_getD h hi).wavelength) (fun i hi => ?_)
  have e := hazier_getD h hi
  unfold sceneLight
  rw [e.wavelength, e.transmission, e.reflected]
  ring

theorem sceneElectrons_nonneg {s : RealSensor} (hs : s.Usable) {B : List (Fin 6 → ℝ)} (hB : ∀ a ∈ B, 0 < a 0) (hc : Counting s B)
    {ρ T : ℝ} (h0 : 0 ≤ ρ) (h1 : ρ ≤ 1) (hT : 0 < T) : 0 ≤ sceneElectrons s B ρ T := by
  have : 0 ≤ trap B.length (fun i => B.getD i 0 0) (fun i => gainAt s (B.getD i 0 0) * sceneLight (B.getD i 0) ρ T) := by
    refine trap_nonneg (fun i hi => (counting_step hc.increasing hi).le) (fun i hi => ?_)
    have hm := getD_mem hi
    have hp := path_le_grey (hB _ hm) (hc.transmission _ hm) (hc.reflected _ hm) h0 h1 hT
    rw [grey_eq] at hp
    exact mul_nonneg (gainAt_nonneg hs hc.physical (hB _ hm)) (by linarith)
  have h2 := hc.exposure
  have h3 := hc.tdi
  unfold sceneElectrons
  positivity

theorem path_electrons_nonneg {s : RealSensor} (hs : s.Usable) {B : List (Fin 6 → ℝ)} (hB : ∀ a ∈ B, 0 < a 0) (hc : Counting s B) :
    0 ≤ s.electrons B pathAt := by
  have : 0 ≤ trap B.length (fun i => B.getD i 0 0) (fun i => s.spectral (B.getD i 0 0) (pathAt (B.getD i 0))) := by
    refine trap_nonneg (fun i hi => (counting_step hc.increasing hi).le) (fun i hi => ?_)
    have hm := getD_mem hi
    exact spectral_nonneg hs hc.physical (hB _ hm) (add_nonneg (hc.path _ hm) (hc.scattered _ hm))
  have h1 := hc.physical.dark
  have h2 := hc.exposure
  have h3 := hc.tdi
  unfold RealSensor.electrons RealSensor.rate
  positivity

theorem path_electrons_hazier {s : RealSensor} (hs : s.Usable) {k : ℝ} {B B' : List (Fin 6 → ℝ)} (hB : ∀ a ∈ B, 0 < a 0)
    (hc : Counting s B) (h : List.Forall₂ (Hazier k) B B') : s.electrons B pathAt ≤ s.electrons B' pathAt := by
  have e : 0 ≤ trap B.length (fun i => B.getD i 0 0)
      (fun i => s.spectral (B.getD i 0 0) (pathAt (B'.getD i 0)) + -1 * s.spectral (B.getD i 0 0) (pathAt (B.getD i 0))) := by
    refine trap_nonneg (fun i hi => (counting_step hc.increasing hi).le) (fun i hi => ?_)
    have hm := getD_mem hi
    have hg := gainAt_nonneg hs hc.physical (hB _ hm)
    have hh : pathAt (B.getD i 0) ≤ pathAt (B'.getD i 0) := (hazier_getD h hi).path
    rw [spectral_affine, spectral_affine s _ (pathAt (B.getD i 0))]
    nlinarith [mul_le_mul_of_nonneg_left hh hg]
  rw [trap_add, trap_smul] at e
  have e2 : trap B'.length (fun i => B'.getD i 0 0) (fun i => s.spectral (B'.getD i 0 0) (pathAt (B'.getD i 0)))
      = trap B.length (fun i => B.getD i 0 0) (fun i => s.spectral (B.getD i 0 0) (pathAt (B'.getD i 0))) := by
    rw [← h.length_eq]
    exact trap_congr_on (fun i hi => (hazier_getD h hi).wavelength) (fun i hi => by rw [(hazier_getD h hi).wavelength])
  unfold RealSensor.electrons RealSensor.rate
  rw [e2]
  have h2 := hc.exposure
  have h3 := hc.tdi
  exact mul_le_mul_of_nonneg_right (mul_le_mul_of_nonneg_right (by linarith) h2) h3

/-- Target and background, in clear and in hazy air: the light of the air grows from `P` to `P'`, that of target and
background shrinks from `S` and `U` by the factor `k`. -/
theorem hazier_counts {s : RealSensor} (hs : s.Usable) {k : ℝ} {B B' : List (Fin 6 → ℝ)} (hB : ∀ a ∈ B, 0 < a 0)
    (hc : Counting s B) (h : List.Forall₂ (Hazier k) B B') :
    ∃ P P' S U : ℝ, 0 ≤ P ∧ P ≤ P' ∧ 0 ≤ S ∧ 0 ≤ U
      ∧ s.electrons B s.targetAt = P + S ∧ s.electrons B s.backgroundAt = P + U
      ∧ s.electrons B' s.targetAt = P' + k * S ∧ s.electrons B' s.backgroundAt = P' + k * U := by
  have key : ∀ t : ℝ, 0 ≤ t → t ≤ 1 → ∀ T : ℝ, 0 < T → 0 ≤ sceneElectrons s B t T := fun t h0 h1 T hT =>
    sceneElectrons_nonneg hs hB hc h0 h1 hT
  by_cases ht : s.Thermal
  · refine ⟨_, _, sceneElectrons s B 0 282, sceneElectrons s B 0 280, path_electrons_nonneg hs hB hc,
      path_electrons_hazier hs hB hc h, key _ le_rfl zero_le_one _ (by norm_num), key _ le_rfl zero_le_one _ (by norm_num), ?_⟩
    have e1 : s.targetAt = fun a => greyRadiance a 0 282 := by funext a; unfold RealSensor.targetAt; rw [if_pos ht]
    have e2 : s.backgroundAt = fun a => greyRadiance a 0 280 := by funext a; unfold RealSensor.backgroundAt; rw [if_pos ht]
    rw [e1, e2]
    simp only [electrons_grey, sceneElectrons_hazier h]
    simp
  · refine ⟨_, _, sceneElectrons s B 0.15 282, sceneElectrons s B 0.07 280, path_electrons_nonneg hs hB hc,
      path_electrons_hazier hs hB hc h, key _ (by norm_num) (by norm_num) _ (by norm_num),
      key _ (by norm_num) (by norm_num) _ (by norm_num), ?_⟩
    have e1 : s.targetAt = fun a => greyRadiance a 0.15 282 := by funext a; unfold RealSensor.targetAt; rw [if_neg ht]
    have e2 : s.backgroundAt = fun a => greyRadiance a 0.07 280 := by funext a; unfold RealSensor.backgroundAt; rw [if_neg ht]
    rw [e1, e2]
    simp only [electrons_grey, sceneElectrons_hazier h]
    simp

/-! ## Signal-to-noise ratio -/

/-- The part of the noise that is not shot noise. -/
def otherNoiseSq (s : RealSensor) : ℝ :=
  (s.maxN / (Real.sqrt 12 * ((2 : ℝ) ^ s.bitDepth - 1))) ^ 2 + s.readNoise ^ 2 + (s.otherNoise.map (· ^ 2)).sum

theorem otherNoiseSq_pos {s : RealSensor} (hM : 0 < s.maxN) (hb : 0 < s.bitDepth) : 0 < otherNoiseSq s := by
  have h12 : (0 : ℝ) < Real.sqrt 12 := Real.sqrt_pos.mpr (by norm_num)
  have h1 := twelve_bits hb
  have h2 : 0 < (s.maxN / (Real.sqrt 12 * ((2 : ℝ) ^ s.bitDepth - 1))) ^ 2 := by positivity
  have h4 : 0 ≤ (s.otherNoise.map (· ^ 2)).sum := by
    apply List.sum_nonneg
    intro x hx
    obtain ⟨y, -, rfl⟩ := List.mem_map.mp hx
    positivity
  unfold otherNoiseSq
  positivity

/-- Fraction of the exposure used when the brighter signal would give `N` electrons and the well takes `W`. -/
def cutOf (W N : ℝ) : ℝ := if N ≤ W then 1 else W / N

theorem cutOf_nonneg {W N : ℝ} (hW : 0 ≤ W) : 0 ≤ cutOf W N := by
  unfold cutOf
  split_ifs with h
  · exact zero_le_one
  · exact div_nonneg hW (hW.trans (not_le.mp h).le)

theorem cutOf_anti {W N N' : ℝ} (hW : 0 ≤ W) (h : N ≤ N') : cutOf W N' ≤ cutOf W N := by
  unfold cutOf
  split_ifs with h1 h2 h2
  · exact le_rfl
  · exact absurd (h.trans h1) h2
  · exact (div_le_one (hW.trans_lt (not_le.mp h1))).mpr (not_le.mp h1).le
  · exact div_le_div_of_nonneg_left hW (hW.trans_lt (not_le.mp h2)) h

/-- What is collected in the exposure used. -/
theorem cutOf_mul {W N : ℝ} (hW : 0 ≤ W) : cutOf W N * N = min N W := by
  unfold cutOf
  split_ifs with h
  · rw [one_mul, min_eq_left h]
  · have h' := not_le.mp h
    have : N ≠ 0 := (hW.trans_lt h').ne'
    rw [min_eq_right h'.le]
    field_simp

theorem cut_eq (s : RealSensor) (B : List (Fin 6 → ℝ)) : s.cut B = cutOf (s.maxWellFill * s.maxN) (s.brightest B) := rfl

theorem noise_eq (s : RealSensor) (B : List (Fin 6 → ℝ)) :
    s.noise B = Real.sqrt (s.cut B * s.brightest B + otherNoiseSq s) := by
  unfold RealSensor.noise otherNoiseSq
  congr 1
  ring

/-- More light that carries no contrast never helps. -/
theorem snrFactor_anti {W N N' Q : ℝ} (hW : 0 ≤ W) (hN : 0 ≤ N) (h : N ≤ N') (hQ : 0 < Q) :
    cutOf W N' / Real.sqrt (cutOf W N' * N' + Q) ≤ cutOf W N / Real.sqrt (cutOf W N * N + Q) := by
  rw [cutOf_mul hW, cutOf_mul hW]
  have h1 : 0 ≤ min N W := le_min hN hW
  have h2 : min N W ≤ min N' W := min_le_min_right _ h
  exact div_le_div₀ (cutOf_nonneg hW) (cutOf_anti hW h) (Real.sqrt_pos.mpr (by linarith))
    (Real.sqrt_le_sqrt (by linarith))

/-- Attenuating everything never helps. -/
theorem snrFactor_scale {W N k Q : ℝ} (hW : 0 ≤ W) (hN : 0 ≤ N) (hk : 0 < k) (hk1 : k ≤ 1) (hQ : 0 < Q) :
    k * (cutOf W (k * N) / Real.sqrt (cutOf W (k * N) * (k * N) + Q)) ≤ cutOf W N / Real.sqrt (cutOf W N * N + Q) := by
  have hle : k * N ≤ N := mul_le_of_le_one_left hN hk1
  have a0 : 0 ≤ k * cutOf W (k * N) := mul_nonneg hk.le (cutOf_nonneg hW)
  have a1 : k * cutOf W (k * N) ≤ cutOf W N := by
    unfold cutOf
    split_ifs with h1 h2 h2
    · linarith
    · have hN' := hW.trans_lt (not_le.mp h2)
      rw [le_div_iff₀ hN', mul_one]
      exact h1
    · exact absurd (hle.trans h2) h1
    · have hN' := hW.trans_lt (not_le.mp h2)
      apply le_of_eq
      field_simp
  have := ratio_mono a0 a1 hN hQ
  rwa [show k * cutOf W (k * N) * N = cutOf W (k * N) * (k * N) by ring, mul_div_assoc] at this

theorem snr_hazier {s : RealSensor} (hs : s.Usable) (hM : 0 < s.maxN) (hf : 0 ≤ s.maxWellFill) (hb : 0 < s.bitDepth) {k : ℝ}
    (hk : 0 < k) (hk1 : k ≤ 1) {B B' : List (Fin 6 → ℝ)} (hB : ∀ a ∈ B, 0 < a 0) (hc : Counting s B)
    (h : List.Forall₂ (Hazier k) B B') :
    |s.contrastSNR B'| ≤ |s.contrastSNR B| ∧ 0 ≤ s.contrastSNR B * s.contrastSNR B' := by
  obtain ⟨P, P', S, U, hP, hPP, hS, hU, e1, e2, e3, e4⟩ := hazier_counts hs hB hc h
  have hW : 0 ≤ s.maxWellFill * s.maxN := mul_nonneg hf hM.le
  have hQ := otherNoiseSq_pos hM hb
  have n1 : s.brightest B = P + max S U := by unfold RealSensor.brightest; rw [e1, e2, max_add_add_left]
  have n2 : s.brightest B' = P' + k * max S U := by
    unfold RealSensor.brightest
    rw [e3, e4, max_add_add_left, mul_max_of_nonneg _ _ hk.le]
  have hm : 0 ≤ max S U := le_max_of_le_left hS
  have c1 : s.contrastSNR B = (S - U) * (cutOf (s.maxWellFill * s.maxN) (P + max S U)
      / Real.sqrt (cutOf (s.maxWellFill * s.maxN) (P + max S U) * (P + max S U) + otherNoiseSq s)) := by
    unfold RealSensor.contrastSNR
    rw [noise_eq, cut_eq, n1, e1, e2]
    ring
  have c2 : s.contrastSNR B' = (S - U) * (k * (cutOf (s.maxWellFill * s.maxN) (P' + k * max S U)
      / Real.sqrt (cutOf (s.maxWellFill * s.maxN) (P' + k * max S U) * (P' + k * max S U) + otherNoiseSq s))) := by
    unfold RealSensor.contrastSNR
    rw [noise_eq, cut_eq, n2, e3, e4]
    ring
  have f1 := snrFactor_anti (N := k * (P + max S U)) (N' := P' + k * max S U) hW (by positivity) (by nlinarith) hQ
  have f2 := snrFactor_scale (N := P + max S U) hW (by positivity) hk hk1 hQ
  have f3 := (mul_le_mul_of_nonneg_left f1 hk.le).trans f2
  have g0 : 0 ≤ cutOf (s.maxWellFill * s.maxN) (P' + k * max S U)
      / Real.sqrt (cutOf (s.maxWellFill * s.maxN) (P' + k * max S U) * (P' + k * max S U) + otherNoiseSq s) :=
    div_nonneg (cutOf_nonneg hW) (Real.sqrt_nonneg _)
  have g1 := mul_nonneg hk.le g0
  rw [c1, c2]
  constructor
  · rw [abs_mul (S - U), abs_mul (S - U), abs_of_nonneg g1, abs_of_nonneg (g1.trans f3)]
    exact mul_le_mul_of_nonneg_left f3 (abs_nonneg _)
  · have h1 := mul_nonneg (g1.trans f3) g1
    nlinarith [mul_nonneg (sq_nonneg (S - U)) h1]

/-- **C139** (ratings): two databases whose air differs, for what a sensor sees in a scene, by a factor `k ≤ 1` on the light of the
scene and by additional light of the air (`Hazier`, row by row). `niirs5`, and `niirs` for kernels it accepts, report in the
hazier air a signal-to-noise ratio of the same sign and of at most the same size. -/
theorem C139_ratings {env env' : Env} {s : RealSensor} {g g' : RealScene} {sc sc' : Scenario} {interp interp' : Bool}
    {B B' : List (Fin 6 → ℝ)} (h : Imaging env s g sc interp B) (h' : Imaging env' s g' sc' interp' B') (hc : Counting s B)
    {k : ℝ} (hk : 0 < k) (hk1 : k ≤ 1) (hz : List.Forall₂ (Hazier k) B B') :
    (∃ (m m' : Metrics) (x x' : ℝ), (niirs5 env s.toSensor sc interp).1 = .ok m
      ∧ (niirs5 env' s.toSensor sc' interp').1 = .ok m' ∧ m.snr.snr = .fin x ∧ m'.snr.snr = .fin x' ∧ |x'| ≤ |x| ∧ 0 ≤ x * x')
    ∧ (s.filterKernel.flatten.sum = 1 → ∃ (m m' : Metrics) (x x' : ℝ), (niirs env s.toSensor sc interp).1 = .ok m
      ∧ (niirs env' s.toSensor sc' interp').1 = .ok m' ∧ m.snr.snr = .fin x ∧ m'.snr.snr = .fin x' ∧ |x'| ≤ |x| ∧ 0 ≤ x * x') := by
  obtain ⟨k1, k2⟩ := snr_hazier h.usable h.well h.fill h.bits hk hk1 h.wavelengths hc hz
  constructor
  · obtain ⟨m, c, φ, gw, rer, e1, e2, -⟩ := niirs5_value h
    obtain ⟨m', c', φ', gw', rer', f1, f2, -⟩ := niirs5_value h'
    exact ⟨m, m', _, _, e1, f1, e2.contrast, f2.contrast, k1, k2⟩
  · intro hker
    obtain ⟨m, c, eu, ev, φ, rer, eho, n4, gp, e1, e2, -⟩ := niirs_value h hker
    obtain ⟨m', c', eu', ev', φ', rer', eho', n4', gp', f1, f2, -⟩ := niirs_value h' hker
    exact ⟨m, m', _, _, e1, f1, e2.contrast, f2.contrast, k1, k2⟩

theorem rates_reported {s : RealSensor} (hs : s.Usable) {g : RealScene} {B : List (Fin 6 → ℝ)} (hB : ∀ a ∈ B, 0 < a 0) {m : Metrics}
    (h : Radiometry s g B m) :
    m.snr.tgtNRate = .fin (s.rate B.length (fun i => B.getD i 0 0) fun i => s.targetAt (B.getD i 0))
      ∧ m.snr.bkgNRate = .fin (s.rate B.length (fun i => B.getD i 0 0) fun i => s.backgroundAt (B.getD i 0)) := by
  obtain ⟨k, h1, h2, h3, -⟩ := snr_total hs (n := B.length) (wl := fun i => B.getD i 0 0)
    (fun i hi => hB _ (getD_mem hi)) (L := fun i => s.targetAt (B.getD i 0)) (M := fun i => s.backgroundAt (B.getD i 0))
  have e := h.detector
  rw [h.wavelengths, h.target, h.background, map_vec B (· 0), map_vec B s.targetAt, map_vec B s.backgroundAt, h1, Except.ok.injEq] at e
  rw [← e]
  exact ⟨h2, h3⟩

/-- **C139** (light of the air only): if the air merely shines brighter, the difference between the signals of target and
background is what it was, the noise is no smaller, and the exposure used is no longer. -/
theorem C139_airlight {env env' : Env} {s : RealSensor} {g g' : RealScene} {sc sc' : Scenario} {interp interp' : Bool}
    {B B' : List (Fin 6 → ℝ)} (h : Imaging env s g sc interp B) (h' : Imaging env' s g' sc' interp' B') (hc : Counting s B)
    (hz : List.Forall₂ (Hazier 1) B B') :
    ∃ (m m' : Metrics) (n n' t t' : ℝ), (niirs5 env s.toSensor sc interp).1 = .ok m
      ∧ (niirs5 env' s.toSensor sc' interp').1 = .ok m'
      ∧ m.snr.totalNoise = .fin n ∧ m'.snr.totalNoise = .fin n' ∧ n ≤ n'
      ∧ m.snr.intTime = .fin t ∧ m'.snr.intTime = .fin t' ∧ t' ≤ t
      ∧ ∃ a b a' b' : ℝ, m.snr.tgtNRate = .fin a ∧ m.snr.bkgNRate = .fin b ∧ m'.snr.tgtNRate = .fin a' ∧ m'.snr.bkgNRate = .fin b'
        ∧ a' - b' = a - b := by
  obtain ⟨P, P', S, U, hP, hPP, hS, hU, e1, e2, e3, e4⟩ := hazier_counts h.usable h.wavelengths hc hz
  have hW : 0 ≤ s.maxWellFill * s.maxN := mul_nonneg h.fill h.well.le
  have n1 : s.brightest B = P + max S U := by unfold RealSensor.brightest; rw [e1, e2, max_add_add_left]
  have n2 : s.brightest B' = P' + max S U := by unfold RealSensor.brightest; rw [e3, e4, one_mul, one_mul, max_add_add_left]
  have hle : s.brightest B ≤ s.brightest B' := by rw [n1, n2]; linarith
  obtain ⟨m, c, φ, gw, rer, a1, a2, -⟩ := niirs5_value h
  obtain ⟨m', c', φ', gw', rer', f1, f2, -⟩ := niirs5_value h'
  refine ⟨m, m', _, _, _, _, a1, f1, a2.noise, f2.noise, ?_, a2.exposure, f2.exposure, ?_, ?_⟩
  · rw [noise_eq, noise_eq, cut_eq, cut_eq, cutOf_mul hW, cutOf_mul hW]
    exact Real.sqrt_le_sqrt (by linarith [min_le_min_right (s.maxWellFill * s.maxN) hle])
  · unfold RealSensor.exposure
    rw [cut_eq, cut_eq]
    exact mul_le_mul_of_nonneg_right (cutOf_anti hW hle) hc.exposure
  · obtain ⟨r1, r2⟩ := rates_reported h.usable h.wavelengths a2
    obtain ⟨r1', r2'⟩ := rates_reported h.usable h'.wavelengths f2
    refine ⟨_, _, _, _, r1, r2, r1', r2', ?_⟩
    -- the rates are the counts of an exposure of one second
    have hs1 : ({ s with intTime := 1, nTdi := 1 } : RealSensor).Usable := by
      obtain ⟨h1, h2, h3, h4, h5, h6, h7, h8⟩ := h.usable
      exact ⟨h1, h2, h3, h4, h5, h6, h7, h8⟩
    have hc1 : Counting ({ s with intTime := 1, nTdi := 1 } : RealSensor) B :=
      ⟨by obtain ⟨p⟩ := hc.physical; constructor <;> assumption, hc.increasing, hc.transmission, hc.path, hc.scattered, hc.reflected,
        zero_le_one, zero_le_one⟩
    obtain ⟨p, p', x, y, -, -, -, -, i1, i2, i3, i4⟩ := hazier_counts hs1 h.wavelengths hc1 hz
    have one : ∀ (b : List (Fin 6 → ℝ)) (L : (Fin 6 → ℝ) → ℝ), ({ s with intTime := 1, nTdi := 1 } : RealSensor).electrons b L
        = s.rate b.length (fun i => b.getD i 0 0) (fun i => L (b.getD i 0)) := fun b L => by
      unfold RealSensor.electrons
      dsimp only
      rw [mul_one, mul_one]
      rfl
    rw [one] at i1 i2 i3 i4
    have j1 : s.rate B.length (fun i => B.getD i 0 0) (fun i => s.targetAt (B.getD i 0)) = p + x := i1
    have j2 : s.rate B.length (fun i => B.getD i 0 0) (fun i => s.backgroundAt (B.getD i 0)) = p + y := i2
    have j3 : s.rate B'.length (fun i => B'.getD i 0 0) (fun i => s.targetAt (B'.getD i 0)) = p' + 1 * x := i3
    have j4 : s.rate B'.length (fun i => B'.getD i 0 0) (fun i => s.backgroundAt (B'.getD i 0)) = p' + 1 * y := i4
    rw [j1, j2, j3, j4]
    ring

/-! ## Simulated images -/

theorem pixel_hazier {s : RealSensor} (hs : s.Usable) (hM : 0 < s.maxN) {k : ℝ} (hk : 0 < k) (hk1 : k ≤ 1)
    {B B' : List (Fin 6 → ℝ)} (hB : ∀ a ∈ B, 0 < a 0) (hc : Counting s B) (h : List.Forall₂ (Hazier k) B B') {x y : ℝ}
    (hx : 0 ≤ x) (hx1 : x ≤ 1) (hy : 0 ≤ y) (hy1 : y ≤ 1) :
    |s.pixel B' x - s.pixel B' y| ≤ |s.pixel B x - s.pixel B y|
      ∧ |contrastOf (s.pixel B' x) (s.pixel B' y)| ≤ |contrastOf (s.pixel B x) (s.pixel B y)|
      ∧ 0 ≤ (s.pixel B x - s.pixel B y) * (s.pixel B' x - s.pixel B' y) := by
  have hP := path_electrons_nonneg hs hB hc
  have hPP := path_electrons_hazier hs hB hc h
  have key : ∀ t : ℝ, 0 ≤ t → t ≤ 1 → 0 ≤ sceneElectrons s B t 300 := fun t h0 h1 =>
    sceneElectrons_nonneg hs hB hc h0 h1 (by norm_num)
  have c1 : ∀ t, s.collected B t = s.electrons B pathAt + sceneElectrons s B t 300 := fun t => electrons_grey s B t 300
  have c2 : ∀ t, s.collected B' t = s.electrons B' pathAt + k * sceneElectrons s B t 300 := fun t => by
    rw [← sceneElectrons_hazier h]; exact electrons_grey s B' t 300
  unfold RealSensor.pixel
  simp only [c1, c2, max_add_add_left, ← mul_max_of_nonneg _ _ hk.le]
  have a0 := key 0 le_rfl zero_le_one
  generalize s.electrons B pathAt = P at *
  generalize s.electrons B' pathAt = P' at *
  have mx : 0 ≤ max (sceneElectrons s B 0 300) (sceneElectrons s B 1 300) := le_max_of_le_left a0
  generalize max (sceneElectrons s B 0 300) (sceneElectrons s B 1 300) = m at *
  have hX := key x hx hx1
  have hY := key y hy hy1
  generalize sceneElectrons s B x 300 = X at *
  generalize sceneElectrons s B y 300 = Y at *
  have hq : 0 < max 1 ((P + m) / s.maxN) := lt_of_lt_of_le zero_lt_one (le_max_left _ _)
  have hq' : 0 < max 1 ((P' + k * m) / s.maxN) := lt_of_lt_of_le zero_lt_one (le_max_left _ _)
  have hqq : k * max 1 ((P + m) / s.maxN) ≤ max 1 ((P' + k * m) / s.maxN) := by
    rw [mul_max_of_nonneg _ _ hk.le]
    refine max_le_max (by linarith) ?_
    rw [← mul_div_assoc]
    refine div_le_div_of_nonneg_right ?_ hM.le
    nlinarith
  generalize max 1 ((P + m) / s.maxN) = q at *
  generalize max 1 ((P' + k * m) / s.maxN) = q' at *
  have d1 : (P + X) / q - (P + Y) / q = (X - Y) / q := by ring
  have d2 : (P' + k * X) / q' - (P' + k * Y) / q' = k * (X - Y) / q' := by ring
  refine ⟨?_, ?_, ?_⟩
  · rw [d1, d2, abs_div, abs_div, abs_mul, abs_of_pos hk, abs_of_pos hq, abs_of_pos hq', div_le_div_iff₀ hq' hq]
    nlinarith [mul_le_mul_of_nonneg_left hqq (abs_nonneg (X - Y))]
  · unfold contrastOf
    rw [d1, d2]
    have s1 : (P + X) / q + (P + Y) / q = (2 * P + (X + Y)) / q := by ring
    have s2 : (P' + k * X) / q' + (P' + k * Y) / q' = (2 * P' + k * (X + Y)) / q' := by ring
    rw [s1, s2, div_div_div_cancel_right₀ hq'.ne', div_div_div_cancel_right₀ hq.ne', abs_div, abs_div, abs_mul, abs_of_pos hk]
    have t1 : 0 ≤ 2 * P + (X + Y) := by positivity
    have t2 : 0 ≤ 2 * P' + k * (X + Y) := by have := hP.trans hPP; positivity
    rw [abs_of_nonneg t1, abs_of_nonneg t2]
    rcases t1.eq_or_lt with z | z
    · have hXY : X = 0 ∧ Y = 0 := ⟨by linarith, by linarith⟩
      rw [hXY.1, hXY.2]
      simp
    · have z' : 0 < 2 * P' + k * (X + Y) := by nlinarith
      rw [div_le_div_iff₀ z' z]
      have : k * (2 * P + (X + Y)) ≤ 2 * P' + k * (X + Y) := by nlinarith
      nlinarith [mul_le_mul_of_nonneg_left this (abs_nonneg (X - Y))]
  · rw [d1, d2]
    have : (X - Y) / q * (k * (X - Y) / q') = k * (X - Y) ^ 2 / (q * q') := by field_simp
    rw [this]
    positivity

/-- **C139** (images): one reference picture, simulated for one sensor in clear and in hazier air. No pixel of the true image
in the hazier air differs more from another, neither in electrons nor relative to their sum, and none trades places. -/
theorem C139_images {env env' : Env} {s : RealSensor} {sc sc' : Scenario} {r : RefImage} {cal : List (ℝ × ℝ)}
    {B B' : List (Fin 6 → ℝ)} (h : Simulation env s sc r cal B) (h' : Simulation env' s sc' r cal B') (hc : Counting s B)
    {g g' : RealScene} (hv : FlatView g sc) (hv' : FlatView g' sc') {k : ℝ} (hk : 0 < k) (hk1 : k ≤ 1)
    (hz : List.Forall₂ (Hazier k) B B') {usable usable' : Bool} {rng rng' : Rng} {R R' : SimResult}
    (hR : simulateImage env usable rng r s.toSensor sc = .ok R) (hR' : simulateImage env' usable' rng' r s.toSensor sc' = .ok R')
    {i j i' j' : ℕ} (hi : i < r.img.h) (hj : j < r.img.w) (hi' : i' < r.img.h) (hj' : j' < r.img.w) :
    |R'.trueImg.px i j - R'.trueImg.px i' j'| ≤ |R.trueImg.px i j - R.trueImg.px i' j'|
      ∧ |contrastOf (R'.trueImg.px i j) (R'.trueImg.px i' j')| ≤ |contrastOf (R.trueImg.px i j) (R.trueImg.px i' j')|
      ∧ 0 ≤ (R.trueImg.px i j - R.trueImg.px i' j') * (R'.trueImg.px i j - R'.trueImg.px i' j') := by
  obtain ⟨T, srt, ρ, c, F, otf, atm, h1, h2, h3, -, -, h6, -, -, -, -, -, h7⟩ := C73_simulation h hv
  obtain ⟨T', srt', ρ', c', F', otf', atm', h1', h2', h3', -, -, h6', -, -, -, -, -, h7'⟩ := C73_simulation h' hv'
  have es : srt' = srt := by
    refine List.Perm.eq_of_pairwise (le := fun p q : ℝ × ℝ => p.1 < q.1) (fun a b _ _ u v => absurd (u.trans v) (lt_irrefl _))
      h2' h2 (h1'.trans h1.symm)
  subst es
  have eρ : ∀ x, ρ' x = ρ x := fun x => OnExtended.unique h2 (h3' x) (h3 x)
  have eT : R.trueImg = T := by
    rw [h7] at hR
    split at hR
    · cases hR
    · split_ifs at hR
      rw [Except.ok.injEq] at hR
      rw [← hR]
  have eT' : R'.trueImg = T' := by
    rw [h7'] at hR'
    split at hR'
    · cases hR'
    · split_ifs at hR'
      rw [Except.ok.injEq] at hR'
      rw [← hR']
  rw [eT, eT', h6 i hi j hj, h6 i' hi' j' hj', h6' i hi j hj, h6' i' hi' j' hj', eρ, eρ]
  have hu : ∀ x, 0 ≤ unit x ∧ unit x ≤ 1 := fun x => ⟨le_max_left _ _, max_le zero_le_one (min_le_left _ _)⟩
  exact pixel_hazier h.usable h.well hk hk1 h.wavelengths hc hz (hu _).1 (hu _).2 (hu _).1 (hu _).2

end PyBSM
