import Verif.Props.Compare
import Verif.Props.NiirsDemo

/-!
# C77-C79: concrete cases
-/

noncomputable section

open Classical

namespace PyBSM

open Spec

/-- The demonstration sensor on a shakier platform, with worse optics. -/
def demoShaky : RealSensor :=
  { demoSensor with sX := 5e-6, sY := 4e-6, daX := 2e-5, pv := 0.05, lX := 0.05 }

/-- The demonstration scene with stronger turbulence and wind. -/
def demoTurbulent : RealScene := ⟨9000, 60000, 120, 25, 5e-14⟩

def demoTurbulentScenario : Scenario :=
  Scenario.new "worse" 1 (.fin 9000) (.fin 60000) (aircraftSpeed := .fin 120) (haWindSpeed := .fin 25)
    (cn2At1m := .fin 5e-14)

theorem demo_moreBlur : MoreBlur demoSensor demoShaky demoScene demoTurbulent where
  sameSensor := rfl
  sameScene := rfl
  jitterX := by norm_num [demoSensor, demoShaky]
  jitterY := by norm_num [demoSensor, demoShaky]
  driftX := by norm_num [demoSensor, demoShaky]
  driftY := by norm_num [demoSensor, demoShaky]
  wavefront0 := by norm_num [demoSensor]
  wavefront := by norm_num [demoSensor, demoShaky]
  corrX0 := by norm_num [demoSensor, demoShaky]
  corrY0 := by norm_num [demoSensor, demoShaky]
  corrX := by norm_num [demoSensor, demoShaky]
  corrY := by norm_num [demoSensor, demoShaky]
  speed0 := by norm_num [demoScene]
  speed := by norm_num [demoScene, demoTurbulent]
  wind := by norm_num [demoScene, demoTurbulent]
  cn2 := by norm_num [demoScene, demoTurbulent]

theorem demo_Sampled : demoSensor.Sampled demoInBand := by
  intro c hc
  obtain ⟨h1, h2⟩ := demo_sampled c hc
  have hpos := cutoff_pos demoSensor_optical.aperture demo_imaging.wavelengths hc
  have e1 : demoSensor.pX / demoSensor.f = 1e-5 := by norm_num [demoSensor]
  have e2 : demoSensor.pY / demoSensor.f = 1e-5 := by norm_num [demoSensor]
  rw [e1] at h1 ⊢
  rw [e2] at h2 ⊢
  constructor <;> nlinarith

theorem demo_contrast : Contrast demoSensor demoScene demoInBand where
  altitude := by norm_num [demoScene]
  frames := by norm_num [demoSensor]
  cut := demo_cut
  brighter := demo_brighter

theorem demo_band {p : ℝ × ℝ} (hp : p ∈ demoSensor.band demoInBand) : 3e-6 ≤ p.1 ∧ p.1 ≤ 5e-6 := by
  obtain ⟨a, ha, rfl⟩ := List.mem_map.mp (List.mem_filter.mp hp).1
  obtain ⟨h1, h2, -⟩ := demoInBand_mem ha
  exact ⟨h1, h2⟩

theorem demo_slowDrift : demoShaky.SlowDrift demoInBand := by
  intro c hc
  obtain ⟨lam, ⟨p, hp, rfl⟩, -, rfl⟩ := hc
  have h1 := (demo_band (p := p) hp).1
  have hc : demoShaky.D / p.1 ≤ 33334 := by
    have : demoShaky.D / p.1 ≤ demoShaky.D / 3e-6 := by
      apply div_le_div_of_nonneg_left _ (by norm_num) h1
      norm_num [demoShaky, demoSensor]
    refine this.trans ?_
    norm_num [demoShaky, demoSensor]
  have hc0 : 0 ≤ demoShaky.D / p.1 := div_nonneg (by norm_num [demoShaky, demoSensor]) (by linarith)
  have he : demoShaky.exposure demoInBand ≤ 0.01 := by
    change demoSensor.exposure demoInBand ≤ 0.01
    unfold RealSensor.exposure RealSensor.cut
    rw [show demoSensor.intTime = 0.01 from rfl]
    have h0 : (0 : ℝ) ≤ demoSensor.maxWellFill * demoSensor.maxN := by norm_num [demoSensor]
    split_ifs with hle
    · norm_num
    · have := (div_le_one (h0.trans_lt (not_le.mp hle))).mpr (not_le.mp hle).le
      linarith
  have he0 : 0 ≤ demoShaky.exposure demoInBand :=
    mul_nonneg demo_cut.le (by norm_num [demoShaky, demoSensor])
  have hp : demoShaky.exposure demoInBand * (demoShaky.D / p.1) ≤ 0.01 * 33334 := mul_le_mul he hc hc0 (by norm_num)
  have e1 : |demoShaky.daX| = 2e-5 := by norm_num [demoShaky]
  have e2 : |demoShaky.daY| = 1e-5 := by norm_num [demoShaky, demoSensor]
  rw [e1, e2, show demoShaky.nTdi = 1 from rfl]
  constructor <;> nlinarith

/-- Every hypothesis of `C77_blur` holds in a concrete case. -/
example : ∃ m m' : Metrics, (niirs5 demoEnv demoSensor.toSensor demoScenario false).1 = .ok m
    ∧ (niirs5 demoEnv demoShaky.toSensor demoTurbulentScenario false).1 = .ok m' ∧ NoBetter m m' := by
  obtain ⟨m, m', h1, h2, -, -, h3⟩ := C77_blur demo_imaging demo_moreBlur (sc' := demoTurbulentScenario)
    ⟨rfl, rfl, rfl, rfl, rfl⟩ rfl demo_Sampled demo_contrast
    (fun p hp q hq => by linarith [(demo_band hp).2, (demo_band hq).1]) demo_slowDrift (by norm_num [demoSensor])
  exact ⟨m, m', h1, h2, h3⟩

/-- Every hypothesis of `C78_noise` holds in a concrete case: more read-out and other noise, 8 bits instead of 12. -/
example : ∃ m m' : Metrics, (niirs5 demoEnv demoSensor.toSensor demoScenario false).1 = .ok m
    ∧ (niirs5 demoEnv { demoSensor with readNoise := 30, otherNoise := [5], bitDepth := 8 }.toSensor demoScenario false).1
      = .ok m' ∧ NoBetter m m' := by
  obtain ⟨m, m', n, n', h1, h2, -, -, -, -, -, -, h3⟩ := C78_noise
    (s' := { demoSensor with readNoise := 30, otherNoise := [5], bitDepth := 8 }) demo_imaging
    ⟨rfl, by norm_num [demoSensor], by norm_num [demoSensor], by norm_num, by norm_num [demoSensor],
      by norm_num [demoSensor], by norm_num⟩ demo_Sampled demo_contrast
  exact ⟨m, m', h1, h2, h3⟩

/-- The demonstration sensor with a tiny well. -/
def demoTinyWell : RealSensor := { demoSensor with maxN := 1 }

theorem demo_tiny_imaging : Imaging demoEnv demoTinyWell demoScene demoScenario false demoInBand := by
  obtain ⟨h1, h2, h3, h4, h5, h6, h7, h8, h9, h10, h11, h12, h13, h14, h15, h16⟩ := demo_imaging
  obtain ⟨a1, a2, a3, a4, a5, a6, a7, a8⟩ := h1
  obtain ⟨b1, b2, b3, b4, b5, b6⟩ := h2
  exact ⟨⟨a1, a2, a3, a4, a5, a6, a7, a8⟩, ⟨b1, b2, b3, b4, b5, b6⟩, h3, h4, h5, h6, h7, h8, h9,
    by norm_num [demoTinyWell], h11, h12, h13, h14, h15, h16⟩

theorem demo_tiny_full : demoTinyWell.maxWellFill * demoTinyWell.maxN < demoTinyWell.brightest demoInBand := by
  have hb : 1 ≤ demoSensor.electrons demoInBand demoSensor.backgroundAt := by
    unfold RealSensor.electrons RealSensor.rate
    have : 0 ≤ trap demoInBand.length (fun i => demoInBand.getD i 0 0) (fun i =>
        demoSensor.spectral (demoInBand.getD i 0 0) (demoSensor.backgroundAt (demoInBand.getD i 0))) :=
      trap_nonneg (fun i hi => (counting_step demoInBand_sorted hi).le)
        (fun i hi => (demo_spectral_pos (getD_mem hi) (demo_target (getD_mem hi)).2).le)
    rw [show demoSensor.intTime = 0.01 from rfl, show demoSensor.nTdi = 1 from rfl,
      show demoSensor.darkCurrent = 100 from rfl]
    linarith
  have : demoTinyWell.maxWellFill * demoTinyWell.maxN < 1 := by norm_num [demoTinyWell, demoSensor]
  exact this.trans_le (hb.trans (le_max_right _ _))

/-- Every hypothesis of `C79_saturated` holds in a concrete case. -/
example : (niirs5 demoEnv { demoTinyWell with intTime := 3 }.toSensor demoScenario false).1
    = (niirs5 demoEnv demoTinyWell.toSensor demoScenario false).1 :=
  (C79_saturated demo_tiny_imaging (by norm_num [demoTinyWell, demoSensor]) (by norm_num [demoTinyWell, demoSensor])
    demo_tiny_full (by norm_num [demoTinyWell, demoSensor])).1

/-- Every hypothesis of `C79_product` holds in a concrete case: four TDI stages of a quarter of the time. -/
example : ∃ m m' : Metrics, (niirs5 demoEnv demoSensor.toSensor demoScenario false).1 = .ok m
    ∧ (niirs5 demoEnv { demoSensor with intTime := 0.0025, nTdi := 4 }.toSensor demoScenario false).1 = .ok m'
    ∧ m'.niirs = m.niirs := by
  obtain ⟨m, m', h1, h2, h3, -⟩ := C79_product demo_imaging (t := 0.0025) (n := 4) (by norm_num [demoSensor])
  exact ⟨m, m', h1, h2, h3⟩

/-- Every hypothesis of `C79_longer` holds in a concrete case. -/
example : ∃ (m m' : Metrics) (x x' : ℝ), (niirs5 demoEnv demoSensor.toSensor demoScenario false).1 = .ok m
    ∧ (niirs5 demoEnv { demoSensor with intTime := 1 }.toSensor demoScenario false).1 = .ok m'
    ∧ m.snr.snr = .fin x ∧ m'.snr.snr = .fin x' ∧ x ≤ x' := by
  obtain ⟨m, m', x, x', e, e', h1, h2, h3, h4, h5, -⟩ := C79_longer demo_imaging (by norm_num [demoSensor])
    (by norm_num [demoSensor]) demo_brighter.le (t := 1) (by norm_num [demoSensor])
  exact ⟨m, m', x, x', h1, h2, h3, h4, h5⟩

end PyBSM
