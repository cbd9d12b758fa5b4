import Verif.Props.Efficiency
import Verif.Props.CompareDemo

/-!
# C125: concrete cases
-/

noncomputable section

open Classical

namespace PyBSM

open Spec

theorem demo_above_dark : demoSensor.darkCurrent * demoSensor.intTime * demoSensor.nTdi
    ≤ demoSensor.electrons demoInBand demoSensor.targetAt := by
  unfold RealSensor.electrons RealSensor.rate
  have : 0 ≤ trap demoInBand.length (fun i => demoInBand.getD i 0 0) (fun i =>
      demoSensor.spectral (demoInBand.getD i 0 0) (demoSensor.targetAt (demoInBand.getD i 0))) :=
    trap_nonneg (fun i hi => (counting_step demoInBand_sorted hi).le)
      (fun i hi => (demo_spectral_pos (getD_mem hi) ((demo_target (getD_mem hi)).2.trans (demo_target (getD_mem hi)).1)).le)
  rw [show demoSensor.intTime = 0.01 from rfl, show demoSensor.nTdi = 1 from rfl]
  linarith

theorem demo_dimmed_drift : (demoSensor.dimmed 0.5).SlowDrift demoInBand := by
  have hn : 0 < demoSensor.nTdi := by norm_num [demoSensor]
  have hi : 0 < demoSensor.intTime := by norm_num [demoSensor]
  have hd : 0 ≤ demoSensor.darkCurrent := by norm_num [demoSensor]
  obtain ⟨h', hbr'⟩ := dimmed_imaging demo_imaging demo_contrast hi hn hd (k := 0.5) (by norm_num) (by norm_num)
  obtain ⟨ex0, ee, -, -⟩ := dimmed_snr demo_imaging demo_contrast hi hn hd demo_above_dark (k := 0.5) (by norm_num) (by norm_num)
  obtain ⟨he, -⟩ := exposure_rate (s := demoSensor.dimmed 0.5) (B := demoInBand) hi hn (by norm_num [RealSensor.dimmed, demoSensor]) hbr'.le
  intro c hc
  obtain ⟨lam, ⟨p, hp, rfl⟩, -, rfl⟩ := (cutoff_dimmed demo_imaging.usable (by norm_num : (0 : ℝ) < 0.5)).mp hc
  have h1 := (demo_band (p := p) hp).1
  have hc1 : demoSensor.D / p.1 ≤ 33334 := by
    have : demoSensor.D / p.1 ≤ demoSensor.D / 3e-6 := by
      apply div_le_div_of_nonneg_left _ (by norm_num) h1
      norm_num [demoSensor]
    refine this.trans ?_
    norm_num [demoSensor]
  have hc0 : 0 ≤ demoSensor.D / p.1 := div_nonneg (by norm_num [demoSensor]) (by linarith)
  have he' : (demoSensor.dimmed 0.5).exposure demoInBand ≤ 0.01 := he
  have hp : (demoSensor.dimmed 0.5).exposure demoInBand * (demoSensor.D / p.1) ≤ 0.01 * 33334 := mul_le_mul he' hc1 hc0 (by norm_num)
  have e1 : |(demoSensor.dimmed 0.5).daX| = 1e-5 := by norm_num [RealSensor.dimmed, demoSensor]
  have e2 : |(demoSensor.dimmed 0.5).daY| = 1e-5 := by norm_num [RealSensor.dimmed, demoSensor]
  rw [e1, e2, show (demoSensor.dimmed 0.5).nTdi = 1 from rfl]
  constructor <;> nlinarith

/-- Every hypothesis of `C125_efficiency` holds in a concrete case: half the quantum efficiency. -/
example : ∃ m m' : Metrics, (niirs5 demoEnv demoSensor.toSensor demoScenario false).1 = .ok m
    ∧ (niirs5 demoEnv (demoSensor.dimmed 0.5).toSensor demoScenario false).1 = .ok m' ∧ NoBetter m m' := by
  obtain ⟨m, m', x, x', e, e', h1, h2, -, -, -, -, -, -, -, -, h3⟩ := C125_efficiency demo_imaging demo_Sampled demo_contrast
    (by norm_num [demoSensor]) (by norm_num [demoSensor]) (by norm_num [demoSensor]) demo_above_dark (by norm_num [demoSensor])
    (by norm_num [demoScene]) (fun p hp q hq => by linarith [(demo_band hp).2, (demo_band hq).1]) (k := 0.5) (by norm_num) (by norm_num)
    demo_dimmed_drift
  exact ⟨m, m', h1, h2, h3⟩

/-- The demonstration sensor with a well of `N` electrons. -/
def demoWell (N : ℝ) : RealSensor := { demoSensor with maxN := N }

theorem demoWell_imaging {N : ℝ} (hN : 0 < N) : Imaging demoEnv (demoWell N) demoScene demoScenario false demoInBand := by
  obtain ⟨h1, h2, h3, h4, h5, h6, h7, h8, h9, h10, h11, h12, h13, h14, h15, h16⟩ := demo_imaging
  obtain ⟨a1, a2, a3, a4, a5, a6, a7, a8⟩ := h1
  obtain ⟨b1, b2, b3, b4, b5, b6⟩ := h2
  exact ⟨⟨a1, a2, a3, a4, a5, a6, a7, a8⟩, ⟨b1, b2, b3, b4, b5, b6⟩, h3, h4, h5, h6, h7, h8, h9, hN, h11, h12, h13, h14, h15, h16⟩

/-- Every hypothesis of `C125_dark` holds in a concrete case, with a well that stays below its limit: ten times the dark current. -/
example : ∃ (N : ℝ) (m m' : Metrics), (niirs5 demoEnv (demoWell N).toSensor demoScenario false).1 = .ok m
    ∧ (niirs5 demoEnv ((demoWell N).dark 1000).toSensor demoScenario false).1 = .ok m' ∧ m'.giqe5 = m.giqe5 ∧ NoBetter m m' := by
  obtain ⟨h', -⟩ := dark_imaging demo_imaging demo_contrast (by norm_num [demoSensor]) (by norm_num [demoSensor]) (d := 1000)
    (by norm_num [demoSensor])
  have hb0 := h'.counts
  obtain ⟨N, hN⟩ : ∃ N, N = 2 * (demoSensor.dark 1000).brightest demoInBand + 2 := ⟨_, rfl⟩
  have hN0 : 0 < N := by rw [hN]; linarith
  have hw : 0 < (demoWell N).maxWellFill := by norm_num [demoWell, demoSensor]
  have hW : 0 < (demoWell N).maxWellFill * (demoWell N).maxN := mul_pos hw hN0
  have hcut : 0 < (demoWell N).cut demoInBand := by
    unfold RealSensor.cut
    split_ifs with c
    · exact one_pos
    · exact div_pos hW (hW.trans (not_le.mp c))
  have hc : Contrast (demoWell N) demoScene demoInBand := ⟨demo_contrast.altitude, demo_contrast.frames, hcut, demo_contrast.brighter⟩
  obtain ⟨m, m', x, x', e, e', h1, h2, -, -, -, -, -, -, -, -, h3⟩ := C125_dark (demoWell_imaging hN0) demo_Sampled hc
    (by norm_num [demoWell, demoSensor]) (by norm_num [demoWell, demoSensor]) hw (d := 1000) (by norm_num [demoWell, demoSensor])
  have hfull : ((demoWell N).dark 1000).brightest demoInBand ≤ (demoWell N).maxWellFill * (demoWell N).maxN := by
    change (demoSensor.dark 1000).brightest demoInBand ≤ 0.5 * N
    rw [hN]
    linarith
  obtain ⟨-, h4, h5⟩ := h3 hfull
  exact ⟨N, m, m', h1, h2, h4, h5⟩

end PyBSM
