import Verif.Props.Turned
import Verif.Props.NiirsDemo

/-!
The hypotheses of C107 hold in concrete cases: the demonstration sensor, the same with half the vertical
detector pitch, and the same with a sharpening kernel of one row.
-/

noncomputable section

open Classical

namespace PyBSM

open Spec

/-- The demonstration sensor with half the vertical detector pitch. -/
def tallSensor : RealSensor := { demoSensor with pY := 5e-6 }

/-- The demonstration sensor with a sharpening kernel of one row. -/
def rowSensor : RealSensor := { demoSensor with filterKernel := [[-1/8, 5/4, -1/8]] }

theorem tall_imaging : Imaging demoEnv tallSensor demoScene demoScenario false demoInBand where
  usable := ⟨demoSensor_usable.aperture, demoSensor_usable.transmission_ne, demoSensor_usable.transmission_inc,
    demoSensor_usable.qe_ne, demoSensor_usable.qe_inc, demoSensor_usable.coldShield, demoSensor_usable.optics,
    demoSensor_usable.coldFilter⟩
  optical := ⟨demoSensor_optical.aperture, demoSensor_optical.focal, demoSensor_optical.obscuration,
    demoSensor_optical.open_, demoSensor_optical.corrX, demoSensor_optical.corrY⟩
  viewing := demo_imaging.viewing
  scene := demo_imaging.scene
  atmosphere := demo_imaging.atmosphere
  wavelengths := demo_imaging.wavelengths
  distinct := demo_imaging.distinct
  signal := demo_imaging.signal
  counts := demo_imaging.counts
  well := demo_imaging.well
  fill := demo_imaging.fill
  bits := demo_imaging.bits
  pitchX := demo_imaging.pitchX
  pitchY := by norm_num [tallSensor]
  focal := demo_imaging.focal
  frames := demo_imaging.frames

theorem row_imaging : Imaging demoEnv rowSensor demoScene demoScenario false demoInBand where
  usable := ⟨demoSensor_usable.aperture, demoSensor_usable.transmission_ne, demoSensor_usable.transmission_inc,
    demoSensor_usable.qe_ne, demoSensor_usable.qe_inc, demoSensor_usable.coldShield, demoSensor_usable.optics,
    demoSensor_usable.coldFilter⟩
  optical := ⟨demoSensor_optical.aperture, demoSensor_optical.focal, demoSensor_optical.obscuration,
    demoSensor_optical.open_, demoSensor_optical.corrX, demoSensor_optical.corrY⟩
  viewing := demo_imaging.viewing
  scene := demo_imaging.scene
  atmosphere := demo_imaging.atmosphere
  wavelengths := demo_imaging.wavelengths
  distinct := demo_imaging.distinct
  signal := demo_imaging.signal
  counts := demo_imaging.counts
  well := demo_imaging.well
  fill := demo_imaging.fill
  bits := demo_imaging.bits
  pitchX := demo_imaging.pitchX
  pitchY := demo_imaging.pitchY
  focal := demo_imaging.focal
  frames := demo_imaging.frames

theorem demo_contrast_pos : 0 < demoSensor.contrastSNR demoInBand :=
  (div_pos (mul_pos demo_cut (sub_pos.mpr demo_brighter))
    (noise_pos demo_imaging.well demo_imaging.fill demo_imaging.bits demo_imaging.counts))

/-- Turning the demonstration camera changes nothing in the GIQE 5 score. -/
example : ∃ m m' : Metrics, (niirs5 demoEnv demoSensor.toSensor demoScenario false).1 = .ok m
    ∧ (niirs5 demoEnv (demoSensor.turned [[1]]).toSensor demoScenario false).1 = .ok m' ∧ m'.niirs = m.niirs := by
  obtain ⟨m, m', _, _, _, _, _, h1, h2, -, -, -, -, -, h⟩ := C107_giqe5 demo_imaging [[1]]
  exact ⟨m, m', h1, h2, (h rfl).1⟩

/-- With half the vertical detector pitch, turning the camera does change the score. -/
example : ∃ (m m' : Metrics) (y y' : ℝ), (niirs5 demoEnv tallSensor.toSensor demoScenario false).1 = .ok m
    ∧ (niirs5 demoEnv (tallSensor.turned [[1]]).toSensor demoScenario false).1 = .ok m'
    ∧ m.niirs = .fin y ∧ m'.niirs = .fin y' ∧ y' ≠ y := by
  obtain ⟨m, x, r1, r2, gw, r, h1, -, h3, p1, p2, -, -⟩ := C71_well_sampled tall_imaging
    (fun c hc => by
      obtain ⟨h1, -⟩ := demo_sampled c hc
      have hpos : 0 < c := cutoff_pos demoSensor_optical.aperture demo_imaging.wavelengths hc
      have e1 : demoSensor.pX / demoSensor.f = 1e-5 := by norm_num [demoSensor]
      have e2 : tallSensor.pX / tallSensor.f = 1e-5 := by norm_num [tallSensor, demoSensor]
      have e3 : tallSensor.pY / tallSensor.f = 5e-6 := by norm_num [tallSensor, demoSensor]
      rw [e1] at h1
      rw [e2, e3]
      constructor <;> nlinarith)
    (by norm_num [demoScene]) (by norm_num [tallSensor, demoSensor]) demo_brighter.ne' demo_cut
  obtain ⟨m1, m', a, b, gw', rer, e1, e2, e3, e4⟩ := C107_pitch tall_imaging [[1]]
  obtain rfl : m = m1 := Except.ok.inj (h1.symm.trans e1)
  rw [e3] at h3
  simp only [Option.some.injEq, Prod.mk.injEq, XR.fin.injEq] at h3
  obtain ⟨y, y', f1, f2, -, f4⟩ := e4 (by rw [h3.1]; exact p1) (by rw [h3.2.1]; exact p2) (by norm_num [demoScene])
    (by norm_num [tallSensor, demoSensor]) demo_contrast_pos.ne'
  exact ⟨m, m', y, y', e1, e2, f1, f2, f4 (by norm_num [tallSensor, demoSensor])⟩

/-- Turning the demonstration camera changes nothing in the GIQE 3 score. -/
example : ∃ m m' : Metrics, (niirs demoEnv demoSensor.toSensor demoScenario false).1 = .ok m
    ∧ (niirs demoEnv (demoSensor.turned [[1]]).toSensor demoScenario false).1 = .ok m' ∧ m'.niirs = m.niirs := by
  obtain ⟨m, m', _, _, _, _, _, _, _, _, h1, h2, -, -, -, -, h, -⟩ :=
    C107_giqe34 demo_imaging (by simp [demoSensor]) (by simp [demoSensor])
  exact ⟨m, m', h1, h2, h⟩

/-- The kernel of one row leaves the transfer function alone but is charged as noise. -/
example : ∃ m m' : Metrics, (niirs demoEnv rowSensor.toSensor demoScenario false).1 = .ok m
    ∧ (niirs demoEnv demoSensor.toSensor demoScenario false).1 = .ok m'
    ∧ m.otf.map (·.system) = m'.otf.map (·.system)
    ∧ ∀ y', m'.niirs = .fin y' → ∃ y, m.niirs = .fin y ∧ y < y' := by
  obtain ⟨m, m', gy, gm, rer, eho, n4, gp, n4', gp', ng, h1, h2, h3, h4, -, -, h⟩ :=
    C107_row_kernel row_imaging (row := [-1/8, 5/4, -1/8]) rfl (by norm_num)
  refine ⟨m, m', h1, h2, h4, fun y' hy => ⟨_, h y' hy (by norm_num [rowSensor, demoSensor]) demo_contrast_pos.ne', ?_⟩⟩
  have hng : 1 < ng := by
    rw [h3]
    apply Real.lt_sqrt_of_sq_lt
    norm_num
  have h0 : (0 : ℝ) < Real.sqrt rowSensor.frameStacks * rowSensor.contrastSNR demoInBand :=
    mul_pos (Real.sqrt_pos.mpr (by norm_num [rowSensor, demoSensor])) demo_contrast_pos
  have := div_pos (sub_pos.mpr hng) h0
  linarith

end PyBSM
