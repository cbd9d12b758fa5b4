import Verif.Props.SimulateDemo
import Verif.Props.ReferencesDemo
import Verif.Props.Physics
import Verif.Props.Niirs

/-!
# Concrete cases for theorems of C17, C38, C57, C58, C70, C74 and C126

The demonstration sensor, scene and database meet the hypotheses of these theorems too.
-/

noncomputable section

open Classical

namespace PyBSM

open Spec

/-- C17: an empty detector with a negative limit, with Python floats and with NumPy scalars. -/
example : checkWellFill (.py (.fin 0)) (.py (.fin (-1))) = .error .zeroDivisionError
    ∧ (∃ s, checkWellFill (.np (.fin 0)) (.py (.fin (-1))) = .ok s ∧ s.val = .ninf)
    ∧ (∃ s, checkWellFill (.py .pinf) (.py (.fin 3)) = .ok s ∧ s.val = .fin 0)
    ∧ checkWellFill (.py .nan) (.py (.fin 3)) = .ok (.py 1) := by
  refine ⟨((C17_special (total := .py (.fin 0)) (limit := .py (.fin (-1)))).1 (-1) rfl rfl (by norm_num)).1 ⟨trivial, trivial⟩,
    ((C17_special (total := .np (.fin 0)) (limit := .py (.fin (-1)))).1 (-1) rfl rfl (by norm_num)).2 (fun h => h.1.elim),
    (C17_special (total := .py .pinf) (limit := .py (.fin 3))).2.1 3 rfl rfl,
    (C17_special (total := .py .nan) (limit := .py (.fin 3))).2.2 (Or.inl rfl)⟩

/-- C38: the demonstration scene with the turbulence switched off. -/
example : ∃ o : OTFRow,
    commonOTFs (fun _ _ => true) demoSensor.toSensor { demoScenario with cn2At1m := .fin 0 } (vec 3 fun i => 100 * (i - 1))
        (vec 3 fun _ => 0) ([(3e-6, 1), (4e-6, 3)].map fun p : ℝ × ℝ => .fin p.1)
        ([(3e-6, 1), (4e-6, 3)].map fun p : ℝ × ℝ => .fin p.2)
        (.np (curvedEarthSlantRange (.fin 0) demoScenario.altitude demoScenario.groundRange)) (.fin 0.01) = .ok o
    ∧ o.turb = [1, 1, 1] ∧ o.r0Band = [.fin 1000000, .fin 1000000, .fin 1000000] := by
  obtain ⟨A, T, D, J, Q, W, F, S, o, h, -⟩ :=
    C43_unity_at_zero (fun _ _ => true) demoSensor_optical (g := { demoScene with cn2 := 0 }) ⟨demo_geometry.1, demo_geometry.2⟩
      (sc := { demoScenario with cn2At1m := .fin 0 }) ⟨rfl, rfl, rfl, rfl, rfl⟩ (sr := .np _) rfl
      demoBand 0.01 3 (fun i => 100 * (i - 1)) (fun _ => 0) (fun h => by norm_num [demoSensor] at h)
  obtain ⟨h1, h2⟩ := C38_switched_off _ _ _ _ _ _ _ _ _ o (by
    show ¬ XR.lt 0 (.fin 0)
    exact fun h => absurd (show (0 : ℝ) < 0 from h) (lt_irrefl _)) h
  rw [vec_length] at h1 h2
  exact ⟨o, h, h1, h2⟩

/-- The demonstration rating succeeds, with both versions of the equation. -/
theorem demo_rates : (∃ m, (niirs demoEnv demoSensor.toSensor demoScenario false).1 = .ok m)
    ∧ ∃ m, (niirs5 demoEnv demoSensor.toSensor demoScenario false).1 = .ok m := by
  obtain ⟨m, c, F, ru, rv, eu, ev, φ, gsd, ng, snr, h, -⟩ := C70_value demo_imaging (by simp [demoSensor])
  obtain ⟨m', c', ru', rv', φ', snr', h', -⟩ := C71_value demo_imaging
  exact ⟨⟨m, h⟩, ⟨m', h'⟩⟩

/-- C57: rating the demonstration scene a second time returns the same report; the first rating left the nominal
reflectances of the thermal band in the scenario. -/
example : ∃ m, (niirs demoEnv demoSensor.toSensor demoScenario false).1 = .ok m
    ∧ (niirs demoEnv (after demoEnv demoSensor.toSensor demoScenario [.niirs false]).1
        (after demoEnv demoSensor.toSensor demoScenario [.niirs false]).2 false).1 = .ok m
    ∧ (niirs demoEnv demoSensor.toSensor demoScenario false).2.2.targetTemperature = 280 := by
  obtain ⟨⟨m, h⟩, -⟩ := demo_rates
  refine ⟨m, h, ?_, ?_⟩
  · rw [C57_repeatable demoEnv demoSensor.toSensor demoScenario [.niirs false] (by simp) false]
    exact h
  · exact ((C57_rewrites demoEnv demoSensor.toSensor demoScenario false h (l := 3e-6) rfl).1 (by norm_num)).2.2

/-- C58: the other rating, too, can be repeated after any calls; it leaves the kernel `[[1]]`. -/
example (cs : List Call) : ∃ m, (niirs5 demoEnv demoSensor.toSensor demoScenario false).1 = .ok m
    ∧ (niirs5 demoEnv (after demoEnv demoSensor.toSensor demoScenario cs).1
        (after demoEnv demoSensor.toSensor demoScenario cs).2 false).1 = .ok m
    ∧ (niirs5 demoEnv demoSensor.toSensor demoScenario false).2.1.filterKernel = [[1]] := by
  obtain ⟨-, ⟨m, h⟩⟩ := demo_rates
  refine ⟨m, h, ?_, ?_⟩
  · rw [C58_repeatable]; exact h
  · rw [C58_resets_kernel _ _ _ _ h]

/-- The demonstration sensor with a kernel that doubles. -/
def doublingSensor : RealSensor := { demoSensor with filterKernel := [[2]] }

theorem doubling_imaging : Imaging demoEnv doublingSensor demoScene demoScenario false demoInBand where
  usable := by obtain ⟨h1, h2, h3, h4, h5, h6, h7, h8⟩ := demoSensor_usable; exact ⟨h1, h2, h3, h4, h5, h6, h7, h8⟩
  optical := by constructor <;> norm_num [doublingSensor, demoSensor]
  viewing := demoScene_viewing
  scene := demoScene_of
  atmosphere := demo_imaging.atmosphere
  wavelengths := demo_imaging.wavelengths
  distinct := demo_imaging.distinct
  signal := demo_imaging.signal
  counts := demo_imaging.counts
  well := demo_imaging.well
  fill := demo_imaging.fill
  bits := demo_imaging.bits
  pitchX := demo_imaging.pitchX
  pitchY := demo_imaging.pitchY
  focal := demo_imaging.focal
  frames := demo_imaging.frames

/-- C70: a kernel that does not sum to one makes `niirs` raise, and `niirs5` ignores it; after `niirs5` the kernel is
`[[1]]` and `niirs` succeeds (C58). -/
example : (niirs demoEnv doublingSensor.toSensor demoScenario false).1 = .error .valueError
    ∧ (∃ m, (niirs5 demoEnv doublingSensor.toSensor demoScenario false).1 = .ok m)
    ∧ ∃ m, (niirs demoEnv (niirs5 demoEnv doublingSensor.toSensor demoScenario false).2.1
        (niirs5 demoEnv doublingSensor.toSensor demoScenario false).2.2 false).1 = .ok m := by
  obtain ⟨m', c', ru', rv', φ', snr', h', -⟩ := C71_value doubling_imaging
  refine ⟨C70_bad_kernel doubling_imaging (by norm_num [doublingSensor]), ⟨m', h'⟩, ?_⟩
  rw [C58_niirs_after _ _ _ _ _ h']
  obtain ⟨⟨m, h⟩, -⟩ := demo_rates
  exact ⟨m, h⟩

/-- C74: a uniform picture of the demonstration scene. -/
def flatRef : RefImage := { demoRef with img := ⟨2, 3, fun _ _ => 50⟩ }

theorem flat_simulation : Simulation demoEnv demoSensor demoScenario flatRef [(0, 0.05), (100, 0.95)] demoInBand :=
  { demo_simulation with image := ⟨⟨by norm_num, by norm_num⟩, rfl, rfl⟩ }

example : ∃ srt ρ, srt.Perm [((0 : ℝ), (0.05 : ℝ)), (100, 0.95)] ∧ Increasing srt ∧ OnExtended srt 50 ρ
      ∧ ∀ (usable : Bool) (rng : Rng) (R : SimResult), simulateImage demoEnv usable rng flatRef demoSensor.toSensor demoScenario = .ok R →
        Within R.trueImg (demoSensor.pixel demoInBand (unit ρ)) (demoSensor.pixel demoInBand (unit ρ))
        ∧ Within R.blurImg (demoSensor.pixel demoInBand (unit ρ)) (demoSensor.pixel demoInBand (unit ρ)) := by
  obtain ⟨g, hv, -⟩ := demo_flatView
  exact C74_flat flat_simulation hv (fun _ _ _ _ => rfl)

/-- C126: the kernel put back after a rating leaves the sensor as it was. -/
example (S : Sensor) :
    lastSeen demoEnv (fun _ => demoScenario) (buildSensor S ++ [.keep (.attr 0 .filterKernel), .niirs5 0 7 false,
      .put 0 .filterKernel (.var (varCount demoEnv (fun _ => demoScenario) (buildSensor S)))]) (.look 0) = .attributes S :=
  C126_restore _ _ _ (C126_build demoEnv (fun _ => demoScenario) S).1

/-- C57, C58: other target properties and another kernel do not change a rating. -/
example : (niirs demoEnv demoSensor.toSensor { demoScenario with targetReflectance := .fin 0.9, interp := true } false).1
      = (niirs demoEnv demoSensor.toSensor demoScenario false).1
    ∧ (niirs5 demoEnv { demoSensor.toSensor with filterKernel := [[2]] }
        { demoScenario with targetReflectance := .fin 0.9, interp := true } false).1
      = (niirs5 demoEnv demoSensor.toSensor demoScenario false).1 :=
  ⟨C57_independent demoEnv demoSensor.toSensor (a := { demoScenario with targetReflectance := .fin 0.9, interp := true })
    (b := demoScenario) ⟨rfl, rfl, rfl, rfl, rfl, rfl, rfl⟩ false, C58_independent demoEnv demoSensor.toSensor [[2]]
    (a := { demoScenario with targetReflectance := .fin 0.9, interp := true }) (b := demoScenario) ⟨rfl, rfl, rfl, rfl, rfl, rfl, rfl⟩ false⟩

/-- C58: a history with a `niirs5` call that returned. -/
example : (niirs demoEnv (after demoEnv doublingSensor.toSensor demoScenario [.niirs true, .niirs5 false]).1
      (after demoEnv doublingSensor.toSensor demoScenario [.niirs true, .niirs5 false]).2 false).1
    = (niirs demoEnv { doublingSensor.toSensor with filterKernel := [[1]] } demoScenario false).1 := by
  refine (C58_history demoEnv doublingSensor.toSensor demoScenario _ false).2 ?_
  obtain ⟨m, c, φ, gw, rer, k1, -⟩ := niirs5_value demo_imaging
  refine ⟨false, m, by simp, ?_⟩
  rw [← k1]
  exact C58_independent demoEnv demoSensor.toSensor _ (SameScene.refl demoScenario) false

/-- C74: without data files a simulation fails, whatever the random numbers. -/
example (rng' : Rng) :
    simulateImage ⟨fun _ => none, fun _ _ => true⟩ true rng' demoRef demoSensor.toSensor demoScenario = .error .indexError := by
  refine C74_errors (rng := ⟨fun _ _ _ => 0, fun _ _ => 0⟩) ?_ rng'
  have e1 : loadNoInterp (fun _ => none) demoScenario.altitude demoScenario.groundRange demoScenario.ihaze = .error .indexError := by
    unfold loadNoInterp
    dsimp only
    split <;> rfl
  have e2 : (demoScenario.readAtm fun _ => none).1 = .error .indexError := by
    unfold Scenario.readAtm
    have a : demoScenario.atmCache = none := rfl
    have b : dbLoad (fun _ => none) ⟨demoScenario.interp, demoScenario.altitude, demoScenario.groundRange, demoScenario.ihaze⟩
        = .error .indexError := e1
    simp only [a, b]
  unfold simulateImage
  simp only [e2]
  rfl

/-- C74: the demonstration camera. -/
example : ∀ (usable : Bool) (rng : Rng) (R : SimResult), simulateImage demoEnv usable rng demoRef demoSensor.toSensor demoScenario = .ok R →
    Within R.trueImg 0 demoSensor.maxN := by
  obtain ⟨g, hv, -⟩ := demo_flatView
  exact (C74_range demo_simulation demo_counting hv).1

end PyBSM
