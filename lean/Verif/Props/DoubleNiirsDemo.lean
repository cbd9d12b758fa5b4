import Verif.Props.DoubleNiirsFine
import Verif.Props.DoubleChainDemo

/-!
The hypotheses of C124 hold in a concrete case: the demonstration sensor with an obscuration of 0.2001 and finer detectors.
-/

noncomputable section

open Classical

namespace PyBSM

open Spec

/-- The demonstration sensor with an obscuration of 0.2001 and detectors 2.4 micrometres apart. -/
def fineSensor : RealSensor := { clearSensor with pX := 2.4e-6, pY := 2.4e-6 }

theorem fine_imaging : Imaging demoEnv fineSensor demoScene demoScenario false demoInBand where
  usable := { clear_usable with }
  optical := { clear_optical with }
  viewing := demoScene_viewing
  scene := demoScene_of
  atmosphere := clear_imaging.atmosphere
  wavelengths := clear_imaging.wavelengths
  distinct := clear_imaging.distinct
  signal := clear_imaging.signal
  counts := clear_imaging.counts
  well := clear_imaging.well
  fill := clear_imaging.fill
  bits := clear_imaging.bits
  pitchX := by norm_num [fineSensor]
  pitchY := by norm_num [fineSensor]
  focal := clear_imaging.focal
  frames := clear_imaging.frames

theorem fine_rating :
    OrdinaryRating fineSensor demoScene (SumTree.halves 14 0 (fineSensor.band demoInBand).length) (fineSensor.band demoInBand)
      (fineSensor.exposure demoInBand) (0.1 / 3e-6) := { clear_rating with }

theorem fine_conditioned : fineSensor.WellConditioned 4000 10 demoInBand.length fun i => demoInBand.getD i 0 0 :=
  { clear_conditioned with regular := { clear_conditioned.regular with usable := { clear_usable with } }, physical := { clear_physical with } }

/-- A clear system with twenty samples per cycle: the responses beyond the edge rise clearly. -/
example : ClearShape (fun _ => 1) 100 (1 / 100000) 1e-5 ∧ IsOvershoot (fun _ => 1) 100 (1 / 100000) (edge 50 (fun _ => 1) 100 (1 / 100000) 1.25)
    ∧ 1 / 2 ≤ edge 50 (fun _ => 1) 100 (1 / 100000) 1.25 :=
  C124_rising rfl (fun _ => by norm_num) (by norm_num) (by norm_num) (by norm_num) (by norm_num) (by norm_num) (by norm_num)

/-- The GIQE 3 score of the sensor with fine detectors, radiometry and all, in double precision. -/
example {fl : ℝ → ℝ} (hfl : RoundsToNearest fl) : ∃ (w : ℕ → ℝ) (t snr : ℝ) (m : Metrics) (x x4 y y4 gsd gp r e : ℝ),
    RadiometryComputed ((2 : ℝ) ^ (-53 : ℤ)) (SumTree.halves 14 0 (demoInBand.length - 1)) (SumTree.sequential 2) fineSensor demoInBand
      w t snr
      ∧ (niirs demoEnv fineSensor.toSensor demoScenario false).1 = .ok m ∧ m.niirs = .fin y
      ∧ m.giqe34 = some (.fin (fineSensor.pY / fineSensor.f * demoScene.slant), .fin gsd, .fin r, .fin e, .fin 1, .fin y4, .fin gp)
      ∧ niirsD fl (fun x => fl (lg x)) Real.cos Real.arccos (roundedLib fl) demoInterp
        (SumTree.halves 14 0 (fineSensor.band demoInBand).length) (SumTree.halves 14 0 9999) (SumTree.halves 14 0 49) (SumTree.leaf 0)
        fineSensor demoScene (keptPairs demoInBand.length (fun i => demoInBand.getD i 0 0) w) t snr = .ok (.fin x, .fin x4)
      ∧ |x - y| ≤ (2.9 + 1.6 * e + 2.1 / (Real.sqrt fineSensor.frameStacks * fineSensor.contrastSNR demoInBand)) * 0.0006
        + 1.1e-14 * (14 + 3 * |lg (r / (gsd / 0.0254))| + 1.4 * e
          + 1 / (Real.sqrt fineSensor.frameStacks * fineSensor.contrastSNR demoInBand)) := by
  have hu : (2 : ℝ) ^ (-53 : ℤ) = 1 / 9007199254740992 := by norm_num
  have hlen : demoInBand.length ≤ 2000 := by
    refine (List.length_filter_le _ _).trans ?_
    simp [demoAtm]
  have ho : (SumTree.halves 14 0 (demoInBand.length - 1)).leaves.Perm (List.range (demoInBand.length - 1)) := by
    rw [halves_leaves _ _ _ (by omega), List.range_eq_range']
  have ho' : (SumTree.sequential 2).leaves.Perm (List.range fineSensor.otherNoise.length) := by
    rw [SumTree.sequential_leaves]; rfl
  have hA : ∀ a ∈ demoInBand, ∀ j, 0 ≤ a j := by
    intro a ha j
    obtain ⟨i, -, rfl⟩ := List.mem_map.mp (List.mem_filter.mp ha).1
    fin_cases j <;> norm_num <;> positivity
  have hk : ∀ a ∈ demoInBand, PlanckWithin 4000 (a 0) 282 ∧ PlanckWithin 4000 (a 0) 280 := fun a ha =>
    ⟨demo_planckWithin (demoInBand_mem ha).1 (demoInBand_mem ha).2.1 (by norm_num) (by norm_num),
      demo_planckWithin (demoInBand_mem ha).1 (demoInBand_mem ha).2.1 (by norm_num) (by norm_num)⟩
  have hd := halves_depth 14 0 (demoInBand.length - 1)
  have hK : ((1752 + 18 * 4000 + 36 * 10 + 6 * (SumTree.halves 14 0 (demoInBand.length - 1)).depth + (SumTree.sequential 2).depth : ℕ) : ℝ)
      ≤ 74300 := by
    rw [SumTree.sequential_depth]
    have : 1752 + 18 * 4000 + 36 * 10 + 6 * (SumTree.halves 14 0 (demoInBand.length - 1)).depth + 2 ≤ 74300 := by omega
    exact_mod_cast this
  have hKu : ((1752 + 18 * 4000 + 36 * 10 + 6 * (SumTree.halves 14 0 (demoInBand.length - 1)).depth + (SumTree.sequential 2).depth : ℕ) : ℝ)
      * (2 : ℝ) ^ (-53 : ℤ) ≤ 9e-12 := by
    calc _ ≤ (74300 : ℝ) * (2 : ℝ) ^ (-53 : ℤ) := mul_le_mul_of_nonneg_right hK (by positivity)
      _ ≤ _ := by rw [hu]; norm_num
  obtain ⟨w, t, snr, hr⟩ := radiometry_computed (s := fineSensor) (order := SumTree.halves 14 0 (demoInBand.length - 1))
    (order' := SumTree.sequential 2) (by positivity) (nearest_rnd hfl) fine_imaging.wavelengths fine_conditioned hA hk ho ho'
    (K := 4108) (by norm_num) (by rw [hu]; norm_num)
  have q : fineSensor.pX / fineSensor.f * (0.1 / 3e-6) = 0.08 := by norm_num [fineSensor, clearSensor, demoSensor]
  have q' : fineSensor.pY / fineSensor.f * (0.1 / 3e-6) = 0.08 := by norm_num [fineSensor, clearSensor, demoSensor]
  have hsl := scene_slant_ge (g := demoScene) (by norm_num [demoScene])
  obtain ⟨m, x, x4, y, y4, gsd, gp, r, e, h1, h2, h3, h4, h5, -, -⟩ := C124_inputs hfl (rounded_equation hfl) real_cosine real_arccos
    (roundedLib_accurate hfl) (tenth_rounded hfl) demoInterp_ok (by positivity) fine_imaging rfl (by norm_num [fineSensor, clearSensor, demoSensor])
    fine_conditioned hA hk ho ho' rfl (hKu.trans (by norm_num)) clear_brighter clear_contrast
    (le_trans (mul_le_mul_of_nonneg_right hKu (by norm_num)) (by norm_num)) hr fine_rating (order' := SumTree.halves 14 0 9999)
    (order'' := SumTree.halves 14 0 49) (orderK := SumTree.leaf 0) (by norm_num [fineSensor, clearSensor, demoSensor])
    (by rw [halves_leaves _ _ _ (by norm_num), List.range_eq_range']) ((halves_depth _ _ _).trans (by norm_num))
    (by rw [slice_101 hfl, halves_leaves _ _ _ (by norm_num), List.range_eq_range']) ((halves_depth _ _ _).trans (by norm_num))
    (List.Perm.refl _) (by rw [q]; norm_num) (by rw [q]; norm_num) (by rw [q']; norm_num) (by rw [q']; norm_num)
    (le_trans (by norm_num [demoScene]) hsl)
  exact ⟨w, t, snr, m, x, x4, y, y4, gsd, gp, r, e, hr, h1, h2, h3, h4, h5⟩

end PyBSM
