import Verif.Props.DoubleRating
import Verif.Props.NiirsDemo

/-!
The hypotheses of C121 hold in a concrete case: the demonstration sensor with an obscuration of 0.2001.
-/

noncomputable section

open Classical

namespace PyBSM

open Spec

variable {fl : ℝ → ℝ}

/-- The demonstration sensor with an obscuration that is not misjudged. -/
def clearSensor : RealSensor := { demoSensor with eta := 0.2001 }

theorem clear_usable : clearSensor.Usable :=
  ⟨demoSensor_usable.aperture, demoSensor_usable.transmission_ne, demoSensor_usable.transmission_inc,
    demoSensor_usable.qe_ne, demoSensor_usable.qe_inc, demoSensor_usable.coldShield, demoSensor_usable.optics,
    demoSensor_usable.coldFilter⟩

theorem clear_optical : clearSensor.Optical :=
  ⟨demoSensor_optical.aperture, demoSensor_optical.focal, by norm_num [clearSensor], by norm_num [clearSensor],
    demoSensor_optical.corrX, demoSensor_optical.corrY⟩

theorem clear_physical : clearSensor.Physical :=
  ⟨demoSensor_physical.width, by norm_num [clearSensor], demoSensor_physical.coldFilter, demoSensor_physical.transmission,
    demoSensor_physical.qe, demoSensor_physical.opticsEmissivity, demoSensor_physical.coldFilterEmissivity, demoSensor_physical.dark⟩

theorem clear_trans {x : ℝ} (h1 : 3e-6 ≤ x) (h2 : x ≤ 5e-6) : 0 < clearSensor.transAt x := by
  have := demo_onTable (m := 0.7) clear_usable.transmission_ne clear_usable.transmission_inc
    (x := x) ⟨(3e-6, 0.8), by simp [clearSensor, demoSensor], h1⟩ ⟨(5e-6, 0.7), by simp [clearSensor, demoSensor], h2⟩
    (by simp [clearSensor, demoSensor]; norm_num)
  unfold RealSensor.transAt
  have h3 : 0 < clearSensor.coldFilterTransmission * (1 - clearSensor.eta ^ 2) := by norm_num [clearSensor, demoSensor]
  have : 0 < tableAt clearSensor.transmission x := by linarith
  positivity


theorem clear_spectral_lt {x l l' : ℝ} (h1 : 3e-6 ≤ x) (h2 : x ≤ 5e-6) (h : l < l') :
    clearSensor.spectral x l < clearSensor.spectral x l' := by
  have ht := clear_trans h1 h2
  have hq := demo_qe h1 h2
  have h0 : 0 < x := lt_of_lt_of_le (by norm_num) h1
  have h6 := apertureFactor_pos clearSensor.D clearSensor.f
  have h7 : 0 < clearSensor.wX * clearSensor.wY := by norm_num [clearSensor, demoSensor]
  have hp1 := planckH_pos
  have hp2 := lightC_pos
  unfold RealSensor.spectral spectralRate
  gcongr


theorem clear_spectral_pos {a : Fin 6 → ℝ} (h : a ∈ demoInBand) {l : ℝ} (hl : 0 < l) :
    0 < clearSensor.spectral (a 0) l := by
  obtain ⟨h1, h2, -⟩ := demoInBand_mem h
  have h0 : 0 < a 0 := lt_of_lt_of_le (by norm_num) h1
  exact lt_of_le_of_lt (spectral_nonneg clear_usable clear_physical h0 le_rfl) (clear_spectral_lt h1 h2 hl)


theorem clear_brighter : clearSensor.electrons demoInBand clearSensor.backgroundAt
    < clearSensor.electrons demoInBand clearSensor.targetAt := by
  have h2 := demoInBand_length
  have hlt : ∀ i < demoInBand.length, clearSensor.spectral (demoInBand.getD i 0 0) (clearSensor.backgroundAt (demoInBand.getD i 0))
      < clearSensor.spectral (demoInBand.getD i 0 0) (clearSensor.targetAt (demoInBand.getD i 0)) := by
    intro i hi
    have hm := getD_mem hi
    obtain ⟨h1, h2, -⟩ := demoInBand_mem hm
    exact clear_spectral_lt h1 h2 (demo_target hm).1
  have := trap_strictMono (x := fun i => demoInBand.getD i 0 0) h2 (fun i hi => counting_step demoInBand_sorted hi) (fun i hi => (hlt i hi).le)
    (k := 0) (by omega) (hlt 0 (by omega))
  unfold RealSensor.electrons RealSensor.rate
  have ht : 0 < clearSensor.intTime := by norm_num [clearSensor, demoSensor]
  have hn : 0 < clearSensor.nTdi := by norm_num [clearSensor, demoSensor]
  exact mul_lt_mul_of_pos_right (mul_lt_mul_of_pos_right (add_lt_add_left this _) ht) hn


theorem clear_counts : 0 < clearSensor.brightest demoInBand := by
  have hb : 0 ≤ clearSensor.electrons demoInBand clearSensor.backgroundAt := by
    unfold RealSensor.electrons RealSensor.rate
    have : 0 ≤ trap demoInBand.length (fun i => demoInBand.getD i 0 0) (fun i =>
        clearSensor.spectral (demoInBand.getD i 0 0) (clearSensor.backgroundAt (demoInBand.getD i 0))) :=
      trap_nonneg (fun i hi => (counting_step demoInBand_sorted hi).le)
        (fun i hi => (clear_spectral_pos (getD_mem hi) (demo_target (getD_mem hi)).2).le)
    have ht : 0 < clearSensor.intTime := by norm_num [clearSensor, demoSensor]
    have hn : 0 < clearSensor.nTdi := by norm_num [clearSensor, demoSensor]
    have hd : 0 < clearSensor.darkCurrent := by norm_num [clearSensor, demoSensor]
    exact mul_nonneg (mul_nonneg (add_nonneg this hd.le) ht.le) hn.le
  exact lt_of_le_of_lt hb (lt_of_lt_of_le clear_brighter (le_max_left _ _))


theorem clear_imaging : Imaging demoEnv clearSensor demoScene demoScenario false demoInBand where
  usable := clear_usable
  optical := clear_optical
  viewing := demoScene_viewing
  scene := demoScene_of
  atmosphere := ⟨demoAtm, demoAtm_load, rfl⟩
  wavelengths := fun _ ha => lt_of_lt_of_le (by norm_num) (demoInBand_mem ha).1
  distinct := demoInBand_sorted.imp fun h => h.ne
  signal := by
    have h := demoInBand_row (i := 320) (by norm_num) (by norm_num)
    exact ⟨_, h, clear_spectral_pos h ((demo_target h).2.trans (demo_target h).1)⟩
  counts := clear_counts.le
  well := by norm_num [clearSensor, demoSensor]
  fill := by norm_num [clearSensor, demoSensor]
  bits := by norm_num [clearSensor, demoSensor]
  pitchX := by norm_num [clearSensor, demoSensor]
  pitchY := by norm_num [clearSensor, demoSensor]
  focal := by norm_num [clearSensor, demoSensor]
  frames := by norm_num [clearSensor, demoSensor]


theorem clear_cut : 0 < clearSensor.cut demoInBand := by
  unfold RealSensor.cut
  split_ifs
  · norm_num
  · have := clear_counts
    have : 0 < clearSensor.maxWellFill * clearSensor.maxN := by norm_num [clearSensor, demoSensor]
    positivity


theorem clear_contrast_pos : 0 < clearSensor.contrastSNR demoInBand :=
  (div_pos (mul_pos clear_cut (sub_pos.mpr clear_brighter))
    (noise_pos clear_imaging.well clear_imaging.fill clear_imaging.bits clear_imaging.counts))

theorem clear_row {p : ℝ × ℝ} (hp : p ∈ clearSensor.band demoInBand) :
    ∃ i : ℕ, 270 ≤ i ∧ i ≤ 470 ∧ p.1 = (0.30 + 0.01 * (i : ℝ)) * 1e-6 := by
  obtain ⟨a, ha, rfl⟩ := List.mem_map.mp (List.mem_filter.mp hp).1
  obtain ⟨h1, h2, -⟩ := demoInBand_mem ha
  obtain ⟨i, -, rfl⟩ := List.mem_map.mp (List.mem_filter.mp ha).1
  change 3e-6 ≤ (0.30 + 0.01 * (i : ℝ)) * 1e-6 at h1
  change (0.30 + 0.01 * (i : ℝ)) * 1e-6 ≤ 5e-6 at h2
  refine ⟨i, ?_, ?_, rfl⟩
  · have : (270 : ℝ) ≤ i := by linarith
    exact_mod_cast this
  · have : (i : ℝ) ≤ 470 := by linarith
    exact_mod_cast this

theorem clear_exposure_pos : 0 < clearSensor.exposure demoInBand := by
  unfold RealSensor.exposure
  exact mul_pos clear_cut (by norm_num [clearSensor, demoSensor])

theorem clear_few : (clearSensor.band demoInBand).length ≤ 2000 := by
  refine (List.length_filter_le _ _).trans ?_
  rw [List.length_map]
  refine (List.length_filter_le _ _).trans ?_
  simp [demoAtm]

theorem clear_rating :
    OrdinaryRating clearSensor demoScene (SumTree.halves 14 0 (clearSensor.band demoInBand).length) (clearSensor.band demoInBand)
      (clearSensor.exposure demoInBand) (0.1 / 3e-6) where
  band := imaging_band clear_imaging.wavelengths clear_imaging.distinct clear_imaging.signal
  few := clear_few
  adds := by
    rw [halves_leaves _ _ _ (by have := clear_few; omega), List.range_eq_range']
  rounds := (halves_depth _ _ _).trans (by norm_num)
  aperture := by norm_num [clearSensor, demoSensor]
  focal := by norm_num [clearSensor, demoSensor]
  shortest := by
    have h := demoInBand_row (i := 270) (by norm_num) (by norm_num)
    refine ⟨_, List.mem_filter.mpr ⟨List.mem_map.mpr ⟨_, h, rfl⟩, decide_eq_true (clear_spectral_pos h ((demo_target h).2.trans (demo_target h).1))⟩, ?_⟩
    show 0.1 / 3e-6 = 0.1 / ((0.30 + 0.01 * ((270 : ℕ) : ℝ)) * 1e-6)
    norm_num
  octave := by
    intro p hp
    obtain ⟨i, h1, h2, e⟩ := clear_row hp
    have h1 : (270 : ℝ) ≤ i := by exact_mod_cast h1
    have h2 : (i : ℝ) ≤ 470 := by exact_mod_cast h2
    rw [e]
    show 0.1 ≤ 0.1 / 3e-6 * ((0.30 + 0.01 * (i : ℝ)) * 1e-6) ∧ 0.1 / 3e-6 * ((0.30 + 0.01 * (i : ℝ)) * 1e-6) ≤ 2 * 0.1
    constructor
    · have : 0.1 / 3e-6 * ((0.30 + 0.01 * (i : ℝ)) * 1e-6) = (0.30 + 0.01 * (i : ℝ)) / 30 := by norm_num; ring
      rw [this]; linarith
    · have : 0.1 / 3e-6 * ((0.30 + 0.01 * (i : ℝ)) * 1e-6) = (0.30 + 0.01 * (i : ℝ)) / 30 := by norm_num; ring
      rw [this]; linarith
  large := by norm_num
  obscuration := by
    refine Or.inr ⟨by norm_num [clearSensor], by norm_num [clearSensor], ?_⟩
    intro p hp k hk
    obtain ⟨i, h1, h2, e⟩ := clear_row hp
    rw [e]
    show 1e-10 < |(k : ℝ) * (0.1 / 3e-6 / 50) / (0.1 / ((0.30 + 0.01 * (i : ℝ)) * 1e-6)) - (1 - 0.2001) / 2|
    have e2 : (k : ℝ) * (0.1 / 3e-6 / 50) / (0.1 / ((0.30 + 0.01 * (i : ℝ)) * 1e-6)) = ((k * (30 + i) : ℕ) : ℝ) / 15000 := by
      push_cast
      rw [div_div_eq_mul_div]
      norm_num
      ring
    rw [e2]
    rcases Nat.lt_or_ge (k * (30 + i)) 6000 with hlt | hge
    · have : ((k * (30 + i) : ℕ) : ℝ) ≤ 5999 := by exact_mod_cast (by omega : k * (30 + i) ≤ 5999)
      rw [abs_sub_comm]
      refine lt_of_lt_of_le ?_ (le_abs_self _)
      linarith
    · have : (6000 : ℝ) ≤ ((k * (30 + i) : ℕ) : ℝ) := by exact_mod_cast hge
      refine lt_of_lt_of_le ?_ (le_abs_self _)
      linarith
  phase := ⟨by norm_num [clearSensor, demoSensor], fun p _ => by norm_num [clearSensor, demoSensor]⟩
  exposed := clear_exposure_pos
  altitude := by norm_num [demoScene]
  range := by norm_num [demoScene]
  wind := by norm_num [demoScene]
  ground := by norm_num [demoScene]
  turbulence := by
    intro _
    refine ⟨by norm_num [demoScene], by norm_num [clearSensor, demoSensor], ?_⟩
    intro p hp
    obtain ⟨i, h1, h2, e⟩ := clear_row hp
    have h1 : (270 : ℝ) ≤ i := by exact_mod_cast h1
    have h2 : (i : ℝ) ≤ 470 := by exact_mod_cast h2
    have l0 : 3e-6 ≤ p.1 := by rw [e]; linarith
    have l1 : p.1 ≤ 5e-6 := by rw [e]; linarith
    obtain ⟨f0, f1⟩ := demo_fried l0 l1
    show Ordinary p.1 ∧ 1e-20 ≤ 0.1 / fried 9000 60000 21 1.7e-14 p.1 ∧ 0.1 / fried 9000 60000 21 1.7e-14 p.1 ≤ 1e20
    generalize fried 9000 60000 21 1.7e-14 p.1 = r at *
    have hr : 0 < r := by linarith
    refine ⟨?_, ?_, ?_⟩
    · norm_num [Ordinary]
      constructor <;> linarith
    · rw [le_div_iff₀ hr]; linarith
    · rw [div_le_iff₀ hr]; linarith

theorem rounded_equation (hfl : RoundsToNearest fl) :
    Accurate (fun x => fl (lg x)) (roundedLib fl).sin (roundedLib fl).exp (roundedLib fl).pow where
  log x _ := (hfl.error _).trans (mul_le_mul_of_nonneg_right (by norm_num) (abs_nonneg _))
  sin x := (hfl.error _).trans (mul_le_mul_of_nonneg_right (by norm_num) (abs_nonneg _))
  exp x := by
    have := hfl.error (Real.exp x)
    have hp := Real.exp_pos x
    rw [abs_of_pos hp] at this
    exact this.trans (mul_le_mul_of_nonneg_right (by norm_num) hp.le)
  pow x p hx := by
    have := hfl.error (x ^ p)
    have hp := Real.rpow_nonneg hx.le p
    rw [abs_of_nonneg hp] at this
    exact this.trans (mul_le_mul_of_nonneg_right (by norm_num) hp)
  pow_four x := by
    have h4 : x ^ (4 : ℝ) = x ^ 4 := by rw [← Real.rpow_natCast]; norm_num
    have hp : 0 ≤ x ^ 4 := by positivity
    have := hfl.error (x ^ 4)
    rw [abs_of_nonneg hp] at this
    show |fl (x ^ (4 : ℝ)) - x ^ 4| ≤ _
    rw [h4]
    exact this.trans (mul_le_mul_of_nonneg_right (by norm_num) hp)

/-- The score of the demonstration sensor in double precision, from the exact weights, exposure time and signal-to-noise ratio. -/
example (hfl : RoundsToNearest fl) : ∃ (m : Metrics) (x y ru rv gw r : ℝ),
    (niirs5 demoEnv clearSensor.toSensor demoScenario false).1 = .ok m ∧ m.niirs = .fin y
      ∧ m.giqe5 = some (.fin ru, .fin rv, .fin gw, .fin r)
      ∧ niirs5D fl (fun x => fl (lg x)) Real.cos Real.arccos (roundedLib fl) demoInterp
        (SumTree.halves 14 0 (clearSensor.band demoInBand).length) (SumTree.halves 14 0 9999) (SumTree.halves 14 0 49) clearSensor demoScene
        (clearSensor.band demoInBand) (clearSensor.exposure demoInBand) (clearSensor.contrastSNR demoInBand) = .fin x
      ∧ |x - y| ≤ (3.3 + 1.4 * |lg r| + 3.6 * |lg r| ^ 3 + 1.9 / (Real.sqrt clearSensor.frameStacks * clearSensor.contrastSNR demoInBand))
          * 0.0006
        + 2.1e-14 * (17 + 3.4 * |lg (gw / 0.0254)| + 3.4 * |lg r| + 2 * (1 + |lg r|) ^ 4
          + 1.8 / (Real.sqrt clearSensor.frameStacks * clearSensor.contrastSNR demoInBand)) := by
  have hb := imaging_band clear_imaging.wavelengths clear_imaging.distinct clear_imaging.signal
  have q : clearSensor.pX / clearSensor.f * (0.1 / 3e-6) = 1 / 3 := by norm_num [clearSensor, demoSensor]
  have q' : clearSensor.pY / clearSensor.f * (0.1 / 3e-6) = 1 / 3 := by norm_num [clearSensor, demoSensor]
  have pos : ∀ p ∈ clearSensor.band demoInBand, 0 < p.2 := by
    intro p hp
    simpa using (List.mem_filter.mp hp).2
  have hsl := scene_slant_ge (g := demoScene) (by norm_num [demoScene])
  obtain ⟨m, x, y, ru, rv, gw, r, h1, h2, h3, h4, h5, -⟩ := C121_well_sampled hfl (rounded_equation hfl) real_cosine real_arccos
    (roundedLib_accurate hfl) (tenth_rounded hfl) demoInterp_ok clear_imaging clear_rating (order' := SumTree.halves 14 0 9999)
    (order'' := SumTree.halves 14 0 49) (pairs := clearSensor.band demoInBand) (δw := 0) (δt := 0) (δs := 0)
    (by norm_num [clearSensor, demoSensor]) (List.forall₂_same.mpr fun p hp => ⟨rfl, WithinFactor.refl (pos p hp)⟩)
    (WithinFactor.refl clear_exposure_pos) (by norm_num) (WithinFactor.refl clear_contrast_pos) (by norm_num)
    (by rw [halves_leaves _ _ _ (by norm_num), List.range_eq_range']) ((halves_depth _ _ _).trans (by norm_num))
    (by rw [slice_101 hfl, halves_leaves _ _ _ (by norm_num), List.range_eq_range']) ((halves_depth _ _ _).trans (by norm_num))
    (by rw [q]; norm_num) (by rw [q]; norm_num) (by rw [q']; norm_num) (by rw [q']; norm_num)
    (le_trans (by norm_num [demoScene]) hsl) (by norm_num [demoScene])
  exact ⟨m, x, y, ru, rv, gw, r, h1, h2, h3, h4, h5⟩

end PyBSM
