import Verif.Props.Haze

/-!
# A concrete hazy atmosphere for C139
-/

noncomputable section

open Classical

namespace PyBSM

open Spec

/-- A data file with half the transmission and reflected sunlight of `demoFile` and brighter air. -/
def hazyFile : List XR :=
  (List.range (1371 * 5)).map fun i => if i < 1371 then .fin 0.25 else if i < 1371 * 4 then .fin 0.75 else .fin 0.25

theorem hazyFile_length : hazyFile.length = 1371 * 5 := by simp [hazyFile]

/-- The environment in which every data file is that one. -/
def hazyEnv : Env := ⟨fun _ => some hazyFile, fun _ _ => true⟩

/-- The atmosphere that gives. -/
def hazyAtm : List (Fin 6 → ℝ) :=
  (List.range 1371).map fun i : ℕ => ![(0.30 + 0.01 * i) * 1e-6, 0.25, 7.5e9, 7.5e9, 7.5e9, 2.5e9]

theorem hazyAtm_record : IsRecord hazyFile (realAtm hazyAtm) := by
  have hat : ∀ (i : ℕ) (j : Fin 6), i < 1371 →
      atmAt (realAtm hazyAtm) i j = .fin (![(0.30 + 0.01 * (i : ℝ)) * 1e-6, 0.25, 7.5e9, 7.5e9, 7.5e9, 2.5e9] j) := by
    intro i j hi
    unfold atmAt realAtm hazyAtm
    rw [List.map_map, List.getD_eq_getElem _ _ (by simpa using hi)]
    simp
  have hraw : ∀ i, i < 1371 * 5 → hazyFile.getD i .nan
      = if i < 1371 then .fin 0.25 else if i < 1371 * 4 then .fin 0.75 else .fin 0.25 := by
    intro i hi
    have hl : i < hazyFile.length := by rw [hazyFile_length]; exact hi
    rw [List.getD_eq_getElem _ _ hl]
    simp [hazyFile]
  constructor
  · simp [realAtm, hazyAtm]
  · intro i hi
    rw [hat i 0 hi]
    rfl
  · intro i hi
    rw [hat i 1 hi, hraw _ (by omega), if_pos (by omega)]
    rfl
  · intro i hi c
    have := c.2
    rw [hat i _ hi, hraw _ (by omega), if_neg (by omega)]
    fin_cases c
    · rw [if_pos (by simp; omega), XR.fin_mul]; norm_num
    · rw [if_pos (by simp; omega), XR.fin_mul]; norm_num
    · rw [if_pos (by simp; omega), XR.fin_mul]; norm_num
    · rw [if_neg (by simp), XR.fin_mul]; norm_num

theorem hazyAtm_load : loadNoInterp hazyEnv.files demoScenario.altitude demoScenario.groundRange demoScenario.ihaze
    = .ok (realAtm hazyAtm) := by
  obtain ⟨r, hr⟩ := row_9000_60000
  obtain ⟨a, h1, h2⟩ := C03_lookup (files := hazyEnv.files) (raw := hazyFile) hr rfl hazyFile_length
  rw [isRecord_unique h2 hazyAtm_record] at h1
  exact h1

/-- The rows in the 3-5 µm band. -/
def hazyInBand : List (Fin 6 → ℝ) := demoSensor.rowsInBand hazyAtm

theorem hazy_same_waves {l : List ℕ} {f g : ℕ → Fin 6 → ℝ} {R : (Fin 6 → ℝ) → (Fin 6 → ℝ) → Prop} (h0 : ∀ i, g i 0 = f i 0)
    (h : ∀ i, R (f i) (g i)) (s : RealSensor) : List.Forall₂ R (s.rowsInBand (l.map f)) (s.rowsInBand (l.map g)) := by
  unfold RealSensor.rowsInBand
  rw [List.filter_map, List.filter_map, List.forall₂_map_left_iff, List.forall₂_map_right_iff]
  have e : l.filter ((fun a : Fin 6 → ℝ => decide (∃ lo hi, s.transmission.head? = some lo ∧ s.transmission.getLast? = some hi
      ∧ lo.1 ≤ a 0 ∧ a 0 ≤ hi.1)) ∘ g) = l.filter ((fun a : Fin 6 → ℝ => decide (∃ lo hi, s.transmission.head? = some lo
      ∧ s.transmission.getLast? = some hi ∧ lo.1 ≤ a 0 ∧ a 0 ≤ hi.1)) ∘ f) :=
    List.filter_congr fun i _ => by simp only [Function.comp, h0]
  rw [e]
  exact List.forall₂_same.mpr fun i _ => h i

/-- The rows of the two atmospheres. -/
def clearRow (i : ℕ) : Fin 6 → ℝ := ![(0.30 + 0.01 * i) * 1e-6, 0.5, 5e9, 5e9, 5e9, 5e9]

def hazyRow (i : ℕ) : Fin 6 → ℝ := ![(0.30 + 0.01 * i) * 1e-6, 0.25, 7.5e9, 7.5e9, 7.5e9, 2.5e9]

theorem hazier_row (i : ℕ) : Hazier 0.5 (clearRow i) (hazyRow i) := by
  have gen : ∀ w t p q r u t' p' q' r' u' : ℝ, t' = 0.5 * t → u' = 0.5 * u →
      p + r ≤ p' + r' → Hazier 0.5 ![w, t, p, q, r, u] ![w, t', p', q', r', u'] :=
    fun _ _ _ _ _ _ _ _ _ _ _ h1 h2 h3 => ⟨rfl, h1, h2, h3⟩
  unfold clearRow hazyRow
  apply gen <;> norm_num

theorem demoAtm_rows : demoAtm = (List.range 1371).map clearRow := by
  unfold demoAtm clearRow
  rfl

theorem hazyAtm_rows : hazyAtm = (List.range 1371).map hazyRow := by
  unfold hazyAtm hazyRow
  rfl

theorem hazier_demo : List.Forall₂ (Hazier 0.5) demoInBand hazyInBand := by
  unfold demoInBand hazyInBand
  rw [demoAtm_rows, hazyAtm_rows]
  exact hazy_same_waves (fun i => (hazier_row i).wavelength) hazier_row demoSensor

theorem hazyInBand_mem {a : Fin 6 → ℝ} (h : a ∈ hazyInBand) :
    3e-6 ≤ a 0 ∧ a 0 ≤ 5e-6 ∧ a 1 = 0.25 ∧ a 2 = 7.5e9 ∧ a 4 = 7.5e9 ∧ a 5 = 2.5e9 := by
  obtain ⟨h1, h2⟩ := List.mem_filter.mp h
  obtain ⟨lo, hi, e1, e2, e3, e4⟩ := of_decide_eq_true h2
  obtain ⟨i, -, rfl⟩ := List.mem_map.mp h1
  simp only [demoSensor, List.head?_cons, Option.some.injEq, List.getLast?_cons_cons, List.getLast?_singleton] at e1 e2
  subst e1 e2
  exact ⟨e3, e4, rfl, rfl, rfl, rfl⟩

theorem hazyInBand_waves : hazyInBand.map (· 0) = demoInBand.map (· 0) := by
  refine List.forall₂_eq_eq_eq ▸ ?_
  rw [List.forall₂_map_left_iff, List.forall₂_map_right_iff]
  exact (List.Forall₂.imp (fun _ _ h => h.wavelength) hazier_demo).flip.imp fun _ _ h => h

theorem hazy_spectral {a : Fin 6 → ℝ} (h : a ∈ hazyInBand) {l : ℝ} (hl : 0 < l) : 0 < demoSensor.spectral (a 0) l := by
  have : a 0 ∈ demoInBand.map (· 0) := by
    rw [← hazyInBand_waves]
    exact List.mem_map.mpr ⟨a, h, rfl⟩
  obtain ⟨b, hb, e⟩ := List.mem_map.mp this
  rw [← e]
  exact demo_spectral_pos hb hl

theorem hazy_nonempty : ∃ a, a ∈ hazyInBand := by
  have h := hazier_demo.length_eq
  have h2 := demoInBand_length
  exact List.exists_mem_of_length_pos (by omega)

theorem hazy_counting : Counting demoSensor hazyInBand where
  physical := demoSensor_physical
  increasing := by rw [hazyInBand_waves]; exact demoInBand_sorted
  transmission := fun _ ha => by rw [(hazyInBand_mem ha).2.2.1]; norm_num
  path := fun _ ha => by rw [(hazyInBand_mem ha).2.2.2.1]; norm_num
  scattered := fun _ ha => by rw [(hazyInBand_mem ha).2.2.2.2.1]; norm_num
  reflected := fun _ ha => by rw [(hazyInBand_mem ha).2.2.2.2.2]; norm_num
  exposure := by norm_num [demoSensor]
  tdi := by norm_num [demoSensor]

theorem hazy_imaging : Imaging hazyEnv demoSensor demoScene demoScenario false hazyInBand where
  usable := demoSensor_usable
  optical := demoSensor_optical
  viewing := demoScene_viewing
  scene := demoScene_of
  atmosphere := ⟨hazyAtm, hazyAtm_load, rfl⟩
  wavelengths := fun _ ha => lt_of_lt_of_le (by norm_num) (hazyInBand_mem ha).1
  distinct := by rw [hazyInBand_waves]; exact demo_imaging.distinct
  signal := by
    obtain ⟨a, ha⟩ := hazy_nonempty
    have h0 : 0 < a 0 := lt_of_lt_of_le (by norm_num) (hazyInBand_mem ha).1
    have h := path_le_target (s := demoSensor) h0 (hazy_counting.transmission _ ha) (hazy_counting.reflected _ ha)
    have hp : 0 < pathAt a := by
      unfold pathAt
      rw [(hazyInBand_mem ha).2.2.2.1, (hazyInBand_mem ha).2.2.2.2.1]
      norm_num
    exact ⟨a, ha, hazy_spectral ha (hp.trans_le h)⟩
  counts := by
    obtain ⟨P, P', S, U, hP, hPP, hS, hU, e1, e2, e3, e4⟩ :=
      hazier_counts demoSensor_usable demo_imaging.wavelengths demo_counting hazier_demo
    refine le_max_of_le_left ?_
    rw [e3]
    have := hP.trans hPP
    positivity
  well := demo_imaging.well
  fill := demo_imaging.fill
  bits := demo_imaging.bits
  pitchX := demo_imaging.pitchX
  pitchY := demo_imaging.pitchY
  focal := demo_imaging.focal
  frames := demo_imaging.frames

/-- The hypotheses of C139 hold in a concrete case. -/
example : ∃ (m m' : Metrics) (x x' : ℝ), (niirs5 demoEnv demoSensor.toSensor demoScenario false).1 = .ok m
      ∧ (niirs5 hazyEnv demoSensor.toSensor demoScenario false).1 = .ok m'
      ∧ m.snr.snr = .fin x ∧ m'.snr.snr = .fin x' ∧ |x'| ≤ |x| ∧ 0 ≤ x * x' :=
  (C139_ratings demo_imaging hazy_imaging demo_counting (by norm_num) (by norm_num) hazier_demo).1

theorem hazy_readAtm : (demoScenario.readAtm hazyEnv.files).1 = .ok (realAtm hazyAtm) := by
  unfold Scenario.readAtm
  have e : demoScenario.atmCache = none := rfl
  have e2 : dbLoad hazyEnv.files ⟨demoScenario.interp, demoScenario.altitude, demoScenario.groundRange, demoScenario.ihaze⟩
      = .ok (realAtm hazyAtm) := hazyAtm_load
  simp only [e, e2]

theorem hazy_white : ∃ a ∈ hazyInBand, 0 < demoSensor.spectral (a 0) (greyRadiance a 1 300) := by
  obtain ⟨a, ha⟩ := hazy_nonempty
  refine ⟨a, ha, hazy_spectral ha ?_⟩
  have h0 : 0 < a 0 := lt_of_lt_of_le (by norm_num) (hazyInBand_mem ha).1
  have h := path_le_grey h0 (hazy_counting.transmission _ ha) (hazy_counting.reflected _ ha) (r := 1) (T := 300)
    zero_le_one le_rfl (by norm_num)
  have hp : 0 < pathAt a := by
    unfold pathAt
    rw [(hazyInBand_mem ha).2.2.2.1, (hazyInBand_mem ha).2.2.2.2.1]
    norm_num
  exact hp.trans_le h

theorem hazy_simulation : Simulation hazyEnv demoSensor demoScenario demoRef [(0, 0.05), (100, 0.95)] hazyInBand where
  usable := demoSensor_usable
  optical := demoSensor_optical
  kernel := demo_simulation.kernel
  well := demo_simulation.well
  bits := demo_simulation.bits
  atmosphere := ⟨hazyAtm, hazy_readAtm, rfl⟩
  wavelengths := hazy_imaging.wavelengths
  distinct := hazy_imaging.distinct
  signal := hazy_white
  image := demoRef_of

theorem hazy_cutoff {c : ℝ} (h : IsCutoff demoSensor.D (demoSensor.whiteBand hazyInBand) c) : 20000 ≤ c ∧ c ≤ 33334 := by
  obtain ⟨lam, ⟨p, hp, rfl⟩, -, rfl⟩ := h
  obtain ⟨a, ha, rfl⟩ := List.mem_map.mp (List.mem_filter.mp hp).1
  obtain ⟨h1, h2, -⟩ := hazyInBand_mem ha
  have h0 : 0 < a 0 := lt_of_lt_of_le (by norm_num) h1
  have hD : demoSensor.D = 0.1 := rfl
  dsimp only
  rw [hD]
  constructor
  · rw [le_div_iff₀ h0]; linarith
  · rw [div_le_iff₀ h0]; linarith

theorem hazy_succeeds (rng : Rng) : ∃ R, simulateImage hazyEnv true rng demoRef demoSensor.toSensor demoScenario = .ok R := by
  obtain ⟨g, hv, hs, ha⟩ := demo_flatView
  have hp := demoSlant_pos
  have e1 : demoSensor.wX / demoSensor.f = 1e-5 := by norm_num [demoSensor]
  have e2 : demoSensor.wY / demoSensor.f = 1e-5 := by norm_num [demoSensor]
  have e3 : demoSensor.daX * demoSensor.intTime * demoSensor.nTdi = 1e-7 := by norm_num [demoSensor]
  have e4 : demoSensor.daY * demoSensor.intTime * demoSensor.nTdi = 1e-7 := by norm_num [demoSensor]
  have hr : 2 * demoSlant / g.slant = 2 := by rw [hs]; field_simp
  have he : (1e-5 : ℝ) = (demoSensor.pX + demoSensor.pY) / 2 / demoSensor.f := by norm_num [demoSensor]
  have exact_ : ∀ {x : ℝ} {n : ℤ}, x = n → IsRoundHalfEven x n := by
    intro x n h
    subst h
    exact ⟨by norm_num, by norm_num⟩
  obtain ⟨R, h1, -⟩ := C76_coarse hazy_simulation hazy_counting (by norm_num [demoSensor]) hv
    (γ := 2 * demoSlant) rfl (by norm_num [demoRef]) (by norm_num [demoRef])
    (fun c hc => by
      obtain ⟨c1, -⟩ := hazy_cutoff hc
      have h1 : 2 * demoSlant / 2 / g.slant = 1 := by rw [hs]; field_simp
      rw [h1, Real.arctan_one, div_lt_iff₀ (by linarith)]
      nlinarith [Real.pi_gt_three])
    (fun c hc => by
      obtain ⟨c1, c2⟩ := hazy_cutoff hc
      refine (optics_sum_pos demoSensor_optical hv.viewing (positive_band hazy_simulation.wavelengths
        hazy_simulation.distinct hazy_simulation.signal) ?_ (by linarith) ?_ ?_ ?_ ?_).ne'
      · rw [ha]; norm_num [demoSensor]
      · rw [e1, abs_of_pos (by norm_num)]; linarith
      · rw [e2, abs_of_pos (by norm_num)]; linarith
      · rw [e3, abs_of_pos (by norm_num)]; linarith
      · rw [e4, abs_of_pos (by norm_num)]; linarith)
    he (by norm_num) (nh := 400000) (nw := 600000) (np := 200000)
    (exact_ (by rw [hr]; norm_num [demoRef])) (exact_ (by rw [hr]; norm_num [demoRef])) (exact_ (by rw [hr]; norm_num))
    (by norm_num) (by norm_num) (by norm_num) rng
  exact ⟨R, h1⟩

/-- Both simulations succeed, and the picture in the haze has less contrast. -/
example (rng rng' : Rng) : ∃ R R', simulateImage demoEnv true rng demoRef demoSensor.toSensor demoScenario = .ok R
    ∧ simulateImage hazyEnv true rng' demoRef demoSensor.toSensor demoScenario = .ok R'
    ∧ |contrastOf (R'.trueImg.px 1 2) (R'.trueImg.px 0 0)| ≤ |contrastOf (R.trueImg.px 1 2) (R.trueImg.px 0 0)| := by
  obtain ⟨R, h, -⟩ := demo_succeeds rng
  obtain ⟨R', h'⟩ := hazy_succeeds rng'
  obtain ⟨g, hv, -⟩ := demo_flatView
  exact ⟨R, R', h, h', (C139_images demo_simulation hazy_simulation demo_counting hv hv (by norm_num) (by norm_num) hazier_demo h h'
    (i := 1) (j := 2) (i' := 0) (j' := 0) (by norm_num [demoRef]) (by norm_num [demoRef]) (by norm_num [demoRef])
    (by norm_num [demoRef])).2.1⟩

end PyBSM
