import Verif.Props.HazeDemo

/-!
# A concrete atmosphere that adds air light and nothing else, for C139_airlight
-/

noncomputable section

open Classical

namespace PyBSM

open Spec

/-- A data file with the transmission and reflected sunlight of `demoFile` and brighter air. -/
def brightFile : List XR :=
  (List.range (1371 * 5)).map fun i => if i < 1371 then .fin 0.5 else if i < 1371 * 4 then .fin 0.75 else .fin 0.5

theorem brightFile_length : brightFile.length = 1371 * 5 := by simp [brightFile]

/-- The environment in which every data file is that one. -/
def brightEnv : Env := ⟨fun _ => some brightFile, fun _ _ => true⟩

/-- The atmosphere that gives. -/
def brightAtm : List (Fin 6 → ℝ) :=
  (List.range 1371).map fun i : ℕ => ![(0.30 + 0.01 * i) * 1e-6, 0.5, 7.5e9, 7.5e9, 7.5e9, 5e9]

theorem brightAtm_record : IsRecord brightFile (realAtm brightAtm) := by
  have hat : ∀ (i : ℕ) (j : Fin 6), i < 1371 →
      atmAt (realAtm brightAtm) i j = .fin (![(0.30 + 0.01 * (i : ℝ)) * 1e-6, 0.5, 7.5e9, 7.5e9, 7.5e9, 5e9] j) := by
    intro i j hi
    unfold atmAt realAtm brightAtm
    rw [List.map_map, List.getD_eq_getElem _ _ (by simpa using hi)]
    simp
  have hraw : ∀ i, i < 1371 * 5 → brightFile.getD i .nan
      = if i < 1371 then .fin 0.5 else if i < 1371 * 4 then .fin 0.75 else .fin 0.5 := by
    intro i hi
    have hl : i < brightFile.length := by rw [brightFile_length]; exact hi
    rw [List.getD_eq_getElem _ _ hl]
    simp [brightFile]
  constructor
  · simp [realAtm, brightAtm]
  · intro i hi
    rw [hat i 0 hi]
    rfl
  · intro i hi
    rw [hat i 1 hi, hraw _ (by omega), if_pos (by omega)]
    rfl
  · intro i hi c
    have := c.2
    rw [hat i _ hi, hraw _ (by omega), if_neg (by omega)]
    fin_cases c
    · rw [if_pos (by simp; omega), XR.fin_mul]; norm_num
    · rw [if_pos (by simp; omega), XR.fin_mul]; norm_num
    · rw [if_pos (by simp; omega), XR.fin_mul]; norm_num
    · rw [if_neg (by simp), XR.fin_mul]; norm_num

theorem brightAtm_load : loadNoInterp brightEnv.files demoScenario.altitude demoScenario.groundRange demoScenario.ihaze
    = .ok (realAtm brightAtm) := by
  obtain ⟨r, hr⟩ := row_9000_60000
  obtain ⟨a, h1, h2⟩ := C03_lookup (files := brightEnv.files) (raw := brightFile) hr rfl brightFile_length
  rw [isRecord_unique h2 brightAtm_record] at h1
  exact h1

/-- The rows in the 3-5 µm band. -/
def brightInBand : List (Fin 6 → ℝ) := demoSensor.rowsInBand brightAtm

/-- The rows of that atmosphere. -/
def brightRow (i : ℕ) : Fin 6 → ℝ := ![(0.30 + 0.01 * i) * 1e-6, 0.5, 7.5e9, 7.5e9, 7.5e9, 5e9]

theorem brighter_row (i : ℕ) : Hazier 1 (clearRow i) (brightRow i) := by
  have gen : ∀ w t p q r u t' p' q' r' u' : ℝ, t' = 1 * t → u' = 1 * u →
      p + r ≤ p' + r' → Hazier 1 ![w, t, p, q, r, u] ![w, t', p', q', r', u'] :=
    fun _ _ _ _ _ _ _ _ _ _ _ h1 h2 h3 => ⟨rfl, h1, h2, h3⟩
  unfold clearRow brightRow
  apply gen <;> norm_num

theorem brightAtm_rows : brightAtm = (List.range 1371).map brightRow := by
  unfold brightAtm brightRow
  rfl

theorem brighter_demo : List.Forall₂ (Hazier 1) demoInBand brightInBand := by
  unfold demoInBand brightInBand
  rw [demoAtm_rows, brightAtm_rows]
  exact hazy_same_waves (fun i => (brighter_row i).wavelength) brighter_row demoSensor

theorem brightInBand_mem {a : Fin 6 → ℝ} (h : a ∈ brightInBand) :
    3e-6 ≤ a 0 ∧ a 0 ≤ 5e-6 ∧ a 1 = 0.5 ∧ a 2 = 7.5e9 ∧ a 4 = 7.5e9 ∧ a 5 = 5e9 := by
  obtain ⟨h1, h2⟩ := List.mem_filter.mp h
  obtain ⟨lo, hi, e1, e2, e3, e4⟩ := of_decide_eq_true h2
  obtain ⟨i, -, rfl⟩ := List.mem_map.mp h1
  simp only [demoSensor, List.head?_cons, Option.some.injEq, List.getLast?_cons_cons, List.getLast?_singleton] at e1 e2
  subst e1 e2
  exact ⟨e3, e4, rfl, rfl, rfl, rfl⟩

theorem brightInBand_waves : brightInBand.map (· 0) = demoInBand.map (· 0) := by
  refine List.forall₂_eq_eq_eq ▸ ?_
  rw [List.forall₂_map_left_iff, List.forall₂_map_right_iff]
  exact (List.Forall₂.imp (fun _ _ h => h.wavelength) brighter_demo).flip.imp fun _ _ h => h

theorem bright_spectral {a : Fin 6 → ℝ} (h : a ∈ brightInBand) {l : ℝ} (hl : 0 < l) : 0 < demoSensor.spectral (a 0) l := by
  have : a 0 ∈ demoInBand.map (· 0) := by
    rw [← brightInBand_waves]
    exact List.mem_map.mpr ⟨a, h, rfl⟩
  obtain ⟨b, hb, e⟩ := List.mem_map.mp this
  rw [← e]
  exact demo_spectral_pos hb hl

theorem bright_nonempty : ∃ a, a ∈ brightInBand := by
  have h := brighter_demo.length_eq
  have h2 := demoInBand_length
  exact List.exists_mem_of_length_pos (by omega)

theorem bright_counting : Counting demoSensor brightInBand where
  physical := demoSensor_physical
  increasing := by rw [brightInBand_waves]; exact demoInBand_sorted
  transmission := fun _ ha => by rw [(brightInBand_mem ha).2.2.1]; norm_num
  path := fun _ ha => by rw [(brightInBand_mem ha).2.2.2.1]; norm_num
  scattered := fun _ ha => by rw [(brightInBand_mem ha).2.2.2.2.1]; norm_num
  reflected := fun _ ha => by rw [(brightInBand_mem ha).2.2.2.2.2]; norm_num
  exposure := by norm_num [demoSensor]
  tdi := by norm_num [demoSensor]

theorem bright_imaging : Imaging brightEnv demoSensor demoScene demoScenario false brightInBand where
  usable := demoSensor_usable
  optical := demoSensor_optical
  viewing := demoScene_viewing
  scene := demoScene_of
  atmosphere := ⟨brightAtm, brightAtm_load, rfl⟩
  wavelengths := fun _ ha => lt_of_lt_of_le (by norm_num) (brightInBand_mem ha).1
  distinct := by rw [brightInBand_waves]; exact demo_imaging.distinct
  signal := by
    obtain ⟨a, ha⟩ := bright_nonempty
    have h0 : 0 < a 0 := lt_of_lt_of_le (by norm_num) (brightInBand_mem ha).1
    have h := path_le_target (s := demoSensor) h0 (bright_counting.transmission _ ha) (bright_counting.reflected _ ha)
    have hp : 0 < pathAt a := by
      unfold pathAt
      rw [(brightInBand_mem ha).2.2.2.1, (brightInBand_mem ha).2.2.2.2.1]
      norm_num
    exact ⟨a, ha, bright_spectral ha (hp.trans_le h)⟩
  counts := by
    obtain ⟨P, P', S, U, hP, hPP, hS, hU, e1, e2, e3, e4⟩ :=
      hazier_counts demoSensor_usable demo_imaging.wavelengths demo_counting brighter_demo
    refine le_max_of_le_left ?_
    rw [e3]
    have := hP.trans hPP
    positivity
  well := demo_imaging.well
  fill := demo_imaging.fill
  bits := demo_imaging.bits
  pitchX := demo_imaging.pitchX
  pitchY := demo_imaging.pitchY
  focal := demo_imaging.focal
  frames := demo_imaging.frames

/-- The hypotheses of `C139_airlight` hold in a concrete case. -/
example := C139_airlight demo_imaging bright_imaging demo_counting brighter_demo

end PyBSM
