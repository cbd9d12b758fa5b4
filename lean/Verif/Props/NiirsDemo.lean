import Verif.Props.NoiseBreakout
import Verif.Props.Database
import Verif.Lemmas.DemoRow

/-!
# A concrete case of C70 - C72: the demonstration sensor looking through a uniform database
-/

noncomputable section

open Classical

namespace PyBSM

open Spec

/-- A data file with all transmissions 0.5 and all radiances 0.5 (per µm and cm²). -/
def demoFile : List XR := List.replicate (1371 * 5) (.fin 0.5)

theorem demoFile_length : demoFile.length = 1371 * 5 := List.length_replicate

/-- The environment in which every data file is that one. -/
def demoEnv : Env := ⟨fun _ => some demoFile, fun _ _ => true⟩

/-- The atmosphere that gives. -/
def demoAtm : List (Fin 6 → ℝ) :=
  (List.range 1371).map fun i : ℕ => ![(0.30 + 0.01 * i) * 1e-6, 0.5, 5e9, 5e9, 5e9, 5e9]

theorem demoAtm_record : IsRecord demoFile (realAtm demoAtm) := by
  have hat : ∀ (i : ℕ) (j : Fin 6), i < 1371 →
      atmAt (realAtm demoAtm) i j = .fin (![(0.30 + 0.01 * (i : ℝ)) * 1e-6, 0.5, 5e9, 5e9, 5e9, 5e9] j) := by
    intro i j hi
    unfold atmAt realAtm demoAtm
    rw [List.map_map, List.getD_eq_getElem _ _ (by simpa using hi)]
    simp
  have hraw : ∀ i, i < 1371 * 5 → demoFile.getD i .nan = .fin 0.5 := by
    intro i hi
    have hl : i < demoFile.length := by rw [demoFile_length]; exact hi
    rw [List.getD_eq_getElem _ _ hl]
    exact List.getElem_replicate _
  constructor
  · simp [realAtm, demoAtm]
  · intro i hi
    rw [hat i 0 hi]
    rfl
  · intro i hi
    rw [hat i 1 hi, hraw i (by omega)]
    rfl
  · intro i hi c
    rw [hat i _ hi, hraw _ (by have := c.2; omega), XR.fin_mul]
    fin_cases c <;> norm_num

theorem demoAtm_load : loadNoInterp demoEnv.files demoScenario.altitude demoScenario.groundRange demoScenario.ihaze
    = .ok (realAtm demoAtm) := by
  obtain ⟨r, hr⟩ := row_9000_60000
  obtain ⟨a, h1, h2⟩ := C03_lookup (files := demoEnv.files) (raw := demoFile) hr rfl demoFile_length
  rw [isRecord_unique h2 demoAtm_record] at h1
  exact h1

/-- The rows in the 3-5 µm band. -/
def demoInBand : List (Fin 6 → ℝ) := demoSensor.rowsInBand demoAtm

theorem demoInBand_mem {a : Fin 6 → ℝ} (h : a ∈ demoInBand) :
    3e-6 ≤ a 0 ∧ a 0 ≤ 5e-6 ∧ a 1 = 0.5 ∧ a 2 = 5e9 ∧ a 4 = 5e9 ∧ a 5 = 5e9 := by
  obtain ⟨h1, h2⟩ := List.mem_filter.mp h
  obtain ⟨lo, hi, e1, e2, e3, e4⟩ := of_decide_eq_true h2
  obtain ⟨i, -, rfl⟩ := List.mem_map.mp h1
  simp only [demoSensor, List.head?_cons, Option.some.injEq, List.getLast?_cons_cons, List.getLast?_singleton] at e1 e2
  subst e1 e2
  exact ⟨e3, e4, rfl, rfl, rfl, rfl⟩

theorem demoInBand_sorted : (demoInBand.map (· 0)).Pairwise (· < ·) := by
  have h : (demoAtm.map (· 0)).Pairwise (· < ·) := by
    unfold demoAtm
    rw [List.map_map]
    refine List.Pairwise.map _ ?_ List.pairwise_lt_range
    intro a b hab
    have hab : (a : ℝ) < b := by exact_mod_cast hab
    show (0.30 + 0.01 * (a : ℝ)) * 1e-6 < (0.30 + 0.01 * (b : ℝ)) * 1e-6
    linarith
  exact h.sublist (List.Sublist.map _ List.filter_sublist)

/-- Rows 320 and 321 (3.50 and 3.51 µm) are in the band. -/
theorem demoInBand_row {i : ℕ} (h : 270 ≤ i) (h' : i ≤ 470) :
    ![(0.30 + 0.01 * (i : ℝ)) * 1e-6, 0.5, 5e9, 5e9, 5e9, 5e9] ∈ demoInBand := by
  refine List.mem_filter.mpr ⟨List.mem_map.mpr ⟨i, by simp; omega, rfl⟩, ?_⟩
  have h1 : (270 : ℝ) ≤ i := by exact_mod_cast h
  have h2 : (i : ℝ) ≤ 470 := by exact_mod_cast h'
  apply decide_eq_true
  refine ⟨_, _, rfl, rfl, ?_, ?_⟩
  · show 3e-6 ≤ (0.30 + 0.01 * (i : ℝ)) * 1e-6
    linarith
  · show (0.30 + 0.01 * (i : ℝ)) * 1e-6 ≤ 5e-6
    linarith

theorem demoInBand_length : 2 ≤ demoInBand.length := by
  have h : ([(0.30 + 0.01 * ((320 : ℕ) : ℝ)) * 1e-6, (0.30 + 0.01 * ((321 : ℕ) : ℝ)) * 1e-6] : List ℝ).length
      ≤ (demoInBand.map (· 0)).length := by
    apply List.Subperm.length_le
    apply List.subperm_of_subset
    · norm_num
    · intro x hx
      simp only [List.mem_cons, List.not_mem_nil, or_false] at hx
      rcases hx with rfl | rfl
      · exact List.mem_map.mpr ⟨_, demoInBand_row (i := 320) (by norm_num) (by norm_num), rfl⟩
      · exact List.mem_map.mpr ⟨_, demoInBand_row (i := 321) (by norm_num) (by norm_num), rfl⟩
  simpa using h

theorem demo_onTable {tbl : List (ℝ × ℝ)} (hne : tbl ≠ []) (hinc : Increasing tbl) {x m : ℝ}
    (h1 : ∃ q ∈ tbl, q.1 ≤ x) (h2 : ∃ q ∈ tbl, x ≤ q.1) (hb : ∀ q ∈ tbl, m ≤ q.2 ∧ q.2 ≤ 1) : m ≤ tableAt tbl x := by
  rcases interpTable_fin x 0 0 hne hinc with ⟨-, h⟩ | ⟨y, -, h⟩ | ⟨-, h⟩
  · obtain ⟨q, hq, hle⟩ := h1
    exact absurd (h q hq) (not_lt.mpr hle)
  · rw [tableAt_onTable hinc h]
    exact (h.range hb).1
  · obtain ⟨q, hq, hle⟩ := h2
    exact absurd (h q hq) (not_lt.mpr hle)

theorem demo_trans {x : ℝ} (h1 : 3e-6 ≤ x) (h2 : x ≤ 5e-6) : 0 < demoSensor.transAt x := by
  have := demo_onTable (m := 0.7) demoSensor_usable.transmission_ne demoSensor_usable.transmission_inc
    (x := x) ⟨(3e-6, 0.8), by simp [demoSensor], h1⟩ ⟨(5e-6, 0.7), by simp [demoSensor], h2⟩
    (by simp [demoSensor]; norm_num)
  unfold RealSensor.transAt
  have h3 : 0 < demoSensor.coldFilterTransmission * (1 - demoSensor.eta ^ 2) := by norm_num [demoSensor]
  have : 0 < tableAt demoSensor.transmission x := by linarith
  positivity

theorem demo_qe {x : ℝ} (h1 : 3e-6 ≤ x) (h2 : x ≤ 5e-6) : 0 < tableAt demoSensor.qe x := by
  have := demo_onTable (m := 0.6) demoSensor_usable.qe_ne demoSensor_usable.qe_inc
    (x := x) ⟨(3e-6, 0.7), by simp [demoSensor], h1⟩ ⟨(5e-6, 0.6), by simp [demoSensor], h2⟩
    (by simp [demoSensor]; norm_num)
  linarith

theorem demo_thermal : demoSensor.Thermal := ⟨(3e-6, 0.8), rfl, by norm_num⟩

theorem demo_target {a : Fin 6 → ℝ} (h : a ∈ demoInBand) : demoSensor.backgroundAt a < demoSensor.targetAt a
    ∧ 0 < demoSensor.backgroundAt a := by
  obtain ⟨h1, h2, h3, h4, h5, h6⟩ := demoInBand_mem h
  have h0 : 0 < a 0 := lt_of_lt_of_le (by norm_num) h1
  unfold RealSensor.targetAt RealSensor.backgroundAt
  rw [if_pos demo_thermal, if_pos demo_thermal]
  unfold greyRadiance
  rw [h3, h4, h5, h6]
  have := planck_lt (T := 280) (T' := 282) h0 (by norm_num) (by norm_num)
  have := planck_pos h0 (T := 280) (by norm_num)
  constructor
  · linarith
  · linarith

theorem demo_spectral_lt {x l l' : ℝ} (h1 : 3e-6 ≤ x) (h2 : x ≤ 5e-6) (h : l < l') :
    demoSensor.spectral x l < demoSensor.spectral x l' := by
  have ht := demo_trans h1 h2
  have hq := demo_qe h1 h2
  have h0 : 0 < x := lt_of_lt_of_le (by norm_num) h1
  have h6 := apertureFactor_pos demoSensor.D demoSensor.f
  have h7 : 0 < demoSensor.wX * demoSensor.wY := by norm_num [demoSensor]
  have hp1 := planckH_pos
  have hp2 := lightC_pos
  unfold RealSensor.spectral spectralRate
  gcongr

theorem demo_spectral_pos {a : Fin 6 → ℝ} (h : a ∈ demoInBand) {l : ℝ} (hl : 0 < l) :
    0 < demoSensor.spectral (a 0) l := by
  obtain ⟨h1, h2, -⟩ := demoInBand_mem h
  have h0 : 0 < a 0 := lt_of_lt_of_le (by norm_num) h1
  exact lt_of_le_of_lt (spectral_nonneg demoSensor_usable demoSensor_physical h0 le_rfl) (demo_spectral_lt h1 h2 hl)

theorem demo_brighter : demoSensor.electrons demoInBand demoSensor.backgroundAt
    < demoSensor.electrons demoInBand demoSensor.targetAt := by
  have h2 := demoInBand_length
  have hlt : ∀ i < demoInBand.length, demoSensor.spectral (demoInBand.getD i 0 0) (demoSensor.backgroundAt (demoInBand.getD i 0))
      < demoSensor.spectral (demoInBand.getD i 0 0) (demoSensor.targetAt (demoInBand.getD i 0)) := by
    intro i hi
    have hm := getD_mem hi
    obtain ⟨h1, h2, -⟩ := demoInBand_mem hm
    exact demo_spectral_lt h1 h2 (demo_target hm).1
  have := trap_strictMono (x := fun i => demoInBand.getD i 0 0) h2 (fun i hi => counting_step demoInBand_sorted hi) (fun i hi => (hlt i hi).le)
    (k := 0) (by omega) (hlt 0 (by omega))
  unfold RealSensor.electrons RealSensor.rate
  have ht : 0 < demoSensor.intTime := by norm_num [demoSensor]
  have hn : 0 < demoSensor.nTdi := by norm_num [demoSensor]
  exact mul_lt_mul_of_pos_right (mul_lt_mul_of_pos_right (add_lt_add_left this _) ht) hn

theorem demo_counts : 0 < demoSensor.brightest demoInBand := by
  have hb : 0 ≤ demoSensor.electrons demoInBand demoSensor.backgroundAt := by
    unfold RealSensor.electrons RealSensor.rate
    have : 0 ≤ trap demoInBand.length (fun i => demoInBand.getD i 0 0) (fun i =>
        demoSensor.spectral (demoInBand.getD i 0 0) (demoSensor.backgroundAt (demoInBand.getD i 0))) :=
      trap_nonneg (fun i hi => (counting_step demoInBand_sorted hi).le)
        (fun i hi => (demo_spectral_pos (getD_mem hi) (demo_target (getD_mem hi)).2).le)
    have ht : 0 < demoSensor.intTime := by norm_num [demoSensor]
    have hn : 0 < demoSensor.nTdi := by norm_num [demoSensor]
    have hd : 0 < demoSensor.darkCurrent := by norm_num [demoSensor]
    exact mul_nonneg (mul_nonneg (add_nonneg this hd.le) ht.le) hn.le
  exact lt_of_le_of_lt hb (lt_of_lt_of_le demo_brighter (le_max_left _ _))

/-- The demonstration sensor, scene and database meet the conditions of C70 and C71. -/
theorem demo_imaging : Imaging demoEnv demoSensor demoScene demoScenario false demoInBand where
  usable := demoSensor_usable
  optical := demoSensor_optical
  viewing := demoScene_viewing
  scene := demoScene_of
  atmosphere := ⟨demoAtm, demoAtm_load, rfl⟩
  wavelengths := fun _ ha => lt_of_lt_of_le (by norm_num) (demoInBand_mem ha).1
  distinct := demoInBand_sorted.imp fun h => h.ne
  signal := by
    have h := demoInBand_row (i := 320) (by norm_num) (by norm_num)
    exact ⟨_, h, demo_spectral_pos h ((demo_target h).2.trans (demo_target h).1)⟩
  counts := demo_counts.le
  well := by norm_num [demoSensor]
  fill := by norm_num [demoSensor]
  bits := by norm_num [demoSensor]
  pitchX := by norm_num [demoSensor]
  pitchY := by norm_num [demoSensor]
  focal := by norm_num [demoSensor]
  frames := by norm_num [demoSensor]

theorem demo_counting : Counting demoSensor demoInBand where
  physical := demoSensor_physical
  increasing := demoInBand_sorted
  transmission := fun _ ha => by rw [(demoInBand_mem ha).2.2.1]; norm_num
  path := fun _ ha => by rw [(demoInBand_mem ha).2.2.2.1]; norm_num
  scattered := fun _ ha => by rw [(demoInBand_mem ha).2.2.2.2.1]; norm_num
  reflected := fun _ ha => by rw [(demoInBand_mem ha).2.2.2.2.2]; norm_num
  exposure := by norm_num [demoSensor]
  tdi := by norm_num [demoSensor]

theorem demo_cut : 0 < demoSensor.cut demoInBand := by
  unfold RealSensor.cut
  split_ifs
  · norm_num
  · have := demo_counts
    have : 0 < demoSensor.maxWellFill * demoSensor.maxN := by norm_num [demoSensor]
    positivity

theorem demo_sampled (c : ℝ) (h : demoSensor.Cutoff demoInBand c) :
    2.5 * (demoSensor.pX / demoSensor.f) * (c + 1e-6) ≤ 1 ∧ 2.5 * (demoSensor.pY / demoSensor.f) * (c + 1e-6) ≤ 1 := by
  obtain ⟨lam, ⟨p, hp, rfl⟩, -, rfl⟩ := h
  obtain ⟨a, ha, rfl⟩ := List.mem_map.mp (List.mem_filter.mp hp).1
  obtain ⟨h1, -⟩ := demoInBand_mem ha
  have : demoSensor.D / a 0 ≤ demoSensor.D / 3e-6 := by
    apply div_le_div_of_nonneg_left _ (by norm_num) h1
    norm_num [demoSensor]
  have e : demoSensor.D / 3e-6 ≤ 33334 := by norm_num [demoSensor]
  have e1 : demoSensor.pX / demoSensor.f = 1e-5 := by norm_num [demoSensor]
  have e2 : demoSensor.pY / demoSensor.f = 1e-5 := by norm_num [demoSensor]
  rw [e1, e2]
  dsimp only
  constructor <;> linarith

/-- Every hypothesis of C70 holds in a concrete case, in which `niirs` reports a finite NIIRS. -/
example : ∃ (m : Metrics) (x : ℝ), (niirs demoEnv demoSensor.toSensor demoScenario false).1 = .ok m
    ∧ m.niirs = .fin x := by
  obtain ⟨m, x, y, gx, gp, r, e, h1, h2, -⟩ := C70_well_sampled demo_imaging rfl demo_sampled
    (by norm_num [demoScene]) (by norm_num [demoSensor]) demo_brighter.ne' demo_cut
  exact ⟨m, x, h1, h2⟩

/-- The same for C71 and `niirs5`. -/
example : ∃ (m : Metrics) (x : ℝ), (niirs5 demoEnv demoSensor.toSensor demoScenario false).1 = .ok m
    ∧ m.niirs = .fin x := by
  obtain ⟨m, x, r1, r2, gw, r, h1, h2, -⟩ := C71_well_sampled demo_imaging
    (fun c hc => by
      obtain ⟨h1, h2⟩ := demo_sampled c hc
      have hpos := cutoff_pos demoSensor_optical.aperture demo_imaging.wavelengths hc
      have e1 : demoSensor.pX / demoSensor.f = 1e-5 := by norm_num [demoSensor]
      have e2 : demoSensor.pY / demoSensor.f = 1e-5 := by norm_num [demoSensor]
      rw [e1] at h1 ⊢
      rw [e2] at h2 ⊢
      constructor <;> nlinarith)
    (by norm_num [demoScene]) (by norm_num [demoSensor]) demo_brighter.ne' demo_cut
  exact ⟨m, x, h1, h2⟩

/-- And for C72. -/
example : ∃ (m : Metrics) (p q : ℝ), (niirs demoEnv demoSensor.toSensor demoScenario false).1 = .ok m
    ∧ m.pathNoise = .fin p ∧ m.sceneNoise = .fin q := by
  obtain ⟨m, p, q, d, e, t, h1, h2, h3, -⟩ := C72_niirs demo_imaging (by simp [demoSensor]) demo_counting
  exact ⟨m, p, q, h1, h2, h3⟩

end PyBSM
