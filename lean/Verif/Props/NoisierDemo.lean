import Verif.Props.Noisier
import Verif.Props.CompareDemo

/-!
# C110: concrete cases

For the target darker than the background: a camera whose optics pass 2.8 - 12 µm and whose detector answers to
8 - 12 µm only.  The band starts below 2.9 µm, so the standard reflective target (reflectance 0.15, 282 K) and background
(reflectance 0.07, 280 K) are used; at night the background emits more.
-/

noncomputable section

open Classical

namespace PyBSM

open Spec

theorem demo_edges : demoSensor.Edges demoScene demoInBand demoEnv.diag :=
  edges_of_sampled demo_imaging (by simp [demoSensor]) demo_sampled _

/-- Every hypothesis of `C110_noise` holds in a concrete case. -/
example : ∃ (m m' : Metrics) (x x' y y' : ℝ), (niirs demoEnv demoSensor.toSensor demoScenario false).1 = .ok m
    ∧ (niirs demoEnv { demoSensor with readNoise := 30, otherNoise := [5], bitDepth := 8 }.toSensor demoScenario false).1
      = .ok m' ∧ Rated m x y ∧ Rated m' x' y' ∧ x' ≤ x ∧ y' ≤ y :=
  C110_noise (s' := { demoSensor with readNoise := 30, otherNoise := [5], bitDepth := 8 }) demo_imaging
    (by simp [demoSensor]) demo_edges demo_contrast
    ⟨rfl, by norm_num [demoSensor], by norm_num [demoSensor], by norm_num, by norm_num [demoSensor],
      by norm_num [demoSensor], by norm_num⟩

/-- A data file with all transmissions 0.5 and no radiance. -/
def nightFile : List XR := (List.range (1371 * 5)).map fun i => if i < 1371 then .fin 0.5 else .fin 0

theorem nightFile_length : nightFile.length = 1371 * 5 := by simp [nightFile]

/-- The environment in which every data file is that one. -/
def nightEnv : Env := ⟨fun _ => some nightFile, fun _ _ => true⟩

/-- The atmosphere that gives. -/
def nightAtm : List (Fin 6 → ℝ) :=
  (List.range 1371).map fun i : ℕ => ![(0.30 + 0.01 * i) * 1e-6, 0.5, 0, 0, 0, 0]

theorem nightAtm_record : IsRecord nightFile (realAtm nightAtm) := by
  have hat : ∀ (i : ℕ) (j : Fin 6), i < 1371 →
      atmAt (realAtm nightAtm) i j = .fin (![(0.30 + 0.01 * (i : ℝ)) * 1e-6, 0.5, 0, 0, 0, 0] j) := by
    intro i j hi
    unfold atmAt realAtm nightAtm
    rw [List.map_map, List.getD_eq_getElem _ _ (by simpa using hi)]
    simp
  have hraw : ∀ i, i < 1371 * 5 → nightFile.getD i .nan = if i < 1371 then .fin 0.5 else .fin 0 := by
    intro i hi
    have hl : i < nightFile.length := by rw [nightFile_length]; exact hi
    rw [List.getD_eq_getElem _ _ hl]
    simp [nightFile]
  constructor
  · simp [realAtm, nightAtm]
  · intro i hi
    rw [hat i 0 hi]
    rfl
  · intro i hi
    rw [hat i 1 hi, hraw _ (by omega), if_pos (by omega)]
    rfl
  · intro i hi c
    have := c.2
    rw [hat i _ hi, hraw _ (by omega), if_neg (by omega), XR.fin_mul]
    fin_cases c <;> norm_num

theorem nightAtm_load : loadNoInterp nightEnv.files demoScenario.altitude demoScenario.groundRange demoScenario.ihaze
    = .ok (realAtm nightAtm) := by
  obtain ⟨r, hr⟩ := row_9000_60000
  obtain ⟨a, h1, h2⟩ := C03_lookup (files := nightEnv.files) (raw := nightFile) hr rfl nightFile_length
  rw [isRecord_unique h2 nightAtm_record] at h1
  exact h1

/-- The demonstration sensor with optics for 2.8 - 12 µm and a detector for 8 - 12 µm. -/
def wideSensor : RealSensor :=
  { demoSensor with transmission := [(2.8e-6, 0.8), (12e-6, 0.8)], qe := [(8e-6, 0.6), (12e-6, 0.6)] }

theorem wide_usable : wideSensor.Usable where
  aperture := by norm_num [wideSensor, demoSensor]
  transmission_ne := by simp [wideSensor]
  transmission_inc := by simp [wideSensor, Increasing]; norm_num
  qe_ne := by simp [wideSensor]
  qe_inc := by simp [wideSensor, Increasing]; norm_num
  coldShield := by norm_num [wideSensor, demoSensor]
  optics := by norm_num [wideSensor, demoSensor]
  coldFilter := by norm_num [wideSensor, demoSensor]

theorem wide_physical : wideSensor.Physical where
  width := by norm_num [wideSensor, demoSensor]
  eta := by norm_num [wideSensor, demoSensor]
  coldFilter := by norm_num [wideSensor, demoSensor]
  transmission := by simp [wideSensor]; norm_num
  qe := by simp [wideSensor]; norm_num
  opticsEmissivity := by norm_num [wideSensor, demoSensor]
  coldFilterEmissivity := by norm_num [wideSensor, demoSensor]
  dark := by norm_num [wideSensor, demoSensor]

theorem wide_optical : wideSensor.Optical := by
  constructor <;> norm_num [wideSensor, demoSensor]

/-- The rows in the 2.8 - 12 µm band. -/
def nightInBand : List (Fin 6 → ℝ) := wideSensor.rowsInBand nightAtm

theorem nightInBand_mem {a : Fin 6 → ℝ} (h : a ∈ nightInBand) :
    2.8e-6 ≤ a 0 ∧ a 0 ≤ 12e-6 ∧ a 1 = 0.5 ∧ a 2 = 0 ∧ a 4 = 0 ∧ a 5 = 0 := by
  obtain ⟨h1, h2⟩ := List.mem_filter.mp h
  obtain ⟨lo, hi, e1, e2, e3, e4⟩ := of_decide_eq_true h2
  obtain ⟨i, -, rfl⟩ := List.mem_map.mp h1
  simp only [wideSensor, List.head?_cons, Option.some.injEq, List.getLast?_cons_cons, List.getLast?_singleton] at e1 e2
  subst e1 e2
  exact ⟨e3, e4, rfl, rfl, rfl, rfl⟩

theorem nightInBand_sorted : (nightInBand.map (· 0)).Pairwise (· < ·) := by
  have h : (nightAtm.map (· 0)).Pairwise (· < ·) := by
    unfold nightAtm
    rw [List.map_map]
    refine List.Pairwise.map _ ?_ List.pairwise_lt_range
    intro a b hab
    have hab : (a : ℝ) < b := by exact_mod_cast hab
    show (0.30 + 0.01 * (a : ℝ)) * 1e-6 < (0.30 + 0.01 * (b : ℝ)) * 1e-6
    linarith
  exact h.sublist (List.Sublist.map _ List.filter_sublist)

theorem nightInBand_row {i : ℕ} (h : 250 ≤ i) (h' : i ≤ 1170) :
    ![(0.30 + 0.01 * (i : ℝ)) * 1e-6, 0.5, 0, 0, 0, 0] ∈ nightInBand := by
  refine List.mem_filter.mpr ⟨List.mem_map.mpr ⟨i, by simp; omega, rfl⟩, ?_⟩
  have h1 : (250 : ℝ) ≤ i := by exact_mod_cast h
  have h2 : (i : ℝ) ≤ 1170 := by exact_mod_cast h'
  apply decide_eq_true
  refine ⟨_, _, rfl, rfl, ?_, ?_⟩
  · show 2.8e-6 ≤ (0.30 + 0.01 * (i : ℝ)) * 1e-6
    linarith
  · show (0.30 + 0.01 * (i : ℝ)) * 1e-6 ≤ 12e-6
    linarith

theorem nightInBand_length : 2 ≤ nightInBand.length := by
  have h : ([(0.30 + 0.01 * ((900 : ℕ) : ℝ)) * 1e-6, (0.30 + 0.01 * ((901 : ℕ) : ℝ)) * 1e-6] : List ℝ).length
      ≤ (nightInBand.map (· 0)).length := by
    apply List.Subperm.length_le
    apply List.subperm_of_subset
    · norm_num
    · intro x hx
      simp only [List.mem_cons, List.not_mem_nil, or_false] at hx
      rcases hx with rfl | rfl
      · exact List.mem_map.mpr ⟨_, nightInBand_row (i := 900) (by norm_num) (by norm_num), rfl⟩
      · exact List.mem_map.mpr ⟨_, nightInBand_row (i := 901) (by norm_num) (by norm_num), rfl⟩
  simpa using h

theorem wide_reflective : ¬ wideSensor.Thermal := by
  rintro ⟨p, h1, h2⟩
  simp only [wideSensor, List.head?_cons, Option.some.injEq] at h1
  subst h1
  norm_num at h2

/-- Beyond 8 µm, 93 % of the emission at 280 K exceeds 85 % of the emission at 282 K. -/
theorem planck_night {x : ℝ} (h1 : 8e-6 ≤ x) (h2 : x ≤ 12e-6) : 0.85 * planck x 282 < 0.93 * planck x 280 := by
  have h0 : 0 < x := lt_of_lt_of_le (by norm_num) h1
  have p1 := planckH_pos; have p2 := lightC_pos; have p3 := boltzmannK_pos
  set K := planckH * lightC / (x * boltzmannK) with hK
  have e1 : planckH * lightC / (x * boltzmannK * 280) = K / 280 := by rw [hK]; field_simp
  have e2 : planckH * lightC / (x * boltzmannK * 282) = K / 282 := by rw [hK]; field_simp
  have k1 : K ≤ 1800 := by
    rw [hK, div_le_iff₀ (by positivity)]
    unfold planckH lightC boltzmannK
    nlinarith
  have k2 : 1100 ≤ K := by
    rw [hK, le_div_iff₀ (by positivity)]
    unfold planckH lightC boltzmannK
    nlinarith
  have hA : 0 < 2 * planckH * lightC ^ 2 / x ^ 5 := by positivity
  unfold planck
  rw [e1, e2]
  set y := Real.exp (K / 282) with hy
  have hd : Real.exp (K / 280) = y * Real.exp (K / 280 - K / 282) := by
    rw [hy, ← Real.exp_add]; congr 1; ring
  have hd1 : Real.exp (K / 280 - K / 282) ≤ 1.05 := by
    have ha : K / 280 - K / 282 ≤ 0.046 := by linarith
    have hb := Real.add_one_le_exp (-(K / 280 - K / 282))
    rw [Real.exp_neg] at hb
    have hp := Real.exp_pos (K / 280 - K / 282)
    have hc : 0.954 ≤ (Real.exp (K / 280 - K / 282))⁻¹ := by linarith
    have hi : Real.exp (K / 280 - K / 282) * (Real.exp (K / 280 - K / 282))⁻¹ = 1 := mul_inv_cancel₀ hp.ne'
    nlinarith
  have hy1 : 4 ≤ y := by
    have := Real.add_one_le_exp (K / 282)
    linarith
  have hx1 : Real.exp (K / 280) ≤ 1.05 * y := by rw [hd]; nlinarith
  have hx2 : 0 < Real.exp (K / 280) - 1 := by
    have := Real.add_one_le_exp (K / 280)
    linarith
  generalize Real.exp (K / 280) = z at *
  generalize 2 * planckH * lightC ^ 2 / x ^ 5 = A at *
  rw [← mul_div_assoc, ← mul_div_assoc, div_lt_div_iff₀ (by linarith) hx2]
  have : 0.85 * (z - 1) < 0.93 * (y - 1) := by linarith
  nlinarith

theorem wide_trans {x : ℝ} (h1 : 2.8e-6 ≤ x) (h2 : x ≤ 12e-6) : 0 < wideSensor.transAt x := by
  have := demo_onTable (m := 0.8) wide_usable.transmission_ne wide_usable.transmission_inc
    (x := x) ⟨(2.8e-6, 0.8), by simp [wideSensor], h1⟩ ⟨(12e-6, 0.8), by simp [wideSensor], h2⟩
    (by simp [wideSensor]; norm_num)
  unfold RealSensor.transAt
  have h3 : 0 < wideSensor.coldFilterTransmission * (1 - wideSensor.eta ^ 2) := by norm_num [wideSensor, demoSensor]
  have : 0 < tableAt wideSensor.transmission x := by linarith
  positivity

theorem wide_qe {x : ℝ} (h1 : 8e-6 ≤ x) (h2 : x ≤ 12e-6) : 0 < tableAt wideSensor.qe x := by
  have := demo_onTable (m := 0.6) wide_usable.qe_ne wide_usable.qe_inc
    (x := x) ⟨(8e-6, 0.6), by simp [wideSensor], h1⟩ ⟨(12e-6, 0.6), by simp [wideSensor], h2⟩
    (by simp [wideSensor]; norm_num)
  linarith

theorem wide_blind {x : ℝ} (h : x < 8e-6) (l : ℝ) : wideSensor.spectral x l = 0 := by
  have : tableAt wideSensor.qe x = 0 := by
    apply tableAt_off
    left
    intro q hq
    simp only [wideSensor, List.mem_cons, List.not_mem_nil, or_false] at hq
    rcases hq with rfl | rfl <;> dsimp only <;> linarith
  unfold RealSensor.spectral spectralRate
  rw [this]
  ring

theorem wide_spectral_lt {x l l' : ℝ} (h1 : 8e-6 ≤ x) (h2 : x ≤ 12e-6) (h : l < l') :
    wideSensor.spectral x l < wideSensor.spectral x l' := by
  have ht := wide_trans (by linarith) h2
  have hq := wide_qe h1 h2
  have h0 : 0 < x := lt_of_lt_of_le (by norm_num) h1
  have h6 := apertureFactor_pos wideSensor.D wideSensor.f
  have h7 : 0 < wideSensor.wX * wideSensor.wY := by norm_num [wideSensor, demoSensor]
  have hp1 := planckH_pos
  have hp2 := lightC_pos
  unfold RealSensor.spectral spectralRate
  gcongr

theorem night_radiance {a : Fin 6 → ℝ} (h : a ∈ nightInBand) : 0 < wideSensor.targetAt a ∧ 0 < wideSensor.backgroundAt a
    ∧ (8e-6 ≤ a 0 → wideSensor.targetAt a < wideSensor.backgroundAt a) := by
  obtain ⟨h1, h2, h3, h4, h5, h6⟩ := nightInBand_mem h
  have h0 : 0 < a 0 := lt_of_lt_of_le (by norm_num) h1
  unfold RealSensor.targetAt RealSensor.backgroundAt
  rw [if_neg wide_reflective, if_neg wide_reflective]
  unfold greyRadiance
  rw [h3, h4, h5, h6]
  have q1 := planck_pos h0 (T := 282) (by norm_num)
  have q2 := planck_pos h0 (T := 280) (by norm_num)
  refine ⟨by linarith, by linarith, fun h8 => ?_⟩
  have := planck_night h8 h2
  linarith

theorem night_darker : wideSensor.electrons nightInBand wideSensor.targetAt
    < wideSensor.electrons nightInBand wideSensor.backgroundAt := by
  have h2 := nightInBand_length
  have hlt : ∀ a ∈ nightInBand, 8e-6 ≤ a 0 → wideSensor.spectral (a 0) (wideSensor.targetAt a)
      < wideSensor.spectral (a 0) (wideSensor.backgroundAt a) := by
    intro a ha h8
    exact wide_spectral_lt h8 (nightInBand_mem ha).2.1 ((night_radiance ha).2.2 h8)
  have hle : ∀ i < nightInBand.length,
      wideSensor.spectral (nightInBand.getD i 0 0) (wideSensor.targetAt (nightInBand.getD i 0))
      ≤ wideSensor.spectral (nightInBand.getD i 0 0) (wideSensor.backgroundAt (nightInBand.getD i 0)) := by
    intro i hi
    rcases le_or_gt 8e-6 (nightInBand.getD i 0 0) with h8 | h8
    · exact (hlt _ (getD_mem hi) h8).le
    · rw [wide_blind h8, wide_blind h8]
  have hrow := nightInBand_row (i := 900) (by norm_num) (by norm_num)
  obtain ⟨k, hk, hk'⟩ := List.getElem_of_mem hrow
  have e : nightInBand.getD k 0 = ![(0.30 + 0.01 * ((900 : ℕ) : ℝ)) * 1e-6, 0.5, 0, 0, 0, 0] := by
    rw [List.getD_eq_getElem _ _ hk, hk']
  have := trap_strictMono (x := fun i => nightInBand.getD i 0 0) h2 (fun i hi => counting_step nightInBand_sorted hi) hle
    (k := k) hk (hlt _ (getD_mem hk) (by
      rw [e]
      show 8e-6 ≤ (0.30 + 0.01 * ((900 : ℕ) : ℝ)) * 1e-6
      norm_num))
  unfold RealSensor.electrons RealSensor.rate
  have ht : 0 < wideSensor.intTime := by norm_num [wideSensor, demoSensor]
  have hn : 0 < wideSensor.nTdi := by norm_num [wideSensor, demoSensor]
  exact mul_lt_mul_of_pos_right (mul_lt_mul_of_pos_right (add_lt_add_left this _) ht) hn

theorem night_counts : 0 < wideSensor.brightest nightInBand := by
  have hb : 0 ≤ wideSensor.electrons nightInBand wideSensor.targetAt := by
    unfold RealSensor.electrons RealSensor.rate
    have : 0 ≤ trap nightInBand.length (fun i => nightInBand.getD i 0 0) (fun i =>
        wideSensor.spectral (nightInBand.getD i 0 0) (wideSensor.targetAt (nightInBand.getD i 0))) :=
      trap_nonneg (fun i hi => (counting_step nightInBand_sorted hi).le) (fun i hi => by
        have hm := getD_mem hi
        exact spectral_nonneg wide_usable wide_physical (lt_of_lt_of_le (by norm_num) (nightInBand_mem hm).1)
          (night_radiance hm).1.le)
    have ht : 0 < wideSensor.intTime := by norm_num [wideSensor, demoSensor]
    have hn : 0 < wideSensor.nTdi := by norm_num [wideSensor, demoSensor]
    have hd : 0 < wideSensor.darkCurrent := by norm_num [wideSensor, demoSensor]
    exact mul_nonneg (mul_nonneg (add_nonneg this hd.le) ht.le) hn.le
  exact lt_of_le_of_lt hb (lt_of_lt_of_le night_darker (le_max_right _ _))

theorem night_imaging : Imaging nightEnv wideSensor demoScene demoScenario false nightInBand where
  usable := wide_usable
  optical := wide_optical
  viewing := demoScene_viewing
  scene := demoScene_of
  atmosphere := ⟨nightAtm, nightAtm_load, rfl⟩
  wavelengths := fun _ ha => lt_of_lt_of_le (by norm_num) (nightInBand_mem ha).1
  distinct := nightInBand_sorted.imp fun h => h.ne
  signal := by
    have h := nightInBand_row (i := 900) (by norm_num) (by norm_num)
    refine ⟨_, h, lt_of_le_of_lt (spectral_nonneg wide_usable wide_physical (l := 0)
      (lt_of_lt_of_le (by norm_num) (nightInBand_mem h).1) le_rfl) (wide_spectral_lt ?_ (nightInBand_mem h).2.1
        (night_radiance h).1)⟩
    show 8e-6 ≤ (0.30 + 0.01 * ((900 : ℕ) : ℝ)) * 1e-6
    norm_num
  counts := night_counts.le
  well := by norm_num [wideSensor, demoSensor]
  fill := by norm_num [wideSensor, demoSensor]
  bits := by norm_num [wideSensor, demoSensor]
  pitchX := by norm_num [wideSensor, demoSensor]
  pitchY := by norm_num [wideSensor, demoSensor]
  focal := by norm_num [wideSensor, demoSensor]
  frames := by norm_num [wideSensor, demoSensor]

theorem night_dark : DarkTarget wideSensor demoScene nightInBand where
  altitude := by norm_num [demoScene]
  frames := by norm_num [wideSensor, demoSensor]
  cut := by
    unfold RealSensor.cut
    split_ifs
    · norm_num
    · have := night_counts
      have : 0 < wideSensor.maxWellFill * wideSensor.maxN := by norm_num [wideSensor, demoSensor]
      positivity
  darker := night_darker

theorem night_cutoff {c : ℝ} (h : wideSensor.Cutoff nightInBand c) : c ≤ 36000 := by
  obtain ⟨lam, ⟨p, hp, rfl⟩, -, rfl⟩ := h
  obtain ⟨a, ha, rfl⟩ := List.mem_map.mp (List.mem_filter.mp hp).1
  obtain ⟨h1, -⟩ := nightInBand_mem ha
  have : wideSensor.D / a 0 ≤ wideSensor.D / 2.8e-6 := by
    apply div_le_div_of_nonneg_left _ (by norm_num) h1
    norm_num [wideSensor, demoSensor]
  have e : wideSensor.D / 2.8e-6 ≤ 36000 := by norm_num [wideSensor, demoSensor]
  exact this.trans e

theorem night_sampled (c : ℝ) (h : wideSensor.Cutoff nightInBand c) :
    2.5 * (wideSensor.pX / wideSensor.f) * (c + 1e-6) ≤ 1 ∧ 2.5 * (wideSensor.pY / wideSensor.f) * (c + 1e-6) ≤ 1 := by
  have := night_cutoff h
  have e1 : wideSensor.pX / wideSensor.f = 1e-5 := by norm_num [wideSensor, demoSensor]
  have e2 : wideSensor.pY / wideSensor.f = 1e-5 := by norm_num [wideSensor, demoSensor]
  rw [e1, e2]
  constructor <;> linarith

theorem night_edges : wideSensor.Edges demoScene nightInBand nightEnv.diag :=
  edges_of_sampled night_imaging (by simp [wideSensor, demoSensor]) night_sampled _

/-- Every hypothesis of `C110_dark_target` holds in a concrete case: raising the read-out noise of this camera from 20 to
30 electrons raises both ratings. -/
example : ∃ (m m' : Metrics) (x x' y y' : ℝ), (niirs nightEnv wideSensor.toSensor demoScenario false).1 = .ok m
    ∧ (niirs nightEnv { wideSensor with readNoise := 30 }.toSensor demoScenario false).1 = .ok m'
    ∧ Rated m x y ∧ Rated m' x' y' ∧ x < x' ∧ y < y' := by
  obtain ⟨m, m', x, x', y, y', h1, h2, h3, h4, -, -, h5⟩ := C110_dark_target (s' := { wideSensor with readNoise := 30 })
    night_imaging (by simp [wideSensor, demoSensor]) night_edges night_dark
    ⟨rfl, by norm_num [wideSensor, demoSensor], by norm_num, by norm_num [wideSensor, demoSensor], by norm_num,
      by norm_num [wideSensor, demoSensor], by norm_num⟩
  exact ⟨m, m', x, x', y, y', h1, h2, h3, h4, h5 (by norm_num [wideSensor, demoSensor])⟩

/-- Every hypothesis of `C110_unbounded` holds in a concrete case: with enough read-out noise the rating of this camera
exceeds 1000. -/
example : ∃ (r x y : ℝ) (m : Metrics), (niirs nightEnv { wideSensor with readNoise := r }.toSensor demoScenario false).1 = .ok m
    ∧ Rated m x y ∧ 1000 < x ∧ 1000 < y :=
  C110_unbounded night_imaging (by simp [wideSensor, demoSensor]) night_edges night_dark 1000

theorem night_Sampled : wideSensor.Sampled nightInBand := by
  intro c hc
  have := night_cutoff hc
  have e1 : wideSensor.pX / wideSensor.f = 1e-5 := by norm_num [wideSensor, demoSensor]
  have e2 : wideSensor.pY / wideSensor.f = 1e-5 := by norm_num [wideSensor, demoSensor]
  rw [e1, e2]
  constructor <;> linarith

end PyBSM
