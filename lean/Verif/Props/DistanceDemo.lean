import Verif.Props.Distance
import Verif.Props.CompareDemo

/-!
# Concrete places for C140
-/

noncomputable section

open Classical

namespace PyBSM

open Spec

theorem row_9000_30000 : ∃ r, IsRow r 9000 30000 1 := by
  have : ∃ r ∈ decoderTable, r.haze = 1 ∧ r.altDm = 90000 ∧ r.rangeM = 30000 := by decide +kernel
  obtain ⟨r, h1, h2, h3, h4⟩ := this
  exact ⟨r, h1, by rw [h2]; norm_num, by rw [h3]; norm_num, by rw [h4]; norm_num⟩

theorem row_9000_0 : ∃ r, IsRow r 9000 0 1 := by
  have : ∃ r ∈ decoderTable, r.haze = 1 ∧ r.altDm = 90000 ∧ r.rangeM = 0 := by decide +kernel
  obtain ⟨r, h1, h2, h3, h4⟩ := this
  exact ⟨r, h1, by rw [h2]; norm_num, by rw [h3]; norm_num, by rw [h4]; norm_num⟩

theorem row_18000_0 : ∃ r, IsRow r 18000 0 1 := by
  have : ∃ r ∈ decoderTable, r.haze = 1 ∧ r.altDm = 180000 ∧ r.rangeM = 0 := by decide +kernel
  obtain ⟨r, h1, h2, h3, h4⟩ := this
  exact ⟨r, h1, by rw [h2]; norm_num, by rw [h3]; norm_num, by rw [h4]; norm_num⟩

theorem row_18000_60000 : ∃ r, IsRow r 18000 60000 1 := by
  have : ∃ r ∈ decoderTable, r.haze = 1 ∧ r.altDm = 180000 ∧ r.rangeM = 60000 := by decide +kernel
  obtain ⟨r, h1, h2, h3, h4⟩ := this
  exact ⟨r, h1, by rw [h2]; norm_num, by rw [h3]; norm_num, by rw [h4]; norm_num⟩

/-- The demonstration scene without turbulence, seen from somewhere else. -/
def calmScene (a r : ℝ) : RealScene := ⟨a, r, 100, 21, 0⟩

def calmScenario (a r : ℝ) : Scenario :=
  Scenario.new "calm" 1 (.fin a) (.fin r) (aircraftSpeed := .fin 100) (haWindSpeed := .fin 21) (cn2At1m := .fin 0)

theorem calm_imaging {a r : ℝ} (ha : 0 < a) (h : ∃ q, IsRow q a r 1) :
    Imaging demoEnv demoSensor (calmScene a r) (calmScenario a r) false demoInBand where
  usable := demoSensor_usable
  optical := demoSensor_optical
  viewing := by
    refine ⟨add_pos distance_R_pos ha, ?_⟩
    have h1 := slant_sq (calmScene a r)
    have h2 := drop_pos (g := calmScene a r) ha
    intro h0
    have e : (calmScene a r).slant = 0 := h0
    rw [e] at h1
    nlinarith [sq_nonneg (sideOf (calmScene a r))]
  scene := ⟨rfl, rfl, rfl, rfl, rfl⟩
  atmosphere := by
    obtain ⟨q, hq⟩ := h
    obtain ⟨b, h1, h2⟩ := C03_lookup (files := demoEnv.files) (raw := demoFile) hq rfl demoFile_length
    rw [isRecord_unique h2 demoAtm_record] at h1
    exact ⟨demoAtm, h1, rfl⟩
  wavelengths := demo_imaging.wavelengths
  distinct := demo_imaging.distinct
  signal := demo_imaging.signal
  counts := demo_imaging.counts
  well := demo_imaging.well
  fill := demo_imaging.fill
  bits := demo_imaging.bits
  pitchX := demo_imaging.pitchX
  pitchY := demo_imaging.pitchY
  focal := demo_imaging.focal
  frames := demo_imaging.frames

theorem calm_contrast {a r : ℝ} (ha : 0 < a) : Contrast demoSensor (calmScene a r) demoInBand :=
  ⟨ha, demo_contrast.frames, demo_contrast.cut, demo_contrast.brighter⟩

theorem demo_range : (60000 : ℝ) < Real.pi * R := by
  have := Real.pi_gt_three
  unfold R
  nlinarith

/-- From 9 km up, a target 60 km away is rated lower than one 30 km away. -/
example : ∃ (m m' : Metrics) (x x' : ℝ), (niirs5 demoEnv demoSensor.toSensor (calmScenario 9000 30000) false).1 = .ok m
    ∧ (niirs5 demoEnv demoSensor.toSensor (calmScenario 9000 60000) false).1 = .ok m' ∧ EquallySharp m m'
    ∧ m.niirs = .fin x ∧ m'.niirs = .fin x' ∧ x' < x :=
  C140_further (calm_imaging (by norm_num) row_9000_30000) (calm_imaging (by norm_num) row_9000_60000) demo_Sampled
    (calm_contrast (by norm_num)) le_rfl le_rfl rfl (by norm_num [calmScene]) (by norm_num [calmScene]) demo_range.le

/-- Straight above the target, 18 km instead of 9 km costs between 0.99 and 1 levels. -/
example : ∃ (m m' : Metrics) (x x' : ℝ), (niirs5 demoEnv demoSensor.toSensor (calmScenario 9000 0) false).1 = .ok m
    ∧ (niirs5 demoEnv demoSensor.toSensor (calmScenario 18000 0) false).1 = .ok m' ∧ m.niirs = .fin x ∧ m'.niirs = .fin x'
    ∧ 0.99 < x - x' ∧ x - x' < 1 := by
  obtain ⟨m, m', x, x', h1, h2, -, h3, h4, h5⟩ := C140_overhead (calm_imaging (by norm_num) row_9000_0)
    (calm_imaging (by norm_num) row_18000_0) demo_Sampled (calm_contrast (by norm_num)) (by norm_num [calmScene]) le_rfl le_rfl rfl rfl
  refine ⟨m, m', x, x', h1, h2, h3, h4, ?_⟩
  have e : (calmScene 18000 0).altitude / (calmScene 9000 0).altitude = 2 := by norm_num [calmScene]
  rw [e] at h5
  have b1 : (0.3 : ℝ) < Real.logb 10 2 := by
    rw [Real.lt_logb_iff_rpow_lt (by norm_num) (by norm_num)]
    have : ((10 : ℝ) ^ (0.3 : ℝ)) ^ 10 < 2 ^ 10 := by
      rw [← Real.rpow_natCast, ← Real.rpow_mul (by norm_num)]
      norm_num
    exact lt_of_pow_lt_pow_left₀ 10 (by norm_num) this
  have b2 : Real.logb 10 2 < 0.3011 := by
    have : 93 * Real.logb 10 2 < 28 := by
      have e : 93 * Real.logb 10 2 = Real.logb 10 (2 ^ 93) := by rw [Real.logb_pow]; norm_num
      rw [e, Real.logb_lt_iff_lt_rpow (by norm_num) (by norm_num)]
      norm_num
    linarith
  constructor <;> linarith

/-- From 60 km to the side, climbing from 9 km to 18 km makes the rating better: the target is seen more than 63.4° from straight down
from both places. -/
example : ∃ (m m' : Metrics) (x x' : ℝ), (niirs5 demoEnv demoSensor.toSensor (calmScenario 9000 60000) false).1 = .ok m
    ∧ (niirs5 demoEnv demoSensor.toSensor (calmScenario 18000 60000) false).1 = .ok m' ∧ m.niirs = .fin x ∧ m'.niirs = .fin x'
    ∧ x < x' := by
  have h' := calm_imaging (by norm_num) row_18000_60000
  obtain ⟨m', -, φ', -, -, f1, -, -, -, -, f6, f7, -⟩ := niirs5_value h'
  obtain ⟨m, m'', x, x', ε, ε', h1, h2, -, h3, h4, -, h6, -, h8, -⟩ := C140_climb (calm_imaging (by norm_num) row_9000_60000)
    h' demo_Sampled (calm_contrast (by norm_num)) le_rfl le_rfl rfl (by norm_num [calmScene]) demo_range (by norm_num [calmScene])
  refine ⟨m, m'', x, x', h1, h2, h3, h4, h8 ?_⟩
  have em : m' = m'' := Except.ok.inj (f1.symm.trans h2)
  subst em
  rw [h6, XR.fin.injEq] at f7
  rw [f7, sin_elev_eq h'.viewing f6]
  have d := slant_pos_of h'.viewing
  have n := drop_pos (g := calmScene 18000 60000) (by norm_num [calmScene])
  rw [div_le_div_iff₀ d (by positivity), one_mul]
  have hR := distance_R_pos
  have c1 := Real.one_sub_sq_div_two_le_cos (x := 60000 / R)
  have c2 := Real.sin_gt_sub_cube (x := 60000 / R) (by positivity)
  have k1 : 2 * dropOf (calmScene 18000 60000) ≤ sideOf (calmScene 18000 60000) := by
    show 2 * (R + 18000 - R * Real.cos (60000 / R)) ≤ R * Real.sin (60000 / R)
    unfold R at *
    norm_num at c1 c2 ⊢
    linarith
  have k2 : (dropOf (calmScene 18000 60000) * Real.sqrt 5) ^ 2 ≤ (calmScene 18000 60000).slant ^ 2 := by
    rw [slant_sq, mul_pow, Real.sq_sqrt (by norm_num)]
    nlinarith
  exact (pow_le_pow_iff_left₀ (by positivity) d.le (by norm_num)).mp k2

/-- The hypotheses of `C140_formula` hold in a concrete case. -/
example := C140_formula (calm_imaging (by norm_num) row_9000_30000) (calm_imaging (by norm_num) row_18000_60000) demo_Sampled
  (calm_contrast (by norm_num)) (by norm_num [calmScene]) le_rfl le_rfl

/-- The hypotheses of `C140_giqe34` hold in a concrete case. -/
example := C140_giqe34 (calm_imaging (by norm_num) row_9000_30000) (calm_imaging (by norm_num) row_18000_60000)
  (by simp [demoSensor]) rfl (calm_contrast (by norm_num)) (by norm_num [calmScene]) le_rfl le_rfl

end PyBSM
