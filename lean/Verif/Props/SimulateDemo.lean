import Verif.Props.Coarse
import Verif.Props.NiirsDemo

/-!
# A concrete simulation that meets the hypotheses of C73-C76
-/

noncomputable section

open Classical

namespace PyBSM

open Spec

theorem sinc_nonneg_of {x : ℝ} (h : |x| ≤ Real.pi) : 0 ≤ Real.sinc x := by
  have key : ∀ y : ℝ, 0 ≤ y → y ≤ Real.pi → 0 ≤ Real.sinc y := by
    intro y h0 h1
    rcases h0.eq_or_lt with rfl | hy
    · simp
    · rw [Real.sinc_of_ne_zero hy.ne']
      exact div_nonneg (Real.sin_nonneg_of_nonneg_of_le_pi h0 h1) h0
  rcases le_total 0 x with h0 | h0
  · exact key x h0 (by rwa [abs_of_nonneg h0] at h)
  · rw [← Real.sinc_neg]
    exact key (-x) (by linarith) (by rwa [abs_of_nonpos h0] at h)

/-- Up to the first zeros of detector and drift the optical part of the system OTF is nonnegative. -/
theorem opticsAt_nonneg {s : RealSensor} (hs : s.Optical) {g : RealScene} (hg : g.Viewing) {pairs : List (ℝ × ℝ)}
    (hb : Band pairs) {t : ℝ} (ht : 0 ≤ g.aircraftSpeed * (t * s.nTdi)) {u v : ℝ} (h1 : |s.wX * u / s.f| ≤ 1)
    (h2 : |s.wY * v / s.f| ≤ 1) (h3 : |s.daX * t * s.nTdi * u| ≤ 1) (h4 : |s.daY * t * s.nTdi * v| ≤ 1) :
    0 ≤ opticsAt s g pairs t u v := by
  have hpi := Real.pi_pos
  have hsc : ∀ x : ℝ, |x| ≤ 1 → 0 ≤ Real.sinc (Real.pi * x) := by
    intro x hx
    apply sinc_nonneg_of
    rw [abs_mul, abs_of_pos hpi]
    nlinarith [abs_nonneg x]
  have hA := (apertureAt_range hs hb u v).1
  have hT : 0 ≤ turbulenceAt s g pairs t u v := by
    unfold turbulenceAt
    split_ifs with hc
    · refine le_wmean hb.weights hb.total fun p hp => ?_
      have hr := fried_pos_of hg hc.le (hb.positive p hp)
      unfold turbMix
      dsimp only
      have h1 : Real.exp (-(g.aircraftSpeed * (t * s.nTdi) / fried g.altitude g.groundRange g.windSpeed g.cn2 p.1)) ≤ 1 := by
        rw [Real.exp_le_one_iff, neg_nonpos]
        positivity
      have h2 := sub_nonneg.mpr h1
      positivity
    · exact zero_le_one
  have hD : 0 ≤ detectorAt s u v := mul_nonneg (hsc _ h1) (hsc _ h2)
  have hJ := (jitterAt_range s u v).1.le
  have hR : 0 ≤ driftAt s t u v := mul_nonneg (hsc _ h3) (hsc _ h4)
  have hW : 0 ≤ wavefrontAt s pairs u v := le_wmean hb.weights hb.total fun _ _ => (Real.exp_pos _).le
  unfold opticsAt
  positivity

theorem grid_sum_pos {n : ℕ} (hn : Odd n) {G : ℕ → ℕ → ℝ} (h0 : ∀ k < n, ∀ l < n, 0 ≤ G k l) (h1 : 0 < G (n / 2) (n / 2)) :
    0 < ∑ k ∈ Finset.range n, ∑ l ∈ Finset.range n, G k l := by
  have hm : n / 2 < n := Nat.div_lt_self hn.pos (by norm_num)
  refine Finset.sum_pos' (fun k hk => Finset.sum_nonneg fun l hl => h0 k (Finset.mem_range.mp hk) l (Finset.mem_range.mp hl))
    ⟨n / 2, Finset.mem_range.mpr hm, ?_⟩
  exact Finset.sum_pos' (fun l hl => h0 _ hm l (Finset.mem_range.mp hl)) ⟨n / 2, Finset.mem_range.mpr hm, h1⟩

theorem freq_abs {n : ℕ} (hn : 2 ≤ n) {c : ℝ} (hc : 0 ≤ c) {j : ℕ} (hj : j < n) :
    |colFreq n c j| ≤ c ∧ |rowFreq n c j| ≤ c := by
  have hn' : (2 : ℝ) ≤ n := by exact_mod_cast hn
  have hj' : (j : ℝ) ≤ n - 1 := by
    have : (j : ℝ) + 1 ≤ n := by exact_mod_cast hj
    linarith
  have hj0 : (0 : ℝ) ≤ j := Nat.cast_nonneg j
  have hd : (0 : ℝ) < n - 1 := by linarith
  have hr0 : 0 ≤ 2 * (j : ℝ) / ((n : ℝ) - 1) := by positivity
  have hr1 : 2 * (j : ℝ) / ((n : ℝ) - 1) ≤ 2 := by rw [div_le_iff₀ hd]; linarith
  unfold colFreq rowFreq
  constructor <;> rw [abs_mul, abs_of_nonneg hc] <;> apply mul_le_of_le_one_left hc <;> rw [abs_le] <;>
    constructor <;> linarith

theorem freq_centre {n : ℕ} (hn : Odd n) (h2 : 2 ≤ n) (c : ℝ) : colFreq n c (n / 2) = 0 ∧ rowFreq n c (n / 2) = 0 := by
  obtain ⟨m, rfl⟩ := hn
  have e : (2 * m + 1) / 2 = m := by omega
  have hm : (m : ℝ) ≠ 0 := by
    have : m ≠ 0 := by omega
    exact_mod_cast this
  rw [e]
  unfold colFreq rowFreq
  push_cast
  constructor <;> field_simp <;> ring

/-- Detector and drift without zeros up to the cutoff: the samples of the OTF do not cancel. -/
theorem optics_sum_pos {s : RealSensor} (hs : s.Optical) {g : RealScene} (hg : g.Viewing) {pairs : List (ℝ × ℝ)}
    (hb : Band pairs) {t : ℝ} (ht : 0 ≤ g.aircraftSpeed * (t * s.nTdi)) {c : ℝ} (hc : 0 ≤ c) (h1 : |s.wX / s.f| * c ≤ 1)
    (h2 : |s.wY / s.f| * c ≤ 1) (h3 : |s.daX * t * s.nTdi| * c ≤ 1) (h4 : |s.daY * t * s.nTdi| * c ≤ 1) :
    0 < ∑ k ∈ Finset.range 1501, ∑ l ∈ Finset.range 1501, opticsAt s g pairs t (colFreq 1501 c l) (rowFreq 1501 c k) := by
  have mono : ∀ a x : ℝ, |x| ≤ c → |a| * c ≤ 1 → |a * x| ≤ 1 := by
    intro a x hx ha
    rw [abs_mul]
    exact (mul_le_mul_of_nonneg_left hx (abs_nonneg a)).trans ha
  refine grid_sum_pos (by decide) (fun k hk l hl => ?_) ?_
  · have hu := (freq_abs (by norm_num) hc hl).1
    have hv := (freq_abs (by norm_num) hc hk).2
    refine opticsAt_nonneg hs hg hb ht ?_ ?_ (mono _ _ hu h3) (mono _ _ hv h4)
    · rw [mul_div_right_comm]; exact mono _ _ hu h1
    · rw [mul_div_right_comm]; exact mono _ _ hv h2
  · obtain ⟨e1, e2⟩ := freq_centre (n := 1501) (by decide) (by norm_num) c
    rw [e1, e2, opticsAt_zero hs g hb]
    exact zero_lt_one

/-! ## The instance -/

/-- The flat-Earth distance of the demonstration scenario. -/
def demoSlant : ℝ := Real.sqrt (9000 ^ 2 + 60000 ^ 2)

theorem demoSlant_pos : 0 < demoSlant := Real.sqrt_pos.mpr (by norm_num)

/-- A (very coarse) 2 x 3 reference image. -/
def demoRef : RefImage where
  img := ⟨2, 3, fun i j => 40 * i + 10 * j⟩
  gsd := .fin (2 * demoSlant)
  pixValues := [.fin 0, .fin 100]
  reflValues := [.fin 0.05, .fin 0.95]
  name := "demo"

theorem demoRef_of : RefOf demoRef [(0, 0.05), (100, 0.95)] where
  valid := ⟨by norm_num, by norm_num⟩
  pix := rfl
  refl := rfl

theorem demo_white {a : Fin 6 → ℝ} (h : a ∈ demoInBand) : 0 < demoSensor.spectral (a 0) (greyRadiance a 1 300) := by
  apply demo_spectral_pos h
  obtain ⟨h1, -, h3, h4, h5, h6⟩ := demoInBand_mem h
  unfold greyRadiance
  rw [h3, h4, h5, h6]
  norm_num

theorem demo_readAtm : (demoScenario.readAtm demoEnv.files).1 = .ok (realAtm demoAtm) := by
  unfold Scenario.readAtm
  have e : demoScenario.atmCache = none := rfl
  have e2 : dbLoad demoEnv.files ⟨demoScenario.interp, demoScenario.altitude, demoScenario.groundRange, demoScenario.ihaze⟩
      = .ok (realAtm demoAtm) := demoAtm_load
  simp only [e, e2]

theorem demo_simulation : Simulation demoEnv demoSensor demoScenario demoRef [(0, 0.05), (100, 0.95)] demoInBand where
  usable := demoSensor_usable
  optical := demoSensor_optical
  kernel := fun h => by norm_num [demoSensor] at h
  well := by norm_num [demoSensor]
  bits := by norm_num [demoSensor]
  atmosphere := ⟨demoAtm, demo_readAtm, rfl⟩
  wavelengths := fun _ ha => lt_of_lt_of_le (by norm_num) (demoInBand_mem ha).1
  distinct := demo_imaging.distinct
  signal := by
    obtain ⟨a, ha, -⟩ := demo_imaging.signal
    exact ⟨a, ha, demo_white ha⟩
  image := demoRef_of

theorem demo_flatView : ∃ g : RealScene, FlatView g demoScenario ∧ g.slant = demoSlant ∧ g.aircraftSpeed = 100 := by
  obtain ⟨g, h1, h2, h3⟩ := flatView_exists (sc := demoScenario) (a := 9000) (rng := 60000) rfl rfl rfl rfl rfl (by norm_num)
    (by norm_num [R])
  refine ⟨g, h3, ?_, ?_⟩
  · obtain ⟨rng, e1, e2⟩ := h3.distance
    have e1 : XR.fin 60000 = .fin rng := e1
    rw [XR.fin_inj] at e1
    rw [e2, h1, ← e1]
    rfl
  · have : XR.fin 100 = .fin g.aircraftSpeed := h3.sky.aircraftSpeed
    rw [XR.fin_inj] at this
    exact this.symm

theorem demo_white_cutoff {c : ℝ} (h : IsCutoff demoSensor.D (demoSensor.whiteBand demoInBand) c) : 20000 ≤ c ∧ c ≤ 33334 := by
  obtain ⟨lam, ⟨p, hp, rfl⟩, -, rfl⟩ := h
  obtain ⟨a, ha, rfl⟩ := List.mem_map.mp (List.mem_filter.mp hp).1
  obtain ⟨h1, h2, -⟩ := demoInBand_mem ha
  have h0 : 0 < a 0 := lt_of_lt_of_le (by norm_num) h1
  have hD : demoSensor.D = 0.1 := rfl
  dsimp only
  rw [hD]
  constructor
  · rw [le_div_iff₀ h0]; linarith
  · rw [div_le_iff₀ h0]; linarith

/-- Every hypothesis of C73-C76 holds in a concrete case: the simulation succeeds, with every pixel of the blurred
image between an empty and a full well. -/
theorem demo_succeeds (rng : Rng) : ∃ R, simulateImage demoEnv true rng demoRef demoSensor.toSensor demoScenario = .ok R
    ∧ R.blurImg.h = 400000 ∧ R.blurImg.w = 600000 ∧ Within R.blurImg 0 100000 := by
  obtain ⟨g, hv, hs, ha⟩ := demo_flatView
  have hp := demoSlant_pos
  have e1 : demoSensor.wX / demoSensor.f = 1e-5 := by norm_num [demoSensor]
  have e2 : demoSensor.wY / demoSensor.f = 1e-5 := by norm_num [demoSensor]
  have e3 : demoSensor.daX * demoSensor.intTime * demoSensor.nTdi = 1e-7 := by norm_num [demoSensor]
  have e4 : demoSensor.daY * demoSensor.intTime * demoSensor.nTdi = 1e-7 := by norm_num [demoSensor]
  have hr : 2 * demoSlant / g.slant = 2 := by rw [hs]; field_simp
  have he : (1e-5 : ℝ) = (demoSensor.pX + demoSensor.pY) / 2 / demoSensor.f := by norm_num [demoSensor]
  have exact_ : ∀ {x : ℝ} {n : ℤ}, x = n → IsRoundHalfEven x n := by
    intro x n h
    subst h
    exact ⟨by norm_num, by norm_num⟩
  obtain ⟨R, h1, h2, h3, h4, h5, -⟩ := C76_coarse demo_simulation demo_counting (by norm_num [demoSensor]) hv
    (γ := 2 * demoSlant) rfl (by norm_num [demoRef]) (by norm_num [demoRef])
    (fun c hc => by
      obtain ⟨c1, -⟩ := demo_white_cutoff hc
      have h1 : 2 * demoSlant / 2 / g.slant = 1 := by rw [hs]; field_simp
      rw [h1, Real.arctan_one, div_lt_iff₀ (by linarith)]
      nlinarith [Real.pi_gt_three])
    (fun c hc => by
      obtain ⟨c1, c2⟩ := demo_white_cutoff hc
      refine (optics_sum_pos demoSensor_optical hv.viewing (positive_band demo_simulation.wavelengths
        demo_simulation.distinct demo_simulation.signal) ?_ (by linarith) ?_ ?_ ?_ ?_).ne'
      · rw [ha]; norm_num [demoSensor]
      · rw [e1, abs_of_pos (by norm_num)]; linarith
      · rw [e2, abs_of_pos (by norm_num)]; linarith
      · rw [e3, abs_of_pos (by norm_num)]; linarith
      · rw [e4, abs_of_pos (by norm_num)]; linarith)
    he (by norm_num) (nh := 400000) (nw := 600000) (np := 200000)
    (exact_ (by rw [hr]; norm_num [demoRef])) (exact_ (by rw [hr]; norm_num [demoRef])) (exact_ (by rw [hr]; norm_num))
    (by norm_num) (by norm_num) (by norm_num) rng
  exact ⟨R, h1, by exact_mod_cast h2, by exact_mod_cast h3, h4 _ _ h5⟩

/-- C74 and C75 apply to it. -/
example (rng rng' : Rng) (files' : Files) : ∃ R R',
    simulateImage demoEnv true rng demoRef demoSensor.toSensor demoScenario = .ok R
    ∧ simulateImage demoEnv true rng' demoRef demoSensor.toSensor demoScenario = .ok R' ∧ R'.blurImg = R.blurImg
    ∧ simulateImage { demoEnv with files := files' } true rng demoRef demoSensor.toSensor R.scenario = .ok R := by
  obtain ⟨R, h, -⟩ := demo_succeeds rng
  obtain ⟨g, -, -, h1⟩ := C74_draws h
  obtain ⟨R', h2, -, h3, -⟩ := h1 rng'
  exact ⟨R, R', h, h2, h3, (C75_again h).2 files'⟩

/-- C73: the corner pixel has value 0, hence reflectance 0.05. -/
example (rng : Rng) : ∃ R, simulateImage demoEnv true rng demoRef demoSensor.toSensor demoScenario = .ok R
    ∧ R.trueImg.h = 2 ∧ R.trueImg.w = 3 := by
  obtain ⟨R, h, -⟩ := demo_succeeds rng
  obtain ⟨g, hv, -⟩ := demo_flatView
  obtain ⟨T, srt, ρ, c, F, otf, atm, -, -, -, h4, h5, -, -, -, -, -, -, h7⟩ := C73_simulation demo_simulation hv
  refine ⟨R, h, ?_⟩
  rw [h7] at h
  split at h
  · cases h
  · split_ifs at h
    rw [Except.ok.injEq] at h
    subst h
    exact ⟨h4, h5⟩

end PyBSM
