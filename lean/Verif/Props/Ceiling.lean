import Verif.Spec.Ceiling
import Verif.Props.Noisier
import Verif.Props.NoisierDemo
import Verif.Props.Plot

/-!
# C111: how sharp an edge can be, and what the ratings can be
-/

noncomputable section

open Classical

namespace PyBSM

open Spec

/-- The relative edge response of samples up to `K` is at most `2 K` times the highest frequency times the pixel. -/
theorem rerOf_le {M : ℕ → ℝ} {df ifov K : ℝ} (hM : ∀ k < 50, |M k| ≤ K) (hdf : 0 ≤ df) (hi : 0 ≤ ifov) :
    rerOf M df ifov ≤ 2 * K * ifov * (49 * df) := by
  have hpi := Real.pi_pos
  have hw : ∀ i : ℕ, (0 : ℝ) < df * i + 1e-6 := fun i => by positivity
  have key : edge 50 M df ifov (1 / 2) ≤ 1 / 2 + K * ifov * (49 * df) := by
    unfold edge
    dsimp only
    have := trap_mono (n := 50) (x := fun i : ℕ => df * i + 1e-6)
      (y := fun i : ℕ => M i * Real.sin (2 * Real.pi * (df * i + 1e-6) * (ifov * (1 / 2))) / (df * i + 1e-6))
      (z := fun i : ℕ => K * Real.pi * ifov)
      (by intro i _; push_cast; nlinarith)
      (by
        intro i hi'
        rw [div_le_iff₀ (hw i)]
        have h1 : |Real.sin (2 * Real.pi * (df * i + 1e-6) * (ifov * (1 / 2)))| ≤ Real.pi * ifov * (df * i + 1e-6) := by
          have h2 := Real.abs_sin_le_abs (x := 2 * Real.pi * (df * i + 1e-6) * (ifov * (1 / 2)))
          have h3 : 0 ≤ 2 * Real.pi * (df * i + 1e-6) * (ifov * (1 / 2)) := by have := hw i; positivity
          rw [abs_of_nonneg h3] at h2
          linarith
        refine (le_abs_self _).trans ?_
        rw [abs_mul]
        have := mul_le_mul (hM i hi') h1 (abs_nonneg _) ((abs_nonneg _).trans (hM i hi'))
        linarith)
    have ht : trap 50 (fun i : ℕ => df * i + 1e-6) (fun _ => K * Real.pi * ifov) = K * Real.pi * ifov * (49 * df) := by
      unfold trap
      rw [Finset.sum_congr rfl (g := fun _ => K * Real.pi * ifov * df) (by intro i _; push_cast; ring)]
      rw [Finset.sum_const, Finset.card_range]
      norm_num
      ring
    rw [ht] at this
    have := div_le_div_of_nonneg_right this hpi.le
    have e : K * Real.pi * ifov * (49 * df) / Real.pi = K * ifov * (49 * df) := by field_simp
    linarith
  unfold rerOf
  rw [edge_neg]
  linarith

/-- The MTF without image processing is at most one below the cutoff. -/
theorem mtf_le_one {env : Env} {s : RealSensor} {g : RealScene} {sc : Scenario} {interp : Bool}
    {B : List (Fin 6 → ℝ)} (h : Imaging env s g sc interp B) (hp : Passive s g B) {c : ℝ} (hcut : s.Cutoff B c) {x y : ℝ}
    (hr : Real.sqrt (x ^ 2 + y ^ 2) ≤ c) : s.mtf g B (fun _ _ => 1) x y ≤ 1 := by
  have hb := imaging_band h.wavelengths h.distinct h.signal
  have ho := h.optical
  have hT : 0 ≤ turbulenceAt s g (s.band B) (s.exposure B) x y ∧ turbulenceAt s g (s.band B) (s.exposure B) x y ≤ 1 := by
    apply turbulenceAt_range ho.aperture h.viewing hb hp.motion
    intro a ha
    obtain ⟨lam, ⟨b, hbm, rfl⟩, -, rfl⟩ := hcut
    have hb0 := hb.positive b hbm
    have ha0 := hb.positive a ha
    have hD := ho.aperture
    calc a.1 * Real.sqrt (x ^ 2 + y ^ 2) ≤ 8 * b.1 * (s.D / b.1) :=
          mul_le_mul (hp.band a ha b hbm) hr (by positivity) (by positivity)
      _ = 8 * s.D := by field_simp
  have r1 : |apertureAt s (s.band B) x y| ≤ 1 := by
    obtain ⟨a, b⟩ := apertureAt_range ho hb x y; rwa [abs_of_nonneg a]
  have r2 : |turbulenceAt s g (s.band B) (s.exposure B) x y| ≤ 1 := by
    rw [abs_of_nonneg hT.1]; exact hT.2
  have r3 : |detectorAt s x y| ≤ 1 := detectorAt_abs _ _ _
  have r4 : |jitterAt s x y| ≤ 1 := by
    obtain ⟨a, b⟩ := jitterAt_range s x y; rwa [abs_of_pos a]
  have r5 : |driftAt s (s.exposure B) x y| ≤ 1 := driftAt_abs _ _ _ _
  have r6 : |wavefrontAt s (s.band B) x y| ≤ 1 := by
    obtain ⟨a, b⟩ := wavefrontAt_range hp.wavefront hb x y; rwa [abs_of_nonneg a]
  unfold RealSensor.mtf opticsAt
  rw [mul_one, abs_mul, abs_mul, abs_mul, abs_mul, abs_mul]
  have m1 := fun {a b : ℝ} (ha : a ≤ 1) (hb0 : 0 ≤ b) (hb1 : b ≤ 1) => mul_le_one₀ ha hb0 hb1
  exact m1 (m1 (m1 (m1 (m1 r1 (abs_nonneg _) r2) (abs_nonneg _) r3) (abs_nonneg _) r4) (abs_nonneg _) r5) (abs_nonneg _) r6

/-- **C111** (edges): both relative edge responses that `niirs5` reports are at most twice the number of cycles of the
cutoff frequency per pixel. -/
theorem C111_edge {env : Env} {s : RealSensor} {g : RealScene} {sc : Scenario} {interp : Bool}
    {B : List (Fin 6 → ℝ)} (h : Imaging env s g sc interp B) (hp : Passive s g B) :
    ∃ (m : Metrics) (c r1 r2 : ℝ) (gw rer : XR), (niirs5 env s.toSensor sc interp).1 = .ok m
      ∧ s.Cutoff B c ∧ m.cutoffFrequency = .fin c ∧ m.giqe5 = some (.fin r1, .fin r2, gw, rer)
      ∧ r1 ≤ 2 * (s.pX / s.f) * c ∧ r2 ≤ 2 * (s.pY / s.f) * c := by
  obtain ⟨m, c, φ, gw, rer, e1, -, e3, -, -, -, -, e8, -⟩ := niirs5_value h
  have hc := cutoff_pos h.optical.aperture h.wavelengths e3.isCutoff
  have hdf : 0 ≤ c / 50 := by positivity
  have ix : 0 < s.pX / s.f := div_pos h.pitchX h.focal
  have iy : 0 < s.pY / s.f := div_pos h.pitchY h.focal
  have hk : ∀ k : ℕ, k < 50 → (k : ℝ) * (c / 50) ≤ c := by
    intro k hk
    have : (k : ℝ) ≤ 50 := by exact_mod_cast hk.le
    nlinarith
  have hU : ∀ k < 50, |alongU (s.mtf g B fun _ _ => 1) (c / 50) k| ≤ 1 := by
    intro k hk'
    unfold alongU
    rw [abs_of_nonneg (by unfold RealSensor.mtf; exact abs_nonneg _)]
    apply mtf_le_one h hp e3.isCutoff
    rw [show ((k : ℝ) * (c / 50)) ^ 2 + 0 ^ 2 = (k * (c / 50)) ^ 2 by ring, Real.sqrt_sq (by positivity)]
    exact hk k hk'
  have hV : ∀ k < 50, |alongV (s.mtf g B fun _ _ => 1) (c / 50) k| ≤ 1 := by
    intro k hk'
    unfold alongV
    rw [abs_of_nonneg (by unfold RealSensor.mtf; exact abs_nonneg _)]
    apply mtf_le_one h hp e3.isCutoff
    rw [show (0 : ℝ) ^ 2 + ((k : ℝ) * (c / 50)) ^ 2 = (k * (c / 50)) ^ 2 by ring, Real.sqrt_sq (by positivity)]
    exact hk k hk'
  refine ⟨m, c, _, _, gw, rer, e1, e3.isCutoff, e3.cutoff, e8, ?_, ?_⟩
  · have := rerOf_le hU hdf ix.le
    have := mul_pos ix hc
    linarith
  · have := rerOf_le hV hdf iy.le
    have := mul_pos iy hc
    linarith

theorem Spec.RealSensor.Nyquist.sampled {s : RealSensor} {B : List (Fin 6 → ℝ)} (h : s.Nyquist B) (hx : 0 < s.pX / s.f)
    (hy : 0 < s.pY / s.f) (h0 : ∀ c, s.Cutoff B c → 0 < c) : s.Sampled B := by
  intro c hc
  obtain ⟨h1, h2⟩ := h c hc
  have := h0 c hc
  constructor <;> nlinarith

/-- With two samples per cycle of the cutoff the relative edge responses of every `niirs5` report are at most one. -/
theorem nyquist_edge {env : Env} {s : RealSensor} {g : RealScene} {sc : Scenario} {interp : Bool}
    {B : List (Fin 6 → ℝ)} (h : Imaging env s g sc interp B) (hp : Passive s g B) (hN : s.Nyquist B) {m : Metrics}
    (hm : (niirs5 env s.toSensor sc interp).1 = .ok m) {r1 r2 : ℝ} {gw rer : XR}
    (hr : m.giqe5 = some (.fin r1, .fin r2, gw, rer)) : r1 ≤ 1 ∧ r2 ≤ 1 := by
  obtain ⟨m', c, q1, q2, gw', rer', e1, e2, -, e4, e5, e6⟩ := C111_edge h hp
  rw [hm, Except.ok.injEq] at e1
  subst e1
  rw [hr] at e4
  simp only [Option.some.injEq, Prod.mk.injEq, XR.fin.injEq] at e4
  obtain ⟨rfl, rfl, -, -⟩ := e4
  obtain ⟨n1, n2⟩ := hN c e2
  have ix : 0 < s.pX / s.f := div_pos h.pitchX h.focal
  have iy : 0 < s.pY / s.f := div_pos h.pitchY h.focal
  constructor <;> nlinarith

/-- **C111** (ceiling): no camera with two samples per cycle is rated better by `niirs5` than its ground sample distance
alone allows. -/
theorem C111_ceiling {env : Env} {s : RealSensor} {g : RealScene} {sc : Scenario} {interp : Bool}
    {B : List (Fin 6 → ℝ)} (h : Imaging env s g sc interp B) (hp : Passive s g B) (hN : s.Nyquist B)
    (hc : Contrast s g B) :
    ∃ (m : Metrics) (x gw : ℝ) (r1 r2 rer : XR), (niirs5 env s.toSensor sc interp).1 = .ok m ∧ m.niirs = .fin x
      ∧ m.giqe5 = some (r1, r2, .fin gw, rer) ∧ 0 < gw ∧ x < 9.57 - 3.32 * lg (gw / 0.0254) := by
  have ix : 0 < s.pX / s.f := div_pos h.pitchX h.focal
  have iy : 0 < s.pY / s.f := div_pos h.pitchY h.focal
  have hs := hN.sampled ix iy fun c => cutoff_pos h.optical.aperture h.wavelengths
  obtain ⟨m, c, φ, gw, rer, e1, -, e3, -, -, e6, -, e8, e9⟩ := niirs5_value h
  obtain ⟨l1, l2⟩ := nyquist_edge h hp hN e1 e8
  have hc0 := cutoff_pos h.optical.aperture h.wavelengths e3.isCutoff
  have hb := imaging_band h.wavelengths h.distinct h.signal
  obtain ⟨q1, q2⟩ := hs _ e3.isCutoff
  have hdf : 0 < c / 50 := by positivity
  have hle : c / 50 * 49 + 1e-6 ≤ c + 1e-6 := by linarith
  have qx := (mul_le_mul_of_nonneg_left hle ix.le).trans q1
  have qy := (mul_le_mul_of_nonneg_left hle iy.le).trans q2
  have hM0 : s.mtf g B (fun _ _ => 1) 0 0 = 1 := by
    unfold RealSensor.mtf
    rw [opticsAt_zero h.optical g hb]; simp
  have p1 : 0 < rerOf (alongU (s.mtf g B fun _ _ => 1) (c / 50)) (c / 50) (s.pX / s.f) := by
    refine rerOf_pos ?_ (fun k => abs_nonneg _) hdf ix qx
    unfold alongU; rw [Nat.cast_zero, zero_mul, hM0]; norm_num
  have p2 : 0 < rerOf (alongV (s.mtf g B fun _ _ => 1) (c / 50)) (c / 50) (s.pY / s.f) := by
    refine rerOf_pos ?_ (fun k => abs_nonneg _) hdf iy qy
    unfold alongV; rw [Nat.cast_zero, zero_mul, hM0]; norm_num
  have g0 : 0 < s.pX / s.f * g.slant := mul_pos ix (slant_pos_of h.viewing)
  have hsin := sin_elev_pos h.viewing hc.altitude e6
  have hsnr : 0 < Real.sqrt s.frameStacks * s.contrastSNR B :=
    mul_pos (Real.sqrt_pos.mpr hc.frames) (div_pos (mul_pos hc.cut (sub_pos.mpr hc.brighter))
      (noise_pos h.well h.fill h.bits h.counts))
  rw [giqe5_fin rfl p1 p2 g0 hsnr.ne' hsin, Except.ok.injEq, Prod.mk.injEq, Prod.mk.injEq] at e9
  rw [← e9.2.1] at e8
  refine ⟨m, _, _, _, _, _, e1, e9.1.symm, e8, ?_, ?_⟩
  · unfold projectedGsd
    have := Real.rpow_pos_of_pos hsin (1 / 4)
    positivity
  · have hl : lg (rer5 (rerOf (alongU (s.mtf g B fun _ _ => 1) (c / 50)) (c / 50) (s.pX / s.f))
        (rerOf (alongV (s.mtf g B fun _ _ => 1) (c / 50)) (c / 50) (s.pY / s.f))) ≤ 0 := by
      have hb := rer5_between p1 p2
      exact Real.logb_nonpos (by norm_num) ((lt_min p1 p2).le.trans hb.1) (hb.2.trans (max_le l1 l2))
    unfold Spec.niirs5
    generalize Real.sqrt s.frameStacks * s.contrastSNR B = S at *
    have h1 : 0 < 1.8 / S := by positivity
    have h2 : Real.exp (-1.9 / S) ≤ 1 := Real.exp_le_one_iff.mpr (div_nonpos_of_nonpos_of_nonneg (by norm_num) hsnr.le)
    generalize lg (rer5 _ _) = L at *
    have h3 : 0 ≤ L ^ 4 := by positivity
    have h4 : 0 ≤ (1 - Real.exp (-1.9 / S)) * (-L) := mul_nonneg (by linarith) (by linarith)
    linarith

/-- **C111** (more blur): with two samples per cycle, more blur never improves the rating of `niirs5`. -/
theorem C111_blur {env : Env} {s s' : RealSensor} {g g' : RealScene} {sc sc' : Scenario} {interp : Bool}
    {B : List (Fin 6 → ℝ)} (h : Imaging env s g sc interp B) (b : MoreBlur s s' g g') (hsc : g'.Of sc')
    (hz : sc'.ihaze = sc.ihaze) (hN : s.Nyquist B) (hc : Contrast s g B)
    (hp : Passive s g B) (hd : s'.SlowDrift B) (ht : 0 ≤ s.intTime * s.nTdi) :
    ∃ (m m' : Metrics) (x x' : ℝ), (niirs5 env s.toSensor sc interp).1 = .ok m
      ∧ (niirs5 env s'.toSensor sc' interp).1 = .ok m' ∧ m.niirs = .fin x ∧ m'.niirs = .fin x' ∧ x' ≤ x := by
  have hs := hN.sampled (div_pos h.pitchX h.focal) (div_pos h.pitchY h.focal)
    fun c => cutoff_pos h.optical.aperture h.wavelengths
  obtain ⟨m, m', e1, e2, -, -, r1, r2, gw, r, r1', r2', r', x, x', f1, -, f3, f4, -, -, -, -, -, f5⟩ :=
    C77_blur h b hsc hz hs hc hp.band hd ht
  obtain ⟨l1, l2⟩ := nyquist_edge h hp hN e1 f1
  exact ⟨m, m', x, x', e1, e2, f3, f4, f5 l1 l2⟩

/-- **C111** (more noise): with two samples per cycle, more noise never improves the rating of `niirs5`. -/
theorem C111_noise {env : Env} {s s' : RealSensor} {g : RealScene} {sc : Scenario} {interp : Bool}
    {B : List (Fin 6 → ℝ)} (h : Imaging env s g sc interp B) (b : MoreNoise s s') (hN : s.Nyquist B)
    (hc : Contrast s g B) (hp : Passive s g B) :
    ∃ (m m' : Metrics) (x x' : ℝ), (niirs5 env s.toSensor sc interp).1 = .ok m
      ∧ (niirs5 env s'.toSensor sc interp).1 = .ok m' ∧ m.niirs = .fin x ∧ m'.niirs = .fin x' ∧ x' ≤ x := by
  have hs := hN.sampled (div_pos h.pitchX h.focal) (div_pos h.pitchY h.focal)
    fun c => cutoff_pos h.optical.aperture h.wavelengths
  obtain ⟨m, m', -, -, e1, e2, -, -, -, -, -, -, r1, r2, gw, r, r1', r2', r', x, x', f1, -, f3, f4, -, -, -, -, -, f5⟩ :=
    C78_noise h b hs hc
  obtain ⟨l1, l2⟩ := nyquist_edge h hp hN e1 f1
  exact ⟨m, m', x, x', e1, e2, f3, f4, f5 l1 l2⟩

/-- **C111** (dark target): with two samples per cycle and a background brighter than the target, more noise never lowers
the rating of `niirs5`, and enough read-out noise raises it above every number. -/
theorem C111_dark_target {env : Env} {s : RealSensor} {g : RealScene} {sc : Scenario} {interp : Bool}
    {B : List (Fin 6 → ℝ)} (h : Imaging env s g sc interp B) (hN : s.Nyquist B) (hc : DarkTarget s g B)
    (hp : Passive s g B) :
    ∃ (x : ℝ) (m : Metrics), (niirs5 env s.toSensor sc interp).1 = .ok m ∧ m.niirs = .fin x
      ∧ (∀ s', MoreNoise s s' → ∃ (m' : Metrics) (x' : ℝ), (niirs5 env s'.toSensor sc interp).1 = .ok m'
          ∧ m'.niirs = .fin x' ∧ x ≤ x')
      ∧ ∀ N : ℝ, ∃ (r x' : ℝ) (m' : Metrics), (niirs5 env { s with readNoise := r }.toSensor sc interp).1 = .ok m'
          ∧ m'.niirs = .fin x' ∧ N < x' := by
  have hs := hN.sampled (div_pos h.pitchX h.focal) (div_pos h.pitchY h.focal)
    fun c => cutoff_pos h.optical.aperture h.wavelengths
  obtain ⟨r1, r2, gw, rer, x, m, e1, e2, e3, e4, e5⟩ := C110_niirs5 h hs hc
  obtain ⟨l1, l2⟩ := nyquist_edge h hp hN e1 e2
  refine ⟨x, m, e1, e3, fun s' b => ?_, fun N => ?_⟩
  · obtain ⟨m', x', f1, -, f3, f4⟩ := e4 s' b
    exact ⟨m', x', f1, f3, f4 l1 l2⟩
  · obtain ⟨r, x', m', f1, f3, f4⟩ := e5 N
    exact ⟨r, x', m', f1, f3, f4 l1 l2⟩

/-! ## Concrete cases -/

theorem demo_exposure_nonneg : 0 ≤ demoSensor.exposure demoInBand := by
  unfold RealSensor.exposure
  have : (0 : ℝ) ≤ demoSensor.intTime := by norm_num [demoSensor]
  exact mul_nonneg demo_cut.le this

theorem demo_passive : Passive demoSensor demoScene demoInBand where
  wavefront := by norm_num [demoSensor]
  motion := by
    have := demo_exposure_nonneg
    have h1 : (0 : ℝ) ≤ demoScene.aircraftSpeed := by norm_num [demoScene]
    have h2 : (0 : ℝ) ≤ demoSensor.nTdi := by norm_num [demoSensor]
    positivity
  band := fun p hp q hq => by linarith [(demo_band hp).2, (demo_band hq).1]

theorem demo_nyquist : demoSensor.Nyquist demoInBand := by
  intro c hc
  obtain ⟨h1, h2⟩ := demo_sampled c hc
  have hpos := cutoff_pos demoSensor_optical.aperture demo_imaging.wavelengths hc
  have e1 : demoSensor.pX / demoSensor.f = 1e-5 := by norm_num [demoSensor]
  have e2 : demoSensor.pY / demoSensor.f = 1e-5 := by norm_num [demoSensor]
  rw [e1] at h1 ⊢
  rw [e2] at h2 ⊢
  constructor <;> nlinarith

theorem night_passive : Passive wideSensor demoScene nightInBand where
  wavefront := by norm_num [wideSensor, demoSensor]
  motion := by
    have h0 : 0 ≤ wideSensor.exposure nightInBand := by
      unfold RealSensor.exposure
      have : (0 : ℝ) ≤ wideSensor.intTime := by norm_num [wideSensor, demoSensor]
      exact mul_nonneg night_dark.cut.le this
    have h1 : (0 : ℝ) ≤ demoScene.aircraftSpeed := by norm_num [demoScene]
    have h2 : (0 : ℝ) ≤ wideSensor.nTdi := by norm_num [wideSensor, demoSensor]
    positivity
  band := fun p hp q hq => by
    obtain ⟨a, ha, rfl⟩ := List.mem_map.mp (List.mem_filter.mp hp).1
    obtain ⟨b, hb, rfl⟩ := List.mem_map.mp (List.mem_filter.mp hq).1
    have := (nightInBand_mem ha).2.1
    have := (nightInBand_mem hb).1
    dsimp only
    linarith

theorem night_nyquist : wideSensor.Nyquist nightInBand := by
  intro c hc
  have := night_cutoff hc
  have e1 : wideSensor.pX / wideSensor.f = 1e-5 := by norm_num [wideSensor, demoSensor]
  have e2 : wideSensor.pY / wideSensor.f = 1e-5 := by norm_num [wideSensor, demoSensor]
  rw [e1, e2]
  constructor <;> linarith

/-- Every hypothesis of `C111_ceiling` (hence of `C111_edge`) holds in a concrete case. -/
example : ∃ (m : Metrics) (x gw : ℝ) (r1 r2 rer : XR), (niirs5 demoEnv demoSensor.toSensor demoScenario false).1 = .ok m
    ∧ m.niirs = .fin x ∧ m.giqe5 = some (r1, r2, .fin gw, rer) ∧ 0 < gw ∧ x < 9.57 - 3.32 * lg (gw / 0.0254) :=
  C111_ceiling demo_imaging demo_passive demo_nyquist demo_contrast

/-- Every hypothesis of `C111_blur` holds in a concrete case. -/
example : ∃ (m m' : Metrics) (x x' : ℝ), (niirs5 demoEnv demoSensor.toSensor demoScenario false).1 = .ok m
    ∧ (niirs5 demoEnv demoShaky.toSensor demoTurbulentScenario false).1 = .ok m' ∧ m.niirs = .fin x ∧ m'.niirs = .fin x'
    ∧ x' ≤ x :=
  C111_blur demo_imaging demo_moreBlur (sc' := demoTurbulentScenario)
    ⟨rfl, rfl, rfl, rfl, rfl⟩ rfl demo_nyquist demo_contrast demo_passive demo_slowDrift (by norm_num [demoSensor])

/-- Every hypothesis of `C111_noise` holds in a concrete case. -/
example : ∃ (m m' : Metrics) (x x' : ℝ), (niirs5 demoEnv demoSensor.toSensor demoScenario false).1 = .ok m
    ∧ (niirs5 demoEnv { demoSensor with readNoise := 30, otherNoise := [5], bitDepth := 8 }.toSensor demoScenario false).1
      = .ok m' ∧ m.niirs = .fin x ∧ m'.niirs = .fin x' ∧ x' ≤ x :=
  C111_noise (s' := { demoSensor with readNoise := 30, otherNoise := [5], bitDepth := 8 }) demo_imaging
    ⟨rfl, by norm_num [demoSensor], by norm_num [demoSensor], by norm_num, by norm_num [demoSensor],
      by norm_num [demoSensor], by norm_num⟩ demo_nyquist demo_contrast demo_passive

/-- Every hypothesis of `C111_dark_target` holds in a concrete case. -/
example : ∃ (r x' : ℝ) (m' : Metrics),
    (niirs5 nightEnv { wideSensor with readNoise := r }.toSensor demoScenario false).1 = .ok m'
      ∧ m'.niirs = .fin x' ∧ 1000 < x' := by
  obtain ⟨x, m, -, -, -, h⟩ := C111_dark_target night_imaging night_nyquist night_dark night_passive
  exact h 1000

end PyBSM
