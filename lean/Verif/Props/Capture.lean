import Verif.Props.SimulateDemo
import Verif.Props.RefImage

/-!
# C82: the size of simulated images, and simulation with the estimated capture parameters
-/

noncomputable section

open Classical

namespace PyBSM

open Spec

/-- A successful simulation blurs and resamples the true image, which has the size of the reference image. -/
theorem simulate_apply {env : Env} {usable : Bool} {rng : Rng} {r : RefImage} {s : Sensor} {sc : Scenario} {R : SimResult}
    (h : simulateImage env usable rng r s sc = .ok R) :
    R.trueImg.h = r.img.h ∧ R.trueImg.w = r.img.w ∧ R.noisyImg.h = R.blurImg.h ∧ R.noisyImg.w = R.blurImg.w
      ∧ ∃ otf df ifov sp, Scal.div (.py ((s.pX + s.pY) / 2)) (.py s.f) = .ok ifov
        ∧ applyOtfToImage usable R.trueImg (.py r.gsd) (.np (flatSlantRange (sc.readAtm env.files).2.1)) 1501 1501 otf df ifov
          = .ok (R.blurImg, sp) := by
  unfold simulateImage at h
  simp only [bind_ok] at h
  obtain ⟨atm, e1, ⟨ref, pe, wl, w⟩, e2, mn, e3, otf, e4, h⟩ := h
  split_ifs at h with hdf
  simp only [bind_ok] at h
  obtain ⟨ifov, e5, t, e6, tr, e7, rows, e8, ⟨blur, sp⟩, e9, h⟩ := h
  split_ifs at h with hneg
  split at h
  · rw [Except.ok.injEq] at h
    subst h
    exact ⟨rfl, rfl, rfl, rfl, _, _, ifov, sp, e5, e9⟩
  · cases h

theorem resample_ok {x y : Img} {dxIn dxOut : Scal} {a b : ℝ} (h : resample2D true x dxIn dxOut = .ok y)
    (ha : dxIn.val = .fin a) (hb : dxOut.val = .fin b) (hb0 : b ≠ 0) :
    x.h ≠ 0 ∧ x.w ≠ 0 ∧ IsRoundHalfEven (x.h * a / b) y.h ∧ IsRoundHalfEven (x.w * a / b) y.w := by
  unfold resample2D at h
  rw [resampledSize_ok _ ha hb hb0, resampledSize_ok _ ha hb hb0] at h
  simp only [Bool.not_true, Bool.false_eq_true, if_false, ok_bind] at h
  by_cases hz : x.h = 0 ∨ x.w = 0 ∨ (roundHalfEven (x.w * a / b)).toNat = 0 ∨ (roundHalfEven (x.h * a / b)).toNat = 0
  · rw [cvResize_error hz] at h
    cases h
  · push Not at hz
    obtain ⟨y', e, e1, e2, -⟩ := cvResize_ok hz.1 hz.2.1 hz.2.2.1 hz.2.2.2
    rw [e, Except.ok.injEq] at h
    subst h
    have t1 : ((roundHalfEven (x.h * a / b)).toNat : ℤ) = roundHalfEven (x.h * a / b) := by omega
    have t2 : ((roundHalfEven (x.w * a / b)).toNat : ℤ) = roundHalfEven (x.w * a / b) := by omega
    refine ⟨hz.1, hz.2.1, ?_, ?_⟩
    · rw [e1, t1]
      exact roundHalfEven_spec _
    · rw [e2, t2]
      exact roundHalfEven_spec _

/-- **C82** (size): whatever the atmosphere and the other parameters, a successful simulation returns a true image with
the pixels of the reference image, and a blurred and a noisy image of the same size: the size of the reference image
times the ratio of the angle of one of its pixels (ground sample distance over distance) to the angle of one detector
pixel (pitch over focal length), rounded to the nearest integer, half to even. -/
theorem C82_size {env : Env} {usable : Bool} {rng : Rng} {r : RefImage} {s : Sensor} {sc : Scenario} {R : SimResult}
    (h : simulateImage env usable rng r s sc = .ok R) {γ a rg px py f : ℝ} (hγ : r.gsd = .fin γ)
    (ha : sc.altitude = .fin a) (hr : sc.groundRange = .fin rg) (hpx : s.pX = .fin px) (hpy : s.pY = .fin py)
    (hf : s.f = .fin f) (hd : a ≠ 0 ∨ rg ≠ 0) (hf0 : f ≠ 0) (hp : px + py ≠ 0) :
    R.trueImg.h = r.img.h ∧ R.trueImg.w = r.img.w
      ∧ IsRoundHalfEven (r.img.h * (γ / Real.sqrt (a ^ 2 + rg ^ 2)) / ((px + py) / 2 / f)) R.blurImg.h
      ∧ IsRoundHalfEven (r.img.w * (γ / Real.sqrt (a ^ 2 + rg ^ 2)) / ((px + py) / 2 / f)) R.blurImg.w
      ∧ R.noisyImg.h = R.blurImg.h ∧ R.noisyImg.w = R.blurImg.w := by
  obtain ⟨h1, h2, h3, h4, otf, df, ifov, sp, h5, h6⟩ := simulate_apply h
  have hs : flatSlantRange (sc.readAtm env.files).2.1 = .fin (Real.sqrt (a ^ 2 + rg ^ 2)) := by
    have e : (sc.readAtm env.files).2.1.altitude = sc.altitude ∧ (sc.readAtm env.files).2.1.groundRange = sc.groundRange := by
      unfold Scenario.readAtm
      split
      · exact ⟨rfl, rfl⟩
      · dsimp only
        split <;> exact ⟨rfl, rfl⟩
    unfold flatSlantRange
    rw [e.1, e.2, ha, hr, XR.fin_pow, XR.fin_pow, XR.fin_add, XR.fin_sqrt (by positivity)]
  have hpos : Real.sqrt (a ^ 2 + rg ^ 2) ≠ 0 := by
    apply (Real.sqrt_pos.mpr _).ne'
    rcases hd with h | h <;> positivity
  obtain ⟨-, half, q, psf, blur, dxIn, -, -, -, e4, e5, e6, -⟩ := applyOtf_ok h6
  obtain ⟨c1, g1, g2⟩ := Scal.div_fin (a := .py r.gsd) (b := .np (flatSlantRange (sc.readAtm env.files).2.1)) hγ hs hpos
  rw [e5, Except.ok.injEq] at g1
  have hv : (.py ((s.pX + s.pY) / 2) : Scal).val = .fin ((px + py) / 2) := by
    show (s.pX + s.pY) / 2 = _
    rw [hpx, hpy, XR.fin_add]
    exact XR.fin_div _ two_ne_zero
  obtain ⟨c2, g3, g4⟩ := Scal.div_fin (a := .py ((s.pX + s.pY) / 2)) (b := .py s.f) hv hf hf0
  rw [h5, Except.ok.injEq] at g3
  rw [← g1] at g2
  rw [← g3] at g4
  obtain ⟨b1, b2, b3, b4⟩ := resample_ok e6 g2 g4 (by positivity)
  have hz : ¬ (R.trueImg.h = 0 ∨ R.trueImg.w = 0 ∨ psf.h = 0 ∨ psf.w = 0) := by
    intro hz
    rw [filter2D_error hz] at e4
    cases e4
  push Not at hz
  obtain ⟨y, e, y1, y2, -⟩ := filter2D_ok hz.1 hz.2.1 hz.2.2.1 hz.2.2.2
  rw [e, Except.ok.injEq] at e4
  subst e4
  rw [y1, h1] at b3
  rw [y2, h2] at b4
  exact ⟨h1, h2, b3, b4, h3, h4⟩

theorem round_cast {n : ℕ} {x : ℝ} {m : ℤ} (hx : x = n) (h : IsRoundHalfEven x m) : m = n := by
  apply round_unique h
  subst hx
  refine ⟨by simp, fun h => ?_⟩
  simp at h

/-- **C82** (capture parameters): simulating an image with the sensor and scenario that
`estimate_capture_parameters` returns for it never resamples: for every altitude, whatever the atmosphere, all three
images have the size of the reference image. -/
theorem C82_capture {env : Env} {usable : Bool} {rng : Rng} (r : RefImage) {g h : ℝ} (hg : r.gsd = .fin g) (hg0 : 0 < g)
    (hh0 : 0 < h) : ∃ s sc, r.estimateCaptureParameters (.fin h) = .ok (s, sc)
      ∧ ∀ R, simulateImage env usable rng r s sc = .ok R →
        R.trueImg.h = r.img.h ∧ R.trueImg.w = r.img.w ∧ R.blurImg.h = r.img.h ∧ R.blurImg.w = r.img.w
          ∧ R.noisyImg.h = r.img.h ∧ R.noisyImg.w = r.img.w := by
  obtain ⟨s, sc, f, d, e, e1, -, e3, e4, -, -, hf, -, e5, -, e6, e7, -⟩ := C62_capture r hg hg0 hh0
  refine ⟨s, sc, e, fun R hR => ?_⟩
  obtain ⟨h1, h2, h3, h4, h5, h6⟩ := C82_size hR hg e6 e7 e3 e4 e1 (Or.inl hh0.ne') hf.ne' (by norm_num)
  have hq : g / Real.sqrt (h ^ 2 + 0 ^ 2) / ((20e-6 + 20e-6) / 2 / f) = 1 := by
    rw [zero_pow two_ne_zero, add_zero, Real.sqrt_sq hh0.le, ← e5]
    field_simp
    norm_num
  have k : ∀ n : ℕ, (n : ℝ) * (g / Real.sqrt (h ^ 2 + 0 ^ 2)) / ((20e-6 + 20e-6) / 2 / f) = n := by
    intro n
    rw [mul_div_assoc, hq, mul_one]
  have b1 := round_cast (k _) h3
  have b2 := round_cast (k _) h4
  refine ⟨h1, h2, by exact_mod_cast b1, by exact_mod_cast b2, ?_, ?_⟩
  · rw [h5]
    exact_mod_cast b1
  · rw [h6]
    exact_mod_cast b2

/-- The demonstration simulation (a coarse image, magnified 200000 times) meets the hypotheses of `C82_size`. -/
example (rng : Rng) : ∃ R, simulateImage demoEnv true rng demoRef demoSensor.toSensor demoScenario = .ok R
    ∧ demoRef.gsd = .fin (2 * demoSlant) ∧ demoScenario.altitude = .fin 9000 ∧ demoScenario.groundRange = .fin 60000
    ∧ demoSensor.toSensor.pX = .fin demoSensor.pX ∧ demoSensor.toSensor.pY = .fin demoSensor.pY
    ∧ demoSensor.toSensor.f = .fin demoSensor.f ∧ demoSensor.f ≠ 0 ∧ demoSensor.pX + demoSensor.pY ≠ 0
    ∧ R.noisyImg.h = 400000 ∧ R.noisyImg.w = 600000 := by
  obtain ⟨R, h, h1, h2, -⟩ := demo_succeeds rng
  obtain ⟨-, -, h3, h4, -⟩ := simulate_apply h
  exact ⟨R, h, rfl, rfl, rfl, rfl, rfl, rfl, by norm_num [demoSensor], by norm_num [demoSensor], h3.trans h1, h4.trans h2⟩

/-- The ground sample distance and altitude of `examples/pybsm_example.py` meet the hypotheses of `C82_capture`. -/
example : ∃ (r : RefImage) (g h : ℝ), r.gsd = .fin g ∧ 0 < g ∧ 0 < h ∧ r.img.h = 2 ∧ r.img.w = 3 :=
  ⟨{ demoRef with gsd := .fin (3.19 / 160) }, 3.19 / 160, 10000, rfl, by norm_num, by norm_num, rfl, rfl⟩

end PyBSM
