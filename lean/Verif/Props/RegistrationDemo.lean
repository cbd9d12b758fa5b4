import Verif.Props.Registration
import Verif.Props.SimulateDemo

/-!
# C112: concrete cases
-/

noncomputable section

open Classical

namespace PyBSM

open Spec

/-- A ramp of 20 x 30 pixels. -/
def rampImg : Img := ⟨20, 30, fun i j => 1 + 2 * i + 4 * j⟩

theorem rampImg_ramp : Ramp rampImg 1 2 4 := fun _ _ _ _ => rfl

/-- `C112_displaced` applies: the ramp comes back lower by 3 at the pixel (10, 10). -/
example : ∃ sim sp, applyOtfToImage true rampImg (.py (.fin 1)) (.py (.fin 1)) 11 11 (fun _ _ => 1)
    (.py (.fin (1 / (12 * pixelAngle 1 1)))) (.py (.fin (1 / 1))) = .ok (sim, sp) ∧ sim.px 10 10 = 58 := by
  obtain ⟨sim, sp, h, -, -, h1⟩ := C112_displaced rampImg_ramp (by norm_num [rampImg]) (by norm_num [rampImg])
    (gsd := .py (.fin 1)) (range := .py (.fin 1)) (df := .py (.fin (1 / (12 * pixelAngle 1 1)))) (ifov := .py (.fin (1 / 1)))
    rfl rfl one_pos one_pos rfl rfl
  refine ⟨sim, sp, h, ?_⟩
  rw [h1 10 10 (by norm_num) (by norm_num [rampImg]) (by norm_num) (by norm_num [rampImg])]
  norm_num [rampImg]

/-- The hypotheses of `C112_psf`, `C112_ramp` and `C112_turned` hold in a concrete case with an odd point spread
function. -/
theorem odd_case : ∃ sim sp p d, applyOtfToImage true rampImg (.py (.fin 1)) (.py (.fin 1)) 11 11 (fun _ _ => 1)
      (.py (.fin d)) (.py (.fin (1 / 1))) = .ok (sim, sp)
    ∧ PointSymmetric 11 11 (fun _ _ => 1) ∧ 0 < d
    ∧ max 1 ⌊1 / (d * pixelAngle 1 1)⌋₊ = 11 ∧ max 1 ⌊((11 : ℕ) : ℝ) / (11 : ℕ) / (d * pixelAngle 1 1)⌋₊ = 11
    ∧ CroppedEvenly 11 11 (fun _ _ => 1) 11 11
    ∧ otfToPsf true 11 11 (fun _ _ => 1) (.py (.fin d)) (.np (.fin (pixelAngle 1 1))) = .ok p := by
  have hθ : 0 < pixelAngle 1 1 := pixelAngle_pos one_pos one_pos
  obtain ⟨sim, sp, h, -⟩ := C47_perfect (x := rampImg) (by norm_num [rampImg]) (by norm_num [rampImg]) (M := 11) (by norm_num)
    (gsd := .py (.fin 1)) (range := .py (.fin 1)) (df := .py (.fin (1 / (((11 : ℕ) : ℝ) * (2 * Real.arctan (1 / 2 / 1))))))
    (ifov := .py (.fin (1 / 1))) (g := 1) (r := 1) rfl rfl one_pos one_pos rfl rfl
  obtain ⟨half, q, p, -, -, -, -, ho, h3, -⟩ := apply_parts h (g := 1) (r := 1) rfl rfl one_pos
  rw [Scal.val_np] at ho
  rw [ho] at h3
  have e : 1 / (1 / (((11 : ℕ) : ℝ) * (2 * Real.arctan (1 / 2 / 1))) * pixelAngle 1 1) = 11 := by
    have : pixelAngle 1 1 = 2 * Real.arctan (1 / 2 / 1) := rfl
    rw [← this]
    push_cast
    field_simp
  refine ⟨sim, sp, p, _, h, fun k _ l _ => ⟨by simp, rfl⟩, ?_, ?_, ?_, Or.inl (by norm_num), h3⟩
  · have : pixelAngle 1 1 = 2 * Real.arctan (1 / 2 / 1) := rfl
    rw [← this]
    positivity
  · rw [e]; norm_num
  · rw [div_self (by norm_num), e]; norm_num

example : ∃ sim sp sim' d, applyOtfToImage true rampImg (.py (.fin 1)) (.py (.fin 1)) 11 11 (fun _ _ => 1)
      (.py (.fin d)) (.py (.fin (1 / 1))) = .ok (sim, sp)
    ∧ applyOtfToImage true (upsideDown rampImg) (.py (.fin 1)) (.py (.fin 1)) 11 11 (fun _ _ => 1)
      (.py (.fin d)) (.py (.fin (1 / 1))) = .ok (sim', sp) ∧ SameImg sim' (upsideDown sim) := by
  obtain ⟨sim, sp, p, d, h1, h2, h3, h4, h5, h6, h7⟩ := odd_case
  obtain ⟨sim', h8, h9⟩ := C112_turned h1 (by decide) (by decide) h2 (d := d) rfl h3 (g := 1) rfl one_pos (r := 1) rfl one_pos
    (by rw [h4, h5]; exact h6) (by rw [h4]; decide) (by rw [h5]; decide)
  exact ⟨sim, sp, sim', d, h1, h8, h9⟩

/-- A reference image of two rows. -/
def pairRef (v : ℝ) : RefImage := { demoRef with img := ⟨2, 2, fun i _ => v * i⟩ }

theorem pair_simulation (v : ℝ) : Simulation demoEnv demoSensor demoScenario (pairRef v) [(0, 0.05), (100, 0.95)] demoInBand :=
  { demo_simulation with image := ⟨⟨by norm_num, by norm_num⟩, rfl, rfl⟩ }

theorem pair_succeeds (v : ℝ) (rng : Rng) : ∃ R, simulateImage demoEnv true rng (pairRef v) demoSensor.toSensor demoScenario = .ok R
    ∧ R.blurImg.h = 400000 ∧ R.blurImg.w = 400000 := by
  obtain ⟨g, hv, hs, ha⟩ := demo_flatView
  have hp := demoSlant_pos
  have e1 : demoSensor.wX / demoSensor.f = 1e-5 := by norm_num [demoSensor]
  have e2 : demoSensor.wY / demoSensor.f = 1e-5 := by norm_num [demoSensor]
  have e3 : demoSensor.daX * demoSensor.intTime * demoSensor.nTdi = 1e-7 := by norm_num [demoSensor]
  have e4 : demoSensor.daY * demoSensor.intTime * demoSensor.nTdi = 1e-7 := by norm_num [demoSensor]
  have hr : 2 * demoSlant / g.slant = 2 := by rw [hs]; field_simp
  have he : (1e-5 : ℝ) = (demoSensor.pX + demoSensor.pY) / 2 / demoSensor.f := by norm_num [demoSensor]
  have exact_ : ∀ {x : ℝ} {n : ℤ}, x = n → IsRoundHalfEven x n := by
    intro x n h
    subst h
    exact ⟨by norm_num, by norm_num⟩
  obtain ⟨R, h1, h2, h3, -⟩ := C76_coarse (pair_simulation v) demo_counting (by norm_num [demoSensor]) hv
    (γ := 2 * demoSlant) rfl (by norm_num [pairRef]) (by norm_num [pairRef])
    (fun c hc => by
      obtain ⟨c1, -⟩ := demo_white_cutoff hc
      have h1 : 2 * demoSlant / 2 / g.slant = 1 := by rw [hs]; field_simp
      rw [h1, Real.arctan_one, div_lt_iff₀ (by linarith)]
      nlinarith [Real.pi_gt_three])
    (fun c hc => by
      obtain ⟨c1, c2⟩ := demo_white_cutoff hc
      refine (optics_sum_pos demoSensor_optical hv.viewing (positive_band demo_simulation.wavelengths
        demo_simulation.distinct demo_simulation.signal) ?_ (by linarith) ?_ ?_ ?_ ?_).ne'
      · rw [ha]; norm_num [demoSensor]
      · rw [e1, abs_of_pos (by norm_num)]; linarith
      · rw [e2, abs_of_pos (by norm_num)]; linarith
      · rw [e3, abs_of_pos (by norm_num)]; linarith
      · rw [e4, abs_of_pos (by norm_num)]; linarith)
    he (by norm_num) (nh := 400000) (nw := 400000) (np := 200000)
    (exact_ (by rw [hr]; norm_num [pairRef])) (exact_ (by rw [hr]; norm_num [pairRef])) (exact_ (by rw [hr]; norm_num))
    (by norm_num) (by norm_num) (by norm_num) rng
  exact ⟨R, h1, by exact_mod_cast h2, by exact_mod_cast h3⟩

theorem two_rows_ramp {x : Img} (hh : x.h = 2) (hw : x.w = 2) (hx : ∀ i < 2, ∀ j < 2, x.px i j = x.px i 0) :
    Ramp x (x.px 0 0) (x.px 1 0 - x.px 0 0) 0 := by
  intro i hi j hj
  rw [hx i (by omega) j (by omega)]
  have hi' : i = 0 ∨ i = 1 := by omega
  rcases hi' with rfl | rfl
  · simp
  · push_cast; ring

/-- `C112_simulated` applies: the blurred image of the two rows changes linearly from the one to the other. -/
example (rng : Rng) : ∃ R, simulateImage demoEnv true rng (pairRef 60) demoSensor.toSensor demoScenario = .ok R
    ∧ R.blurImg.px 250000 200000 = R.trueImg.px 0 0
      + (R.trueImg.px 1 0 - R.trueImg.px 0 0) * positionOf 2 400000 250000 := by
  obtain ⟨R, h, h1, h2⟩ := pair_succeeds 60 rng
  obtain ⟨g, hv, hs, -⟩ := demo_flatView
  have hp := demoSlant_pos
  have hT : ∀ i < 2, ∀ j < 2, R.trueImg.px i j = R.trueImg.px i 0 := by
    obtain ⟨T, srt, ρ, c, F, otf, atm, -, -, -, h4, h5, h6, -, -, -, -, -, h7⟩ := C73_simulation (pair_simulation 60) hv
    have h := h
    rw [h7] at h
    split at h
    · cases h
    split_ifs at h
    rw [Except.ok.injEq] at h
    subst h
    intro i hi j hj
    dsimp only
    rw [h6 i hi j hj, h6 i hi 0 (by norm_num [pairRef])]
    rfl
  obtain ⟨s1, s2, -⟩ := simulate_apply h
  have s1 : R.trueImg.h = 2 := s1
  have s2 : R.trueImg.w = 2 := s2
  obtain ⟨c, otf, p, c1, c2, c3, c4, c5⟩ := C112_simulated (pair_simulation 60) hv (by norm_num [demoSensor]) (γ := 2 * demoSlant)
    rfl (by positivity) h
  have hang : pixelAngle (2 * demoSlant) g.slant = Real.pi / 2 := by
    unfold pixelAngle
    have h1 : 2 * demoSlant / 2 / g.slant = 1 := by rw [hs]; field_simp
    rw [h1, Real.arctan_one]
    ring
  have hn : max 1 ⌊750 / (c * pixelAngle (2 * demoSlant) g.slant)⌋₊ = 1 := by
    obtain ⟨d1, -⟩ := demo_white_cutoff c1
    rw [hang]
    have : 750 / (c * (Real.pi / 2)) < 1 := by
      rw [div_lt_one (by have := Real.pi_pos; positivity)]
      nlinarith [Real.pi_gt_three]
    rw [Nat.floor_eq_zero.mpr this]
    rfl
  rw [hn] at c5
  obtain ⟨q1, q2, q3, q5, q6, q4⟩ := c5 (Or.inr (Or.inr (by norm_num)))
  refine ⟨R, h, ?_⟩
  have key := q4 _ _ _ (two_rows_ramp s1 s2 hT) 250000 200000
  have e1 : p.h = 1 := by omega
  have e2 : p.w = 1 := by omega
  rw [e1, e2, h1, h2, s1, s2] at key
  rw [key (by norm_num [positionOf]) (by norm_num [positionOf]) (by norm_num [positionOf]) (by norm_num [positionOf])]
  norm_num [halfIfEven]

end PyBSM
