import Verif.Props.Local
import Verif.Props.RegistrationDemo

/-!
# C113: concrete cases
-/

noncomputable section

open Classical

namespace PyBSM

open Spec

/-- The ramp with another last pixel. -/
def patchedImg : Img := ⟨20, 30, fun i j => if i = 19 ∧ j = 29 then 0 else rampImg.px i j⟩

/-- `C113_local` applies: changing the last pixel leaves the first alone. -/
example : ∃ sim sp sim' sp' df, applyOtfToImage true rampImg (.py (.fin 1)) (.py (.fin 1)) 11 11 (fun _ _ => 1)
      df (.py (.fin (1 / 1))) = .ok (sim, sp)
    ∧ applyOtfToImage true patchedImg (.py (.fin 1)) (.py (.fin 1)) 11 11 (fun _ _ => 1)
      df (.py (.fin (1 / 1))) = .ok (sim', sp') ∧ sim.px 0 0 = sim'.px 0 0 := by
  set df : Scal := .py (.fin (1 / (((11 : ℕ) : ℝ) * (2 * Real.arctan (1 / 2 / 1))))) with hdf
  obtain ⟨sim, sp, h, d⟩ := C47_perfect (x := rampImg) (by norm_num [rampImg]) (by norm_num [rampImg]) (M := 11) (by norm_num)
    (gsd := .py (.fin 1)) (range := .py (.fin 1)) (df := df) (ifov := .py (.fin (1 / 1))) (g := 1) (r := 1) rfl rfl one_pos
    one_pos rfl rfl
  obtain ⟨sim', sp', h', -⟩ := C47_perfect (x := patchedImg) (by norm_num [patchedImg]) (by norm_num [patchedImg]) (M := 11)
    (by norm_num) (gsd := .py (.fin 1)) (range := .py (.fin 1)) (df := df) (ifov := .py (.fin (1 / 1))) (g := 1) (r := 1) rfl
    rfl one_pos one_pos rfl rfl
  obtain ⟨p, b1, b2⟩ := C45_perfect (M := 11) (by norm_num) (df := df) (dxOut := .np (.fin (pixelAngle 1 1)))
    (d := 1 / (((11 : ℕ) : ℝ) * (2 * Real.arctan (1 / 2 / 1)))) rfl
    (by
      have := pixelAngle_pos (g := 1) (r := 1) one_pos one_pos
      unfold pixelAngle at this
      positivity)
    (by
      have := pixelAngle_pos (g := 1) (r := 1) one_pos one_pos
      rw [Scal.val_np, XR.fin_inj]
      unfold pixelAngle at *
      field_simp)
  have e1 : p.h = 11 := b2.h
  have e2 : p.w = 11 := b2.w
  have g1 : sim.h = 20 := d.h
  have g2 : sim.w = 30 := d.w
  refine ⟨sim, sp, sim', sp', df, h, h', ?_⟩
  refine C113_local h h' (g := 1) rfl (r := 1) rfl one_pos b1 (by omega) (by omega) ?_
  rw [e1, e2, g1, g2]
  refine ⟨rfl, rfl, fun i hi j hj n1 n2 => ?_⟩
  show rampImg.px i j = if i = 19 ∧ j = 29 then 0 else rampImg.px i j
  rw [if_neg]
  rintro ⟨rfl, -⟩
  norm_num [positionOf, rampImg] at n1

/-- `C113_simulated` applies: another second row leaves the first pixel alone. -/
example (rng rng' : Rng) : ∃ R R', simulateImage demoEnv true rng (pairRef 60) demoSensor.toSensor demoScenario = .ok R
    ∧ simulateImage demoEnv true rng' (pairRef 20) demoSensor.toSensor demoScenario = .ok R'
    ∧ R.blurImg.px 0 0 = R'.blurImg.px 0 0 := by
  obtain ⟨R, h, h1, h2⟩ := pair_succeeds 60 rng
  obtain ⟨R', h', -, -⟩ := pair_succeeds 20 rng'
  obtain ⟨g, hv, hs, -⟩ := demo_flatView
  have hp := demoSlant_pos
  obtain ⟨c, F, otf, p, c1, -, -, c3, c4⟩ := C113_simulated (pair_simulation 60) (pair_simulation 20) hv
    (γ := 2 * demoSlant) rfl rfl h h'
  have hang : pixelAngle (2 * demoSlant) g.slant = Real.pi / 2 := by
    unfold pixelAngle
    have h1 : 2 * demoSlant / 2 / g.slant = 1 := by rw [hs]; field_simp
    rw [h1, Real.arctan_one]
    ring
  obtain ⟨d1, -⟩ := demo_white_cutoff c1
  have hn : ⌊1 / (c / 750 * pixelAngle (2 * demoSlant) g.slant)⌋₊ = 0 := by
    rw [hang]
    have e : 1 / (c / 750 * (Real.pi / 2)) = 750 / (c * (Real.pi / 2)) := by field_simp
    rw [e]
    refine Nat.floor_eq_zero.mpr ?_
    rw [div_lt_one (by have := Real.pi_pos; positivity)]
    nlinarith [Real.pi_gt_three]
  have hn' : ⌊((1501 : ℕ) : ℝ) / (1501 : ℕ) / (c / 750 * pixelAngle (2 * demoSlant) g.slant)⌋₊ = 0 := by
    rw [div_self (by norm_num), hn]
  obtain ⟨q, q1, q2⟩ := C83_tiny c3 (d := c / 750) rfl (by positivity) rfl
    (pixelAngle_pos (by positivity) (by rw [hs]; exact hp)) (by rw [hn]; norm_num) (by rw [hn']; norm_num)
  rw [hn, hn'] at q1
  have e1 : p.h = 1 := q2.h.trans (cvResize_size q1).1
  refine ⟨R, R', h, h', c4 0 (by omega) 0 (by omega) ⟨rfl, rfl, fun i hi j hj n1 n2 => ?_⟩⟩
  rw [e1, h1] at n1
  have hi : i < 2 := hi
  have : i = 0 ∨ i = 1 := by omega
  rcases this with rfl | rfl
  · simp [pairRef]
  · norm_num [positionOf, pairRef, demoRef] at n1

end PyBSM
