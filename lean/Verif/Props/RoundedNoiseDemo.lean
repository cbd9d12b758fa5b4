import Verif.Props.DoubleNoise
import Verif.Props.DoubleChainDemo

/-!
# C123: concrete cases
-/

noncomputable section

open Classical

namespace PyBSM

open Spec

theorem demo_planck_le {l : ℝ} (h1 : 3e-6 ≤ l) (h2 : l ≤ 5e-6) : planck l 280 ≤ 3.6e8 := by
  have hl : 0 < l := by linarith
  have x2 : 10.2 ≤ planckH * lightC / (l * boltzmannK * 280) := by
    have := boltzmannK_pos
    rw [le_div_iff₀ (by positivity)]
    have a2 : 0.01438 * boltzmannK ≤ planckH * lightC := by unfold planckH lightC boltzmannK; norm_num
    nlinarith
  have e : 1388 ≤ Real.exp (planckH * lightC / (l * boltzmannK * 280)) := by
    refine le_trans ?_ (Real.exp_le_exp.mpr x2)
    refine le_trans ?_ (Real.pow_div_factorial_le_exp 10.2 (by norm_num) 6)
    norm_num [Nat.factorial]
  unfold planck
  have hC : 2 * planckH * lightC ^ 2 / l ^ 5 ≤ 4.95e11 := by
    have hl5 : (3e-6 : ℝ) ^ 5 ≤ l ^ 5 := by gcongr
    rw [div_le_iff₀ (by positivity)]
    calc 2 * planckH * lightC ^ 2 ≤ 4.95e11 * (3e-6 : ℝ) ^ 5 := by unfold planckH lightC; norm_num
      _ ≤ _ := by gcongr
  rw [div_le_iff₀ (by linarith)]
  linarith

theorem clear_factor : apertureFactor clearSensor.D clearSensor.f = Real.pi / 401 := by
  unfold apertureFactor
  norm_num [clearSensor, demoSensor]

theorem clear_self {l : ℝ} (h1 : 3e-6 ≤ l) : 0 < clearSensor.selfAt l ∧ clearSensor.selfAt l ≤ Real.pi * (1.001 * planck l 280) := by
  have h0 : 0 < l := lt_of_lt_of_le (by norm_num) h1
  have p70 := planck_lt (T := 70) (T' := 280) h0 (by norm_num) (by norm_num)
  have p270 := planck_lt (T := 270) (T' := 280) h0 (by norm_num) (by norm_num)
  have hp70 := planck_pos h0 (T := 70) (by norm_num)
  have hp270 := planck_pos h0 (T := 270) (by norm_num)
  have hp := planck_pos h0 (T := 280) (by norm_num)
  have hpi := Real.pi_gt_three
  unfold RealSensor.selfAt
  rw [clear_factor]
  show 0 < (Real.pi - Real.pi / 401) * planck l 70 + Real.pi / 401 * (0.9 * 0.05 * planck l 270)
      + Real.pi / 401 * (0.1 * planck l 70) ∧ (Real.pi - Real.pi / 401) * planck l 70 + Real.pi / 401 * (0.9 * 0.05 * planck l 270)
      + Real.pi / 401 * (0.1 * planck l 70) ≤ _
  have e : (Real.pi - Real.pi / 401) * planck l 70 + Real.pi / 401 * (0.9 * 0.05 * planck l 270)
      + Real.pi / 401 * (0.1 * planck l 70) = Real.pi * ((1 - 1 / 401) * planck l 70 + 1 / 401 * (0.9 * 0.05 * planck l 270)
      + 1 / 401 * (0.1 * planck l 70)) := by ring
  rw [e]
  constructor
  · refine mul_pos (by linarith) ?_
    linarith
  · refine mul_le_mul_of_nonneg_left ?_ (by linarith)
    linarith

theorem clear_radiance {a : Fin 6 → ℝ} (h : a ∈ demoInBand) : clearSensor.targetAt a = 1e10 + 0.5 * planck (a 0) 282
    ∧ clearSensor.backgroundAt a = 1e10 + 0.5 * planck (a 0) 280 ∧ pathAt a = 1e10 := by
  obtain ⟨h1, h2, h3, h4, h5, h6⟩ := demoInBand_mem h
  refine ⟨?_, ?_, ?_⟩
  · unfold RealSensor.targetAt
    rw [if_pos clear_thermal]
    unfold greyRadiance
    rw [h3, h4, h5, h6]
    ring
  · unfold RealSensor.backgroundAt
    rw [if_pos clear_thermal]
    unfold greyRadiance
    rw [h3, h4, h5, h6]
    ring
  · unfold pathAt
    rw [h4, h5]
    norm_num

theorem demoInBand_two : 2 ≤ demoInBand.length := by
  by_contra h
  have f1 := (sorted_ends demoInBand_sorted (demoInBand_row (i := 270) (by norm_num) (by norm_num))).1
  have f2 := (sorted_ends demoInBand_sorted (demoInBand_row (i := 470) (by norm_num) (by norm_num))).2
  simp only [Matrix.cons_val_zero] at f1 f2
  push_cast at f1 f2
  have e : demoInBand.length - 1 = 0 := by omega
  rw [e] at f2
  linarith

theorem demoInBand_nonneg : ∀ a ∈ demoInBand, ∀ j, 0 ≤ a j := by
  intro a ha j
  obtain ⟨i, -, rfl⟩ := List.mem_map.mp (List.mem_filter.mp ha).1
  fin_cases j <;> norm_num <;> positivity

theorem demoInBand_planck : ∀ a ∈ demoInBand, PlanckWithin 4000 (a 0) 282 ∧ PlanckWithin 4000 (a 0) 280 := fun a ha =>
  ⟨demo_planckWithin (demoInBand_mem ha).1 (demoInBand_mem ha).2.1 (by norm_num) (by norm_num),
    demo_planckWithin (demoInBand_mem ha).1 (demoInBand_mem ha).2.1 (by norm_num) (by norm_num)⟩

theorem demoInBand_order : (SumTree.halves 14 0 (demoInBand.length - 1)).leaves.Perm (List.range (demoInBand.length - 1)) := by
  have hlen : demoInBand.length ≤ 2000 := by
    refine (List.length_filter_le _ _).trans ?_
    simp [demoAtm]
  rw [halves_leaves _ _ _ (by omega), List.range_eq_range']

theorem clear_counting : Counting clearSensor demoInBand where
  physical := clear_physical
  increasing := demoInBand_sorted
  transmission := fun _ ha => by rw [(demoInBand_mem ha).2.2.1]; norm_num
  path := fun _ ha => by rw [(demoInBand_mem ha).2.2.2.1]; norm_num
  scattered := fun _ ha => by rw [(demoInBand_mem ha).2.2.2.2.1]; norm_num
  reflected := fun _ ha => by rw [(demoInBand_mem ha).2.2.2.2.2]; norm_num
  exposure := by norm_num [clearSensor, demoSensor]
  tdi := by norm_num [clearSensor, demoSensor]

/-- The photoelectrons of target, background and path. -/
theorem clear_photons : clearSensor.photons demoInBand clearSensor.backgroundAt ≤ clearSensor.photons demoInBand clearSensor.targetAt
    ∧ clearSensor.photons demoInBand pathAt < clearSensor.photons demoInBand clearSensor.targetAt
    ∧ clearSensor.photons demoInBand clearSensor.targetAt + clearSensor.photons demoInBand pathAt
      ≤ 2e7 * (clearSensor.photons demoInBand clearSensor.targetAt - clearSensor.photons demoInBand pathAt) := by
  have hstep : ∀ i, i + 1 < demoInBand.length → demoInBand.getD i 0 0 < demoInBand.getD (i + 1) 0 0 :=
    fun i hi => counting_step demoInBand_sorted hi
  have hinc := fun i hi => (hstep i hi).le
  have he := clear_exposure_pos
  have hn : clearSensor.nTdi = 1 := rfl
  have point : ∀ i < demoInBand.length, ∃ C Q P : ℝ, 0 < C ∧ 2100 ≤ Q - P ∧ 0 < P ∧ (∀ l, spectralRate clearSensor.D clearSensor.f
      clearSensor.wX clearSensor.wY (demoInBand.getD i 0 0) l (clearSensor.transAt (demoInBand.getD i 0 0))
        (tableAt clearSensor.qe (demoInBand.getD i 0 0)) 0 = C * l) ∧ clearSensor.targetAt (demoInBand.getD i 0) = 1e10 + 0.5 * Q
      ∧ clearSensor.backgroundAt (demoInBand.getD i 0) = 1e10 + 0.5 * P ∧ pathAt (demoInBand.getD i 0) = 1e10 := by
    intro i hi
    obtain ⟨h1, h2, -⟩ := demoInBand_mem (getD_mem hi)
    obtain ⟨r1, r2, r3⟩ := clear_radiance (getD_mem hi)
    have h0 : 0 < demoInBand.getD i 0 0 := lt_of_lt_of_le (by norm_num) h1
    have ht := clear_trans h1 h2
    have hq : 0 < tableAt clearSensor.qe (demoInBand.getD i 0 0) := demo_qe h1 h2
    refine ⟨demoInBand.getD i 0 0 / (planckH * lightC) * tableAt clearSensor.qe (demoInBand.getD i 0 0)
      * (clearSensor.wX * clearSensor.wY) * (clearSensor.transAt (demoInBand.getD i 0 0) * apertureFactor clearSensor.D clearSensor.f),
      _, _, ?_, (demo_planck_step h1 h2).1, planck_pos h0 (by norm_num), fun l => ?_, r1, r2, r3⟩
    · have hw : 0 < clearSensor.wX * clearSensor.wY := by norm_num [clearSensor, demoSensor]
      rw [clear_factor]
      exact mul_pos (mul_pos (mul_pos (div_pos h0 (mul_pos planckH_pos lightC_pos)) hq) hw)
        (mul_pos ht (div_pos Real.pi_pos (by norm_num)))
    · unfold spectralRate
      ring
  unfold RealSensor.photons
  rw [hn, mul_one, mul_one, mul_one]
  refine ⟨mul_le_mul_of_nonneg_right (trap_mono hinc fun i hi => ?_) he.le, mul_lt_mul_of_pos_right
    (trap_strictMono demoInBand_two hstep (fun i hi => ?_) (k := 0) (by have := demoInBand_two; omega) ?_) he, ?_⟩
  · obtain ⟨C, Q, P, hC, hQ, hP, e, e1, e2, e3⟩ := point i hi
    rw [e, e, e1, e2]
    exact mul_le_mul_of_nonneg_left (by linarith) hC.le
  · obtain ⟨C, Q, P, hC, hQ, hP, e, e1, e2, e3⟩ := point i hi
    rw [e, e, e1, e3]
    exact mul_le_mul_of_nonneg_left (by linarith) hC.le
  · obtain ⟨C, Q, P, hC, hQ, hP, e, e1, e2, e3⟩ := point 0 (by have := demoInBand_two; omega)
    rw [e, e, e1, e3]
    exact mul_lt_mul_of_pos_left (by linarith) hC
  · rw [← add_mul, ← sub_mul, ← mul_assoc]
    refine mul_le_mul_of_nonneg_right ?_ he.le
    set x : ℕ → ℝ := fun i => demoInBand.getD i 0 0
    set y : ℕ → ℝ := fun i => spectralRate clearSensor.D clearSensor.f
      clearSensor.wX clearSensor.wY (demoInBand.getD i 0 0) (clearSensor.targetAt (demoInBand.getD i 0)) (clearSensor.transAt (demoInBand.getD i 0 0))
        (tableAt clearSensor.qe (demoInBand.getD i 0 0)) 0 with hy
    set z : ℕ → ℝ := fun i => spectralRate clearSensor.D clearSensor.f
      clearSensor.wX clearSensor.wY (demoInBand.getD i 0 0) (pathAt (demoInBand.getD i 0)) (clearSensor.transAt (demoInBand.getD i 0 0))
        (tableAt clearSensor.qe (demoInBand.getD i 0 0)) 0 with hz
    have t1 : trap demoInBand.length x (fun i => y i + z i) ≤ trap demoInBand.length x (fun i => 2e7 * (y i + (-1) * z i)) := by
      refine trap_mono hinc fun i hi => ?_
      obtain ⟨C, Q, P, hC, hQ, hP, e, e1, e2, e3⟩ := point i hi
      simp only [hy, hz]
      rw [e, e, e1, e3]
      have := mul_nonneg hC.le (show 0 ≤ 2e7 * (0.5 * Q) - (2e10 + 0.5 * Q) by linarith)
      linarith
    rw [trap_add, trap_smul, trap_add, trap_smul] at t1
    linarith

theorem clear_outshines : Outshines clearSensor demoInBand 25 20000000 := by
  obtain ⟨p1, p2, p3⟩ := clear_photons
  have light : ∀ a ∈ demoInBand, ∀ l : ℝ, 1e10 ≤ l → 0 < clearSensor.transAt (a 0) * (apertureFactor clearSensor.D clearSensor.f * l)
      ∧ clearSensor.selfAt (a 0) ≤ (25 : ℕ) * (clearSensor.transAt (a 0) * (apertureFactor clearSensor.D clearSensor.f * l)) := by
    intro a ha l hl
    obtain ⟨h1, h2, -⟩ := demoInBand_mem ha
    have ht := clear_trans_ge h1 h2
    have hpi := Real.pi_gt_three
    rw [clear_factor]
    have hs := (clear_self h1).2
    have hp := demo_planck_le h1 h2
    generalize clearSensor.transAt (a 0) = t at *
    generalize clearSensor.selfAt (a 0) = o at *
    generalize planck (a 0) 280 = P at *
    have hx : 0.6 * (Real.pi / 401 * 1e10) ≤ t * (Real.pi / 401 * l) := by gcongr
    refine ⟨lt_of_lt_of_le (by positivity) hx, hs.trans ?_⟩
    push_cast
    nlinarith
  refine ⟨fun a ha => ?_, fun a ha => ?_, ?_, ?_⟩
  · refine light a ha _ ?_
    have := planck_pos (lt_of_lt_of_le (by norm_num) (demoInBand_mem ha).1) (T := 282) (by norm_num)
    rw [(clear_radiance ha).1]
    linarith
  · refine light a ha _ ?_
    have := planck_pos (lt_of_lt_of_le (by norm_num) (demoInBand_mem ha).1) (T := 280) (by norm_num)
    rw [(clear_radiance ha).2.1]
    linarith
  · rw [max_eq_left p1]; exact p2
  · rw [max_eq_left p1]
    push_cast
    norm_num at p3 ⊢
    exact p3

/-- The scene noise and the path noise of a concrete rating are within four per cent of their exact values in double precision. -/
example {fl : ℝ → ℝ} (hfl : RoundsToNearest fl) : ∃ (m : Metrics) (p q p' q' : ℝ),
    (niirs demoEnv clearSensor.toSensor demoScenario false).1 = .ok m ∧ m.pathNoise = .fin p ∧ m.sceneNoise = .fin q
      ∧ clearSensor.pathNoiseD fl (SumTree.halves 14 0 (demoInBand.length - 1)) demoInBand = .fin p'
      ∧ clearSensor.sceneNoiseD fl (SumTree.halves 14 0 (demoInBand.length - 1)) demoInBand = .fin q' ∧ 0 < q'
      ∧ |p' - p| ≤ 0.04 * p ∧ |q' - q| ≤ 0.04 * q := by
  have hd := halves_depth 14 0 (demoInBand.length - 1)
  have hu : (2 : ℝ) ^ (-53 : ℤ) = 1 / 9007199254740992 := by norm_num
  obtain ⟨K, hK⟩ : ∃ K, K = (15080 + 160 * 4000 + 320 * 10 + 16 * (SumTree.halves 14 0 (demoInBand.length - 1)).depth) * (1 + 25)
    * 20000000 := ⟨_, rfl⟩
  obtain ⟨u, hu'⟩ : ∃ u, u = (2 : ℝ) ^ (-53 : ℤ) := ⟨_, rfl⟩
  have hK' : K ≤ 342500000000000 := by omega
  have hK0 : 0 < K := by omega
  have hKpos : (0 : ℝ) < K := by exact_mod_cast hK0
  have hu0 : 0 < u := by rw [hu', hu]; norm_num
  have hKu : (K : ℝ) * u ≤ 0.0381 := by
    have : (K : ℝ) ≤ 342500000000000 := by exact_mod_cast hK'
    rw [hu', hu]
    linarith
  have h0 : 0 < (K : ℝ) * u := mul_pos hKpos hu0
  obtain ⟨m, p, q, p', q', h1, h2, h3, h4, h5, h6, h7, h8⟩ := C123_niirs hfl clear_imaging (by simp [clearSensor, demoSensor])
    clear_counting clear_conditioned demoInBand_nonneg demoInBand_planck demoInBand_order clear_outshines hK hu' (by linarith)
  have nn : ∀ {x y : ℝ}, |x - y| ≤ K * u / (1 - K * u) * y → |x - y| ≤ 0.04 * y := by
    intro x y hxy
    have hε : K * u / (1 - K * u) ≤ 0.04 := by
      rw [div_le_iff₀ (by linarith)]
      linarith
    have hε0 : 0 < K * u / (1 - K * u) := div_pos h0 (by linarith)
    have hy : 0 ≤ y := nonneg_of_mul_nonneg_right ((abs_nonneg _).trans hxy) hε0
    exact hxy.trans (mul_le_mul_of_nonneg_right hε hy)
  exact ⟨m, p, q, p', q', h1, h2, h3, h4, h5, h6, nn h7, nn h8⟩

/-- In sufficiently dim opaque air the same camera reports a path noise, and no number for the scene noise. -/
example {fl : ℝ → ℝ} (hfl : RoundsToNearest fl) : ∃ p, 0 < p
    ∧ (∃ x, clearSensor.pathNoiseD fl (SumTree.halves 14 0 (demoInBand.length - 1)) (fog (demoInBand.map (· 0)) p) = .fin x ∧ 0 < x)
    ∧ clearSensor.sceneNoiseD fl (SumTree.halves 14 0 (demoInBand.length - 1)) (fog (demoInBand.map (· 0)) p) = .nan := by
  have hd := halves_depth 14 0 (demoInBand.length - 1)
  have h0 : (0 : ℝ) ≤ (2 : ℝ) ^ (-53 : ℤ) := by positivity
  have h1 : (2 : ℝ) ^ (-53 : ℤ) < 1 := by norm_num
  have hlen : (demoInBand.map (· 0)).length = demoInBand.length := List.length_map _
  have hwl : (fun i => (demoInBand.map (· 0)).getD i 0) = fun i => demoInBand.getD i 0 0 := by
    funext i
    by_cases h : i < demoInBand.length
    · simp [List.getD_eq_getElem?_getD, h]
    · simp [List.getD_eq_getElem?_getD, not_lt.mp h]
  obtain ⟨hS, -⟩ := imaging_known h0 clear_imaging.wavelengths clear_conditioned demoInBand_nonneg demoInBand_planck
    (K := 4108) (by norm_num) (by norm_num)
  have pos : ∀ {e : Expr}, e.Pos ((2 : ℝ) ^ (-53 : ℤ)) → 0 < e.exact → 0 < e.eval fl := fun p hx =>
    lt_of_lt_of_le (mul_pos hx (pow_bounds h0 h1 _).1) ((Expr.eval_computed h0 h1 (nearest_rnd hfl) p).near h0 h1 p).1
  have hsort : (demoInBand.map (· 0)).Pairwise (· < ·) := demoInBand_sorted
  have hpos : ∀ x ∈ demoInBand.map (· 0), 0 < x := fun x hx => by
    obtain ⟨a, ha, rfl⟩ := List.mem_map.mp hx
    exact clear_imaging.wavelengths a ha
  generalize demoInBand.map (· 0) = wl at *
  have hD : clearSensor.D ≠ 0 := by norm_num [clearSensor, demoSensor]
  obtain ⟨p0, hp0, hh⟩ := C123_warm hfl (s := clearSensor) (wl := wl) (order := SumTree.halves 14 0 (demoInBand.length - 1))
    (by rw [hlen]; exact demoInBand_two)
    hpos hsort hD
    (fun i hi => by
      rw [hlen] at hi
      obtain ⟨b1, b2, -⟩ := demoInBand_mem (getD_mem hi)
      rw [hwl]
      refine ⟨pos (hS.transmission i hi).1 ?_, pos (hS.efficiency i hi).1 ?_, pos (hS.emission i hi).1 ?_⟩
      · rw [(hS.transmission i hi).2.2]; exact clear_trans b1 b2
      · rw [(hS.efficiency i hi).2.2]; exact demo_qe b1 b2
      · rw [(hS.emission i hi).2.2]; exact (clear_self b1).1)
    (by norm_num [clearSensor, demoSensor]) (by norm_num [clearSensor, demoSensor]) (by norm_num [clearSensor, demoSensor])
    (by norm_num [clearSensor, demoSensor]) (by norm_num [clearSensor, demoSensor]) (by norm_num [clearSensor, demoSensor])
    (by rw [hlen]; exact demoInBand_order) (by omega)
  have hl : 0 < fl (p0 / 2) := fl_pos hfl (by linarith)
  have h2 : fl (p0 / 2) ≤ p0 := (fl_le_two hfl (by linarith)).trans (by linarith)
  obtain ⟨-, h3, h4⟩ := hh _ (hfl (p0 / 2)).1 hl h2
  exact ⟨_, hl, h3, h4⟩

end PyBSM
