import Verif.Props.DoubleChain
import Verif.Props.DoubleRatingDemo

/-!
The hypotheses of C122 hold in a concrete case: the demonstration sensor with an obscuration of 0.2001.
-/

noncomputable section

open Classical

namespace PyBSM

open Spec

theorem demo_planckWithin {l T : ℝ} (h3 : 3e-6 ≤ l) (h4 : l ≤ 5e-6) (h1 : 70 ≤ T) (h2 : T ≤ 400) : PlanckWithin 4000 l T := by
  refine planckWithin_of (a := 2.1e-4) (b := 2e-3) (by norm_num) ?_ ?_ (by linarith) (by linarith) (by norm_num)
  · calc (2.1e-4 : ℝ) = 3e-6 * 70 := by norm_num
      _ ≤ _ := by gcongr
  · calc l * T ≤ 5e-6 * 400 := by gcongr
      _ = _ := by norm_num

theorem clear_conditioned : clearSensor.WellConditioned 4000 10 demoInBand.length fun i => demoInBand.getD i 0 0 where
  regular :=
    { usable := clear_usable
      aperture := by norm_num [clearSensor, demoSensor]
      focal := by norm_num [clearSensor, demoSensor]
      width := by norm_num [clearSensor, demoSensor]
      height := by norm_num [clearSensor, demoSensor]
      dark := by norm_num [clearSensor, demoSensor]
      time := by norm_num [clearSensor, demoSensor]
      stages := by norm_num [clearSensor, demoSensor]
      well := by norm_num [clearSensor, demoSensor]
      fill := by norm_num [clearSensor, demoSensor]
      bits := by norm_num [clearSensor, demoSensor]
      positive := fun i hi => lt_of_lt_of_le (by norm_num) (demoInBand_mem (getD_mem hi)).1
      increasing := fun i hi => (counting_step demoInBand_sorted hi).le
      transmission := fun i hi => (clear_trans (demoInBand_mem (getD_mem hi)).1 (demoInBand_mem (getD_mem hi)).2.1).le
      efficiency := fun i hi => (demo_qe (demoInBand_mem (getD_mem hi)).1 (demoInBand_mem (getD_mem hi)).2.1).le
      emission := fun i hi => selfAt_nonneg clear_usable clear_physical
        (lt_of_lt_of_le (by norm_num) (demoInBand_mem (getD_mem hi)).1) }
  physical := clear_physical
  fNumber := by norm_num [clearSensor, demoSensor]
  shield := fun i hi => demo_planckWithin (demoInBand_mem (getD_mem hi)).1 (demoInBand_mem (getD_mem hi)).2.1
    (by norm_num [clearSensor, demoSensor]) (by norm_num [clearSensor, demoSensor])
  optics := fun i hi => demo_planckWithin (demoInBand_mem (getD_mem hi)).1 (demoInBand_mem (getD_mem hi)).2.1
    (by norm_num [clearSensor, demoSensor]) (by norm_num [clearSensor, demoSensor])
  filter := fun i hi => demo_planckWithin (demoInBand_mem (getD_mem hi)).1 (demoInBand_mem (getD_mem hi)).2.1
    (by norm_num [clearSensor, demoSensor]) (by norm_num [clearSensor, demoSensor])
  open_ := by norm_num [clearSensor]
  obscuration := by norm_num [clearSensor]
  transmission := demo_gentle.1
  efficiency := demo_gentle.2

/-- Lower bound of the difference between the blackbodies of 282 K and 280 K in the band. -/
theorem demo_planck_step {l : ℝ} (h1 : 3e-6 ≤ l) (h2 : l ≤ 5e-6) :
    2100 ≤ planck l 282 - planck l 280 ∧ 0.07 * planck l 280 ≤ planck l 282 - planck l 280 := by
  have hl : 0 < l := by linarith
  set x := planckArg l 280 with hx
  have hx' : planckArg l 282 = x * (280 / 282) := by
    rw [hx]
    unfold planckArg
    have := boltzmannK_pos
    field_simp
  have hxe : x = planckH * lightC / boltzmannK / (l * 280) := by
    rw [hx]
    unfold planckArg
    have := boltzmannK_pos
    field_simp
  have a1 : planckH * lightC / boltzmannK ≤ 0.01439 := by unfold planckH lightC boltzmannK; norm_num
  have a2 : 0.01438 ≤ planckH * lightC / boltzmannK := by unfold planckH lightC boltzmannK; norm_num
  have x1 : x ≤ 17.132 := by
    rw [hxe, div_le_iff₀ (by positivity)]
    linarith
  have x2 : 10.2 ≤ x := by
    rw [hxe, le_div_iff₀ (by positivity)]
    linarith
  set C := 2 * planckH * lightC ^ 2 / l ^ 5 with hC
  have e0 : planck l 280 = C / (Real.exp x - 1) := rfl
  have e1 : planck l 282 = C / (Real.exp (x * (280 / 282)) - 1) := by
    rw [← hx']
    rfl
  have hC0 : 0 < C := by
    have := planckH_pos
    have := lightC_pos
    positivity
  have hE : 1 < Real.exp (x * (280 / 282)) := Real.one_lt_exp_iff.mpr (by linarith)
  have hE' : 1 < Real.exp x := Real.one_lt_exp_iff.mpr (by linarith)
  -- the ratio of the two
  have step : x / 141 * planck l 280 ≤ planck l 282 - planck l 280 := by
    have hexp : Real.exp x = Real.exp (x * (280 / 282)) * Real.exp (x * (2 / 282)) := by
      rw [← Real.exp_add]; congr 1; ring
    have hadd := Real.add_one_le_exp (x * (2 / 282))
    have : (1 + x / 141) * planck l 280 ≤ planck l 282 := by
      rw [e0, e1, ← mul_div_assoc, div_le_div_iff₀ (by linarith) (by linarith)]
      have : (1 + x / 141) * (Real.exp (x * (280 / 282)) - 1) ≤ Real.exp x - 1 := by
        rw [hexp]
        nlinarith
      nlinarith
    linarith
  have hP : 0 < planck l 280 := by rw [e0]; exact div_pos hC0 (by linarith)
  refine ⟨?_, le_trans ?_ step⟩
  · -- `x ^ 6 exp (-x)` is smallest at the short end
    have hmono : Real.exp x * 17.132 ^ 6 ≤ Real.exp 17.132 * x ^ 6 := by
      have h3 : 17.132 / x ≤ Real.exp ((17.132 - x) / 6) := by
        refine le_trans ?_ (Real.add_one_le_exp _)
        rw [div_le_iff₀ (by linarith)]
        nlinarith
      have h4 : (17.132 / x) ^ 6 ≤ Real.exp ((17.132 - x) / 6) ^ 6 := by gcongr
      rw [← Real.exp_nat_mul, div_pow, div_le_iff₀ (by positivity)] at h4
      have h5 : Real.exp x * Real.exp (((6 : ℕ) : ℝ) * ((17.132 - x) / 6)) = Real.exp 17.132 := by
        rw [← Real.exp_add]; congr 1; push_cast; ring
      calc Real.exp x * 17.132 ^ 6 ≤ Real.exp x * (Real.exp (((6 : ℕ) : ℝ) * ((17.132 - x) / 6)) * x ^ 6) := by gcongr
        _ = _ := by rw [← mul_assoc, h5]
    have hbig : Real.exp 17.132 ≤ 2.79e7 := by
      have h6 : Real.exp 17.132 = Real.exp 1 ^ 17 * Real.exp 0.132 := by
        rw [← Real.exp_nat_mul, ← Real.exp_add]; congr 1; norm_num
      have h7 : Real.exp 0.132 ≤ 1 / (1 - 0.132) := by
        rw [le_div_iff₀ (by norm_num)]
        have := Real.add_one_le_exp (-0.132)
        have h8 : Real.exp 0.132 * Real.exp (-0.132) = 1 := by rw [← Real.exp_add]; norm_num
        have := Real.exp_pos 0.132
        nlinarith
      have h8 : Real.exp 1 ^ 17 ≤ 2.7182818286 ^ 17 := by
        have := Real.exp_one_lt_d9
        gcongr
      rw [h6]
      calc Real.exp 1 ^ 17 * Real.exp 0.132 ≤ 2.7182818286 ^ 17 * (1 / (1 - 0.132)) := by gcongr
        _ ≤ _ := by norm_num
    have hCx : 3.3e5 * x ^ 5 ≤ C := by
      have h6 : l * 280 * x ≤ 0.01439 := by
        rw [hxe, mul_div_cancel₀ _ (by positivity)]
        exact a1
      have h7 : (l * 280 * x) ^ 5 ≤ 0.01439 ^ 5 := by gcongr
      rw [hC, le_div_iff₀ (by positivity)]
      have h8 : 3.3e5 * x ^ 5 * l ^ 5 = 3.3e5 / 280 ^ 5 * (l * 280 * x) ^ 5 := by ring
      rw [h8]
      calc (3.3e5 : ℝ) / 280 ^ 5 * (l * 280 * x) ^ 5 ≤ 3.3e5 / 280 ^ 5 * 0.01439 ^ 5 := by gcongr
        _ ≤ _ := by unfold planckH lightC; norm_num
    refine le_trans ?_ step
    rw [e0, ← mul_div_assoc, le_div_iff₀ (by linarith)]
    have h9 : Real.exp x * 17.132 ^ 6 ≤ 2.79e7 * x ^ 6 := hmono.trans (by gcongr)
    have h10 : Real.exp x ≤ 1.1037 * x ^ 6 := by
      have : (0 : ℝ) ≤ x ^ 6 := by positivity
      have : (2.79e7 : ℝ) ≤ 1.1037 * 17.132 ^ 6 := by norm_num
      nlinarith
    have h11 : x / 141 * (3.3e5 * x ^ 5) ≤ x / 141 * C := by gcongr
    have : (0 : ℝ) ≤ x ^ 6 := by positivity
    nlinarith
  · exact mul_le_mul_of_nonneg_right (by linarith) hP.le

theorem clear_thermal : clearSensor.Thermal := demo_thermal

theorem clear_trans_ge {x : ℝ} (h1 : 3e-6 ≤ x) (h2 : x ≤ 5e-6) : 0.6 ≤ clearSensor.transAt x := by
  have := demo_onTable (m := 0.7) clear_usable.transmission_ne clear_usable.transmission_inc
    (x := x) ⟨(3e-6, 0.8), by simp [clearSensor, demoSensor], h1⟩ ⟨(5e-6, 0.7), by simp [clearSensor, demoSensor], h2⟩
    (by simp [clearSensor, demoSensor]; norm_num)
  unfold RealSensor.transAt
  have h3 : clearSensor.coldFilterTransmission * (1 - clearSensor.eta ^ 2) = 0.863963991 := by norm_num [clearSensor, demoSensor]
  rw [h3]
  linarith

theorem demo_qe_ge {x : ℝ} (h1 : 3e-6 ≤ x) (h2 : x ≤ 5e-6) : 0.6 ≤ tableAt demoSensor.qe x :=
  demo_onTable (m := 0.6) demoSensor_usable.qe_ne demoSensor_usable.qe_inc
    (x := x) ⟨(3e-6, 0.7), by simp [demoSensor], h1⟩ ⟨(5e-6, 0.6), by simp [demoSensor], h2⟩
    (by simp [demoSensor]; norm_num)

/-- At each wavelength the two signals together are at most 20 million times their difference, which is not tiny. -/
theorem clear_pair {a : Fin 6 → ℝ} (h : a ∈ demoInBand) :
    clearSensor.spectral (a 0) (clearSensor.targetAt a) + clearSensor.spectral (a 0) (clearSensor.backgroundAt a)
        ≤ 2e7 * (clearSensor.spectral (a 0) (clearSensor.targetAt a) - clearSensor.spectral (a 0) (clearSensor.backgroundAt a))
      ∧ 1000 ≤ clearSensor.spectral (a 0) (clearSensor.targetAt a) - clearSensor.spectral (a 0) (clearSensor.backgroundAt a) := by
  obtain ⟨h1, h2, h3, h4, h5, h6⟩ := demoInBand_mem h
  have h0 : 0 < a 0 := lt_of_lt_of_le (by norm_num) h1
  obtain ⟨d1, d2⟩ := demo_planck_step h1 h2
  have ht := clear_trans_ge h1 h2
  have hq := demo_qe_ge h1 h2
  have p70 := planck_lt (T := 70) (T' := 280) h0 (by norm_num) (by norm_num)
  have p270 := planck_lt (T := 270) (T' := 280) h0 (by norm_num) (by norm_num)
  have hp70 := planck_pos h0 (T := 70) (by norm_num)
  have hp := planck_pos h0 (T := 280) (by norm_num)
  have eT : clearSensor.targetAt a = 1e10 + 0.5 * planck (a 0) 282 := by
    unfold RealSensor.targetAt
    rw [if_pos clear_thermal]
    unfold greyRadiance
    rw [h3, h4, h5, h6]
    ring
  have eB : clearSensor.backgroundAt a = 1e10 + 0.5 * planck (a 0) 280 := by
    unfold RealSensor.backgroundAt
    rw [if_pos clear_thermal]
    unfold greyRadiance
    rw [h3, h4, h5, h6]
    ring
  have hA : apertureFactor clearSensor.D clearSensor.f = Real.pi / 401 := by
    unfold apertureFactor
    norm_num [clearSensor, demoSensor]
  have hpi := Real.pi_gt_three
  have hself : clearSensor.selfAt (a 0) ≤ Real.pi * (1.001 * planck (a 0) 280) := by
    unfold RealSensor.selfAt
    rw [hA]
    show (Real.pi - Real.pi / 401) * planck (a 0) 70 + Real.pi / 401 * (0.9 * 0.05 * planck (a 0) 270)
      + Real.pi / 401 * (0.1 * planck (a 0) 70) ≤ _
    have : (Real.pi - Real.pi / 401) * planck (a 0) 70 + Real.pi / 401 * (0.9 * 0.05 * planck (a 0) 270)
      + Real.pi / 401 * (0.1 * planck (a 0) 70) = Real.pi * ((1 - 1 / 401) * planck (a 0) 70 + 1 / 401 * (0.9 * 0.05 * planck (a 0) 270)
      + 1 / 401 * (0.1 * planck (a 0) 70)) := by ring
    rw [this]
    refine mul_le_mul_of_nonneg_left ?_ (by linarith)
    linarith
  have hC : 1e7 ≤ a 0 / (planckH * lightC) * tableAt clearSensor.qe (a 0) * (clearSensor.wX * clearSensor.wY) := by
    have e1 : 1.5e19 ≤ a 0 / (planckH * lightC) := by
      rw [le_div_iff₀ (mul_pos planckH_pos lightC_pos)]
      refine le_trans ?_ h1
      unfold planckH lightC
      norm_num
    have e2 : clearSensor.wX * clearSensor.wY = 1e-10 := by norm_num [clearSensor, demoSensor]
    have e3 : 0.6 ≤ tableAt clearSensor.qe (a 0) := hq
    rw [e2]
    calc (1e7 : ℝ) ≤ 1.5e19 * 0.6 * 1e-10 := by norm_num
      _ ≤ _ := by gcongr
  unfold RealSensor.spectral spectralRate
  rw [eT, eB, hA]
  generalize a 0 / (planckH * lightC) * tableAt clearSensor.qe (a 0) * (clearSensor.wX * clearSensor.wY) = C at *
  generalize clearSensor.transAt (a 0) = t at *
  generalize clearSensor.selfAt (a 0) = o at *
  generalize planck (a 0) 280 = P at *
  generalize planck (a 0) 282 = Q at *
  have hC0 : 0 ≤ C := by linarith
  have hx : 0.0044 ≤ t * (Real.pi / 401) := by
    calc (0.0044 : ℝ) ≤ 0.6 * (3 / 401) := by norm_num
      _ ≤ _ := by gcongr
  constructor
  · have key : t * (Real.pi / 401 * (1e10 + 0.5 * Q)) + o + (t * (Real.pi / 401 * (1e10 + 0.5 * P)) + o)
        ≤ 2e7 * (t * (Real.pi / 401 * (1e10 + 0.5 * Q)) + o - (t * (Real.pi / 401 * (1e10 + 0.5 * P)) + o)) := by
      have ho : o ≤ t * (Real.pi / 401) * (700 * P) := by
        refine hself.trans ?_
        have : t * (Real.pi / 401) * (700 * P) = Real.pi * (t * (700 / 401) * P) := by ring
        rw [this]
        refine mul_le_mul_of_nonneg_left ?_ (by linarith)
        nlinarith
      have hz : 0 ≤ t * (Real.pi / 401) * (2e7 * (0.5 * (Q - P)) - (2e10 + 0.5 * (P + Q)) - 1400 * P) :=
        mul_nonneg (by linarith) (by linarith)
      linarith
    have := mul_le_mul_of_nonneg_left key hC0
    linarith
  · have : C * (t * (Real.pi / 401 * (1e10 + 0.5 * Q)) + o) - C * (t * (Real.pi / 401 * (1e10 + 0.5 * P)) + o)
        = C * (t * (Real.pi / 401)) * (0.5 * (Q - P)) := by ring
    rw [this]
    calc (1000 : ℝ) ≤ 1e7 * 0.0044 * (0.5 * 2100) := by norm_num
      _ ≤ _ := by gcongr

theorem trap_constant (n : ℕ) (x : ℕ → ℝ) (c : ℝ) : trap n x (fun _ => c) = c * (x (n - 1) - x 0) := by
  unfold trap
  rw [← Finset.sum_range_sub x (n - 1), Finset.mul_sum]
  apply Finset.sum_congr rfl
  intro i _
  ring

theorem sorted_ends {B : List (Fin 6 → ℝ)} (h : (B.map (· 0)).Pairwise (· < ·)) {a : Fin 6 → ℝ} (ha : a ∈ B) :
    B.getD 0 0 0 ≤ a 0 ∧ a 0 ≤ B.getD (B.length - 1) 0 0 := by
  obtain ⟨j, hj, rfl⟩ := List.mem_iff_getElem.mp ha
  have mono : ∀ i k : ℕ, i ≤ k → k < B.length → B.getD i 0 0 ≤ B.getD k 0 0 := by
    intro i k hik
    induction hik with
    | refl => exact fun _ => le_rfl
    | step _ ih => exact fun hk => (ih (by omega)).trans (counting_step h hk).le
  rw [← List.getD_eq_getElem B 0 hj]
  exact ⟨mono 0 j (by omega) hj, mono j (B.length - 1) (by omega) (by omega)⟩

/-- The counts of target and background together are at most 24 million times their difference. -/
theorem clear_contrast : clearSensor.electrons demoInBand clearSensor.targetAt + clearSensor.electrons demoInBand clearSensor.backgroundAt
    ≤ 2.4e7 * (clearSensor.electrons demoInBand clearSensor.targetAt - clearSensor.electrons demoInBand clearSensor.backgroundAt) := by
  have hinc : ∀ i, i + 1 < demoInBand.length → demoInBand.getD i 0 0 ≤ demoInBand.getD (i + 1) 0 0 :=
    fun i hi => (counting_step demoInBand_sorted hi).le
  unfold RealSensor.electrons RealSensor.rate
  have e1 : clearSensor.intTime = 0.01 := rfl
  have e2 : clearSensor.nTdi = 1 := rfl
  have e3 : clearSensor.darkCurrent = 100 := rfl
  rw [e1, e2, e3]
  set x : ℕ → ℝ := fun i => demoInBand.getD i 0 0 with hx
  set y : ℕ → ℝ := fun i => clearSensor.spectral (x i) (clearSensor.targetAt (demoInBand.getD i 0)) with hy
  set z : ℕ → ℝ := fun i => clearSensor.spectral (x i) (clearSensor.backgroundAt (demoInBand.getD i 0)) with hz
  have hsub : trap demoInBand.length x (fun i => y i + (-1) * z i) = trap demoInBand.length x y - trap demoInBand.length x z := by
    rw [trap_add, trap_smul]; ring
  have t1 : trap demoInBand.length x (fun i => y i + z i) ≤ trap demoInBand.length x (fun i => 2e7 * (y i + (-1) * z i)) := by
    refine trap_mono hinc fun i hi => ?_
    have := (clear_pair (getD_mem hi)).1
    simp only [hy, hz, hx]
    linarith
  rw [trap_add, trap_smul, hsub] at t1
  have t2 : trap demoInBand.length x (fun _ => 1000) ≤ trap demoInBand.length x (fun i => y i + (-1) * z i) := by
    refine trap_mono hinc fun i hi => ?_
    have := (clear_pair (getD_mem hi)).2
    simp only [hy, hz, hx]
    linarith
  rw [trap_constant, hsub] at t2
  have f1 := (sorted_ends demoInBand_sorted (demoInBand_row (i := 270) (by norm_num) (by norm_num))).1
  have f2 := (sorted_ends demoInBand_sorted (demoInBand_row (i := 470) (by norm_num) (by norm_num))).2
  simp only [Matrix.cons_val_zero] at f1 f2
  push_cast at f1 f2
  have f3 : 1.9e-6 ≤ x (demoInBand.length - 1) - x 0 := by
    simp only [hx]
    linarith
  linarith

/-- The score of the demonstration sensor, radiometry and all, in double precision. -/
example {fl : ℝ → ℝ} (hfl : RoundsToNearest fl) : ∃ (w : ℕ → ℝ) (t snr : ℝ) (m : Metrics) (x y ru rv gw r : ℝ),
    RadiometryComputed ((2 : ℝ) ^ (-53 : ℤ)) (SumTree.halves 14 0 (demoInBand.length - 1)) (SumTree.sequential 2) clearSensor demoInBand
      w t snr
      ∧ (niirs5 demoEnv clearSensor.toSensor demoScenario false).1 = .ok m ∧ m.niirs = .fin y
      ∧ m.giqe5 = some (.fin ru, .fin rv, .fin gw, .fin r)
      ∧ niirs5D fl (fun x => fl (lg x)) Real.cos Real.arccos (roundedLib fl) demoInterp
        (SumTree.halves 14 0 (clearSensor.band demoInBand).length) (SumTree.halves 14 0 9999) (SumTree.halves 14 0 49) clearSensor demoScene
        (keptPairs demoInBand.length (fun i => demoInBand.getD i 0 0) w) t snr = .fin x
      ∧ |x - y| ≤ (3.3 + 1.4 * |lg r| + 3.6 * |lg r| ^ 3 + 1.9 / (Real.sqrt clearSensor.frameStacks * clearSensor.contrastSNR demoInBand))
          * 0.0006
        + 2.1e-14 * (17 + 3.4 * |lg (gw / 0.0254)| + 3.4 * |lg r| + 2 * (1 + |lg r|) ^ 4
          + 1.8 / (Real.sqrt clearSensor.frameStacks * clearSensor.contrastSNR demoInBand)) := by
  have hu : (2 : ℝ) ^ (-53 : ℤ) = 1 / 9007199254740992 := by norm_num
  have hlen : demoInBand.length ≤ 2000 := by
    refine (List.length_filter_le _ _).trans ?_
    simp [demoAtm]
  have ho : (SumTree.halves 14 0 (demoInBand.length - 1)).leaves.Perm (List.range (demoInBand.length - 1)) := by
    rw [halves_leaves _ _ _ (by omega), List.range_eq_range']
  have ho' : (SumTree.sequential 2).leaves.Perm (List.range clearSensor.otherNoise.length) := by
    rw [SumTree.sequential_leaves]; rfl
  have hA : ∀ a ∈ demoInBand, ∀ j, 0 ≤ a j := by
    intro a ha j
    obtain ⟨i, -, rfl⟩ := List.mem_map.mp (List.mem_filter.mp ha).1
    fin_cases j <;> norm_num <;> positivity
  have hk : ∀ a ∈ demoInBand, PlanckWithin 4000 (a 0) 282 ∧ PlanckWithin 4000 (a 0) 280 := fun a ha =>
    ⟨demo_planckWithin (demoInBand_mem ha).1 (demoInBand_mem ha).2.1 (by norm_num) (by norm_num),
      demo_planckWithin (demoInBand_mem ha).1 (demoInBand_mem ha).2.1 (by norm_num) (by norm_num)⟩
  have hd := halves_depth 14 0 (demoInBand.length - 1)
  have hK : ((1752 + 18 * 4000 + 36 * 10 + 6 * (SumTree.halves 14 0 (demoInBand.length - 1)).depth + (SumTree.sequential 2).depth : ℕ) : ℝ)
      ≤ 74300 := by
    rw [SumTree.sequential_depth]
    have : 1752 + 18 * 4000 + 36 * 10 + 6 * (SumTree.halves 14 0 (demoInBand.length - 1)).depth + 2 ≤ 74300 := by omega
    exact_mod_cast this
  have hKu : ((1752 + 18 * 4000 + 36 * 10 + 6 * (SumTree.halves 14 0 (demoInBand.length - 1)).depth + (SumTree.sequential 2).depth : ℕ) : ℝ)
      * (2 : ℝ) ^ (-53 : ℤ) ≤ 9e-12 := by
    calc _ ≤ (74300 : ℝ) * (2 : ℝ) ^ (-53 : ℤ) := mul_le_mul_of_nonneg_right hK (by positivity)
      _ ≤ _ := by rw [hu]; norm_num
  obtain ⟨w, t, snr, hr⟩ := radiometry_computed (s := clearSensor) (order := SumTree.halves 14 0 (demoInBand.length - 1))
    (order' := SumTree.sequential 2) (by positivity) (nearest_rnd hfl) clear_imaging.wavelengths clear_conditioned hA hk ho ho'
    (K := 4108) (by norm_num) (by rw [hu]; norm_num)
  have q : clearSensor.pX / clearSensor.f * (0.1 / 3e-6) = 1 / 3 := by norm_num [clearSensor, demoSensor]
  have q' : clearSensor.pY / clearSensor.f * (0.1 / 3e-6) = 1 / 3 := by norm_num [clearSensor, demoSensor]
  have hsl := scene_slant_ge (g := demoScene) (by norm_num [demoScene])
  obtain ⟨m, x, y, ru, rv, gw, r, h1, h2, h3, h4, h5, -⟩ := C122_score hfl (rounded_equation hfl) real_cosine real_arccos
    (roundedLib_accurate hfl) (tenth_rounded hfl) demoInterp_ok (by positivity) clear_imaging (by norm_num [clearSensor, demoSensor])
    clear_conditioned hA hk ho ho' rfl (hKu.trans (by norm_num)) clear_brighter clear_contrast
    (le_trans (mul_le_mul_of_nonneg_right hKu (by norm_num)) (by norm_num)) hr clear_rating (order' := SumTree.halves 14 0 9999)
    (order'' := SumTree.halves 14 0 49) (by norm_num [clearSensor, demoSensor])
    (by rw [halves_leaves _ _ _ (by norm_num), List.range_eq_range']) ((halves_depth _ _ _).trans (by norm_num))
    (by rw [slice_101 hfl, halves_leaves _ _ _ (by norm_num), List.range_eq_range']) ((halves_depth _ _ _).trans (by norm_num))
    (by rw [q]; norm_num) (by rw [q]; norm_num) (by rw [q']; norm_num) (by rw [q']; norm_num)
    (le_trans (by norm_num [demoScene]) hsl) (by norm_num [demoScene])
  exact ⟨w, t, snr, m, x, y, ru, rv, gw, r, hr, h1, h2, h3, h4, h5⟩

end PyBSM
