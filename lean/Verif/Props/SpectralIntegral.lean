import Verif.Props.Radiance
import Mathlib.MeasureTheory.Integral.IntervalIntegral.TrapezoidalRule

/-!
# C98: how far the spectral sums are from the integrals they stand for
-/

noncomputable section

open Classical MeasureTheory

namespace PyBSM

open Spec

theorem grid_mono {n : ℕ} {x : ℕ → ℝ} (hx : ∀ i, i + 1 < n → x i ≤ x (i + 1)) {i j : ℕ} (hij : i ≤ j) :
    j < n → x i ≤ x j := by
  induction j, hij using Nat.le_induction with
  | base => intro _; exact le_rfl
  | succ j _ ih => intro h; exact (ih (by omega)).trans (hx j h)

/-- Summing the errors of the panels. -/
theorem trap_panels {n : ℕ} (hn : 1 ≤ n) {x : ℕ → ℝ} (hx : ∀ i, i + 1 < n → x i ≤ x (i + 1)) {r : ℝ → ℝ}
    (hr : ContinuousOn r (Set.Icc (x 0) (x (n - 1)))) {C : ℝ}
    (hp : ∀ i, i + 1 < n → |(x (i + 1) - x i) * ((r (x i) + r (x (i + 1))) / 2)
      - ∫ u in x i..x (i + 1), r u| ≤ C * (x (i + 1) - x i)) :
    |trap n x (fun i => r (x i)) - ∫ u in x 0..x (n - 1), r u| ≤ C * (x (n - 1) - x 0) := by
  have hint : ∀ k < n - 1, IntervalIntegrable r volume (x k) (x (k + 1)) := by
    intro k hk
    apply ContinuousOn.intervalIntegrable
    apply hr.mono
    rw [Set.uIcc_of_le (hx k (by omega))]
    exact Set.Icc_subset_Icc (grid_mono hx (Nat.zero_le k) (by omega))
      (grid_mono hx (by omega) (by omega))
  have hs := intervalIntegral.sum_integral_adjacent_intervals (f := r) (μ := volume) (a := x)
    (n := n - 1) hint
  rw [← hs]
  unfold trap
  rw [← Finset.sum_sub_distrib]
  refine (Finset.abs_sum_le_sum_abs _ _).trans ?_
  have hsum : C * (x (n - 1) - x 0) = ∑ i ∈ Finset.range (n - 1), C * (x (i + 1) - x i) := by
    rw [← Finset.mul_sum, Finset.sum_range_sub]
  rw [hsum]
  apply Finset.sum_le_sum
  intro i hi
  have := Finset.mem_range.mp hi
  exact hp i (by omega)

theorem panel_lipschitz {a b K : ℝ} (hab : a ≤ b) {r : ℝ → ℝ}
    (hK : ∀ u ∈ Set.Icc a b, ∀ v ∈ Set.Icc a b, |r u - r v| ≤ K * |u - v|) :
    |(b - a) * ((r a + r b) / 2) - ∫ u in a..b, r u| ≤ K * (b - a) / 2 * (b - a) := by
  have hcont : ContinuousOn r (Set.uIcc a b) := by
    rw [Set.uIcc_of_le hab]
    have : LipschitzOnWith (Real.toNNReal K) r (Set.Icc a b) := by
      apply LipschitzOnWith.of_dist_le_mul
      intro u hu v hv
      rw [Real.dist_eq, Real.dist_eq]
      exact (hK u hu v hv).trans (mul_le_mul_of_nonneg_right (Real.le_coe_toNNReal K) (abs_nonneg _))
    exact this.continuousOn
  set C := (r a + r b) / 2 with hC
  have e2 : (b - a) * C - ∫ u in a..b, r u = -∫ u in a..b, (r u - C) := by
    rw [intervalIntegral.integral_sub hcont.intervalIntegrable intervalIntegrable_const,
      intervalIntegral.integral_const, smul_eq_mul]
    ring
  rw [e2, abs_neg]
  have key : ∀ u ∈ Set.uIoc a b, ‖r u - C‖ ≤ K * (b - a) / 2 := by
    intro u hu
    rw [Set.uIoc_of_le hab] at hu
    have hu' : u ∈ Set.Icc a b := ⟨hu.1.le, hu.2⟩
    have h1 := hK u hu' a ⟨le_rfl, hab⟩
    have h2 := hK u hu' b ⟨hab, le_rfl⟩
    rw [abs_of_nonneg (by linarith [hu.1] : 0 ≤ u - a)] at h1
    rw [abs_of_nonpos (by linarith [hu.2] : u - b ≤ 0)] at h2
    rw [Real.norm_eq_abs, hC]
    have e3 : r u - (r a + r b) / 2 = ((r u - r a) + (r u - r b)) / 2 := by ring
    rw [e3, abs_div, abs_of_pos (by norm_num : (0 : ℝ) < 2)]
    have := abs_add_le (r u - r a) (r u - r b)
    linarith
  have := intervalIntegral.norm_integral_le_of_norm_le_const key
  rwa [Real.norm_eq_abs, abs_of_nonneg (by linarith : 0 ≤ b - a)] at this

theorem panel_smooth {a b M : ℝ} (hab : a ≤ b) {r : ℝ → ℝ} (hr : ContDiff ℝ 2 r)
    (hM : ∀ u ∈ Set.Icc a b, |iteratedDeriv 2 r u| ≤ M) :
    |(b - a) * ((r a + r b) / 2) - ∫ u in a..b, r u| ≤ M * (b - a) ^ 2 / 12 * (b - a) := by
  rcases hab.eq_or_lt with rfl | hlt
  · simp
  have hM0 : 0 ≤ M := (abs_nonneg _).trans (hM a ⟨le_rfl, hab⟩)
  have h := trapezoidal_error_le_of_c2 (f := r) (a := a) (b := b) (ζ := M) (N := 1) hr.contDiffOn
    (fun u => by
      rw [Set.uIcc_of_le hab]
      by_cases hu : u ∈ Set.Icc a b
      · rw [iteratedDerivWithin_eq_iteratedDeriv (uniqueDiffOn_Icc hlt) hr.contDiffAt hu]
        exact hM u hu
      · rw [show (2 : ℕ) = 1 + 1 from rfl, iteratedDerivWithin_succ,
          derivWithin_zero_of_notMem_closure (by rwa [isClosed_Icc.closure_eq])]
        simpa using hM0) one_pos
  rw [trapezoidal_error, trapezoidal_integral_one, abs_of_nonneg (by linarith : 0 ≤ b - a)] at h
  have e : (b - a) * ((r a + r b) / 2) = (b - a) / 2 * (r a + r b) := by ring
  rw [e]
  refine h.trans (le_of_eq ?_)
  push_cast
  ring

/-- The spectral detection rate as a function of the wavelength. -/
def rateAt (d fl wx wy : ℝ) (L t qe o : ℝ → ℝ) (lam : ℝ) : ℝ :=
  spectralRate d fl wx wy lam (L lam) (t lam) (qe lam) (o lam)

/-- **C98** (first order). Radiance, transmission, quantum efficiency and other irradiance are functions
of the wavelength, sampled on any increasing grid with steps of at most `h`.  If the spectral detection
rate changes by at most `K` per unit of wavelength (kinks in the tables are allowed), `signal_rate` is
within `K h (b - a) / 2` of the dark current plus the integral of the spectral rate over `[a, b]`. -/
theorem C98_first_order {D f : Scal} {d fl : ℝ} (hD : D.val = .fin d) (hf : f.val = .fin fl)
    (hd : d ≠ 0) {n : ℕ} (hn : 1 ≤ n) {wl : ℕ → ℝ} (hwl : ∀ i, i + 1 < n → wl i ≤ wl (i + 1)) {h : ℝ}
    (hh : ∀ i, i + 1 < n → wl (i + 1) - wl i ≤ h) (L t qe o : ℝ → ℝ) (wx wy dark : ℝ) {K : ℝ}
    (hK : ∀ u ∈ Set.Icc (wl 0) (wl (n - 1)), ∀ v ∈ Set.Icc (wl 0) (wl (n - 1)),
      |rateAt d fl wx wy L t qe o u - rateAt d fl wx wy L t qe o v| ≤ K * |u - v|) (hK0 : 0 ≤ K) :
    ∃ rate x, signalRate (vec n wl) (vec n fun i => L (wl i)) (vec n fun i => t (wl i)) D f (.fin wx)
        (.fin wy) (vec n fun i => qe (wl i)) (vec n fun i => o (wl i)) (.fin dark) = .ok (.fin rate, x)
      ∧ |rate - ((∫ u in wl 0..wl (n - 1), rateAt d fl wx wy L t qe o u) + dark)|
        ≤ K * h / 2 * (wl (n - 1) - wl 0) := by
  refine ⟨_, _, C22_value hD hf hd n wl (fun i => L (wl i)) (fun i => t (wl i)) (fun i => qe (wl i))
    (fun i => o (wl i)) wx wy dark, ?_⟩
  rw [add_sub_add_right_eq_sub]
  have hcont : ContinuousOn (rateAt d fl wx wy L t qe o) (Set.Icc (wl 0) (wl (n - 1))) := by
    have : LipschitzOnWith (Real.toNNReal K) (rateAt d fl wx wy L t qe o)
        (Set.Icc (wl 0) (wl (n - 1))) := by
      apply LipschitzOnWith.of_dist_le_mul
      intro u hu v hv
      rw [Real.dist_eq, Real.dist_eq]
      exact (hK u hu v hv).trans (mul_le_mul_of_nonneg_right (Real.le_coe_toNNReal K) (abs_nonneg _))
    exact this.continuousOn
  refine trap_panels hn hwl hcont fun i hi => ?_
  have hs : Set.Icc (wl i) (wl (i + 1)) ⊆ Set.Icc (wl 0) (wl (n - 1)) :=
    Set.Icc_subset_Icc (grid_mono hwl (Nat.zero_le i) (by omega)) (grid_mono hwl (by omega) (by omega))
  refine (panel_lipschitz (hwl i hi) fun u hu v hv => hK u (hs hu) v (hs hv)).trans ?_
  have h0 := hwl i hi
  apply mul_le_mul_of_nonneg_right _ (by linarith)
  have := mul_le_mul_of_nonneg_left (hh i hi) hK0
  linarith

/-- **C98** (second order). If the spectral detection rate is twice continuously differentiable with a
second derivative of at most `M` in absolute value, the difference is at most `M h^2 (b - a) / 12`. -/
theorem C98_second_order {D f : Scal} {d fl : ℝ} (hD : D.val = .fin d) (hf : f.val = .fin fl)
    (hd : d ≠ 0) {n : ℕ} (hn : 1 ≤ n) {wl : ℕ → ℝ} (hwl : ∀ i, i + 1 < n → wl i ≤ wl (i + 1)) {h : ℝ}
    (hh : ∀ i, i + 1 < n → wl (i + 1) - wl i ≤ h) (L t qe o : ℝ → ℝ) (wx wy dark : ℝ) {M : ℝ}
    (hr : ContDiff ℝ 2 (rateAt d fl wx wy L t qe o))
    (hM : ∀ u ∈ Set.Icc (wl 0) (wl (n - 1)), |iteratedDeriv 2 (rateAt d fl wx wy L t qe o) u| ≤ M) :
    ∃ rate x, signalRate (vec n wl) (vec n fun i => L (wl i)) (vec n fun i => t (wl i)) D f (.fin wx)
        (.fin wy) (vec n fun i => qe (wl i)) (vec n fun i => o (wl i)) (.fin dark) = .ok (.fin rate, x)
      ∧ |rate - ((∫ u in wl 0..wl (n - 1), rateAt d fl wx wy L t qe o u) + dark)|
        ≤ M * h ^ 2 / 12 * (wl (n - 1) - wl 0) := by
  refine ⟨_, _, C22_value hD hf hd n wl (fun i => L (wl i)) (fun i => t (wl i)) (fun i => qe (wl i))
    (fun i => o (wl i)) wx wy dark, ?_⟩
  rw [add_sub_add_right_eq_sub]
  refine trap_panels hn hwl hr.continuous.continuousOn fun i hi => ?_
  have hs : Set.Icc (wl i) (wl (i + 1)) ⊆ Set.Icc (wl 0) (wl (n - 1)) :=
    Set.Icc_subset_Icc (grid_mono hwl (Nat.zero_le i) (by omega)) (grid_mono hwl (by omega) (by omega))
  refine (panel_smooth (hwl i hi) hr fun u hu => hM u (hs hu)).trans ?_
  have h0 := hwl i hi
  have hM0 : 0 ≤ M := (abs_nonneg _).trans (hM (wl i) (hs ⟨le_rfl, h0⟩))
  apply mul_le_mul_of_nonneg_right _ (by linarith)
  have h1 := hh i hi
  have h2 : (wl (i + 1) - wl i) ^ 2 ≤ h ^ 2 := pow_le_pow_left₀ (by linarith) h1 2
  have := mul_le_mul_of_nonneg_left h2 hM0
  linarith

/-- **C98** (convergence). On a sequence of grids over the same band whose steps shrink to zero, the
rates converge to the dark current plus the integral. -/
theorem C98_converges {D f : Scal} {d fl : ℝ} (hD : D.val = .fin d) (hf : f.val = .fin fl)
    (hd : d ≠ 0) {a b : ℝ} (L t qe o : ℝ → ℝ) (wx wy dark : ℝ) {K : ℝ} (hK0 : 0 ≤ K)
    (hK : ∀ u ∈ Set.Icc a b, ∀ v ∈ Set.Icc a b,
      |rateAt d fl wx wy L t qe o u - rateAt d fl wx wy L t qe o v| ≤ K * |u - v|)
    (n : ℕ → ℕ) (wl : ℕ → ℕ → ℝ) (h : ℕ → ℝ) (hn : ∀ k, 1 ≤ n k) (ha : ∀ k, wl k 0 = a)
    (hb : ∀ k, wl k (n k - 1) = b) (hwl : ∀ k i, i + 1 < n k → wl k i ≤ wl k (i + 1))
    (hh : ∀ k i, i + 1 < n k → wl k (i + 1) - wl k i ≤ h k)
    (h0 : Filter.Tendsto h Filter.atTop (nhds 0)) :
    ∃ rate : ℕ → ℝ, (∀ k, ∃ x, signalRate (vec (n k) (wl k)) (vec (n k) fun i => L (wl k i))
        (vec (n k) fun i => t (wl k i)) D f (.fin wx) (.fin wy) (vec (n k) fun i => qe (wl k i))
        (vec (n k) fun i => o (wl k i)) (.fin dark) = .ok (.fin (rate k), x))
      ∧ Filter.Tendsto rate Filter.atTop
        (nhds ((∫ u in a..b, rateAt d fl wx wy L t qe o u) + dark)) := by
  have step : ∀ k, ∃ rate x, signalRate (vec (n k) (wl k)) (vec (n k) fun i => L (wl k i))
        (vec (n k) fun i => t (wl k i)) D f (.fin wx) (.fin wy) (vec (n k) fun i => qe (wl k i))
        (vec (n k) fun i => o (wl k i)) (.fin dark) = .ok (.fin rate, x)
      ∧ |rate - ((∫ u in a..b, rateAt d fl wx wy L t qe o u) + dark)| ≤ K * h k / 2 * (b - a) := by
    intro k
    have := C98_first_order hD hf hd (hn k) (hwl k) (hh k) L t qe o wx wy dark (K := K)
      (by rw [ha, hb]; exact hK) hK0
    rwa [ha, hb] at this
  choose rate x hx hle using step
  refine ⟨rate, fun k => ⟨x k, hx k⟩, ?_⟩
  rw [tendsto_iff_dist_tendsto_zero]
  refine squeeze_zero (fun _ => dist_nonneg) (fun k => ?_) (g := fun k => K * h k / 2 * (b - a)) ?_
  · rw [Real.dist_eq]; exact hle k
  · have := ((h0.const_mul K).div_const 2).mul_const (b - a)
    simpa using this

/-- The hypotheses hold for a band of constant spectra, where the rate grows linearly with the
wavelength: the sum is then exact. -/
example (n : ℕ) (hn : 1 ≤ n) : ∃ rate x, signalRate (vec n fun i => 4e-7 + 1e-8 * i) (vec n fun _ => 1)
      (vec n fun _ => 0.9) (.py (.fin 0.1)) (.py (.fin 0.4)) (.fin 1e-5) (.fin 1e-5) (vec n fun _ => 0.5)
      (vec n fun _ => 0) (.fin 10) = .ok (.fin rate, x)
    ∧ |rate - ((∫ u in (4e-7 + 1e-8 * ((0 : ℕ) : ℝ))..(4e-7 + 1e-8 * ((n - 1 : ℕ) : ℝ)),
        rateAt 0.1 0.4 1e-5 1e-5 (fun _ => 1) (fun _ => 0.9) (fun _ => 0.5) (fun _ => 0) u) + 10)| ≤ 0 := by
  have lin : rateAt 0.1 0.4 1e-5 1e-5 (fun _ => 1) (fun _ => 0.9) (fun _ => 0.5) (fun _ => 0)
      = fun u => u * (1 / (planckH * lightC) * 0.5 * (1e-5 * 1e-5) * (0.9 * (apertureFactor 0.1 0.4 * 1) + 0)) := by
    funext u
    unfold rateAt spectralRate
    ring
  have h := C98_second_order (D := .py (.fin 0.1)) (f := .py (.fin 0.4)) rfl rfl (by norm_num) hn
    (wl := fun i => 4e-7 + 1e-8 * i) (by intro i _; push_cast; linarith) (h := 1e-8)
    (by intro i _; push_cast; linarith) (fun _ => 1) (fun _ => 0.9) (fun _ => 0.5) (fun _ => 0) 1e-5 1e-5 10
    (M := 0) (by rw [lin]; fun_prop) (by
      intro u _
      rw [lin, iteratedDeriv_succ, iteratedDeriv_one]
      have : deriv (fun u : ℝ => u * (1 / (planckH * lightC) * 0.5 * (1e-5 * 1e-5)
          * (0.9 * (apertureFactor 0.1 0.4 * 1) + 0))) = fun _ => (1 / (planckH * lightC) * 0.5
          * (1e-5 * 1e-5) * (0.9 * (apertureFactor 0.1 0.4 * 1) + 0)) := by
        funext v
        simp
      rw [this]
      simp)
  simpa using h

end PyBSM
