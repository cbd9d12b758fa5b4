import Verif.Lemmas.EdgeSpread
import Verif.Props.Edge
import Mathlib.Analysis.SpecialFunctions.ImproperIntegrals
import Mathlib.Analysis.Real.Pi.Bounds

/-!
# C91: the edge response is that of a blurred edge, with an explicit error bound
-/

noncomputable section

open MeasureTheory Set
open scoped FourierTransform

namespace PyBSM

open Spec

theorem edge_fringe (n : ℕ) (m : ℕ → ℝ) {df : ℝ} (hdf : 0 ≤ df) (ifov x : ℝ) :
    edge n m df ifov x = 1 / 2 + 2 * trap n (fun i => df * i + 1e-6) fun i => m i * fringe (ifov * x) (df * i + 1e-6) := by
  have hp := Real.pi_pos.ne'
  unfold edge trap
  dsimp only
  rw [Finset.mul_sum, Finset.sum_div]
  congr 1
  apply Finset.sum_congr rfl
  intro i _
  have h1 : df * (i : ℝ) + 1e-6 ≠ 0 := by positivity
  have h2 : df * ((i + 1 : ℕ) : ℝ) + 1e-6 ≠ 0 := by positivity
  rw [fringe_value _ h1, fringe_value _ h2]
  field_simp

/-- The trapezoid rule with abscissae moved by `e` in one factor. -/
theorem trap_error {M s : ℝ → ℝ} (hM : Continuous M) (hs : Continuous s) {K B S : ℝ} (hK : ∀ u v, |M u - M v| ≤ K * |u - v|)
    (hM1 : ∀ u, |M u| ≤ 1) (hB : ∀ u, |s u| ≤ B) (hS : ∀ u v, |s u - s v| ≤ S * |u - v|) (hS0 : 0 ≤ S) {df e : ℝ}
    (hdf : 0 ≤ df) (he : 0 ≤ e) (N : ℕ) :
    |trap (N + 1) (fun i => df * i + e) (fun i => M (df * i) * s (df * i + e)) - ∫ u in (0 : ℝ)..df * N, M u * s u|
      ≤ df * N * ((K * df * B + S * (df + 2 * e)) / 2) := by
  have hint : ∀ a b, IntervalIntegrable (fun u => M u * s u) volume a b :=
    fun a b => (hM.mul hs).intervalIntegrable a b
  have hsum : ∫ u in (0 : ℝ)..df * N, M u * s u
      = ∑ i ∈ Finset.range N, ∫ u in (df * (i : ℕ))..(df * ((i + 1 : ℕ) : ℝ)), M u * s u := by
    have := intervalIntegral.sum_integral_adjacent_intervals (f := fun u => M u * s u) (μ := volume)
      (a := fun i : ℕ => df * (i : ℝ)) (n := N) (fun k _ => hint _ _)
    simp only [Nat.cast_zero, mul_zero] at this
    exact this.symm
  have point : ∀ u p, |M u * s u - M p * s (p + e)| ≤ K * |u - p| * B + S * (|u - p| + e) := by
    intro u p
    have e1 : M u * s u - M p * s (p + e) = (M u - M p) * s u + M p * (s u - s (p + e)) := by ring
    rw [e1]
    calc _ ≤ |(M u - M p) * s u| + |M p * (s u - s (p + e))| := abs_add_le _ _
      _ = |M u - M p| * |s u| + |M p| * |s u - s (p + e)| := by rw [abs_mul, abs_mul]
      _ ≤ K * |u - p| * B + 1 * (S * (|u - p| + e)) := by
          have hKp : 0 ≤ K * |u - p| := (abs_nonneg _).trans (hK u p)
          have h3 : |u - (p + e)| ≤ |u - p| + e := by
            calc |u - (p + e)| = |(u - p) - e| := by ring_nf
              _ ≤ |u - p| + |e| := abs_sub _ _
              _ = _ := by rw [abs_of_nonneg he]
          apply add_le_add
          · exact mul_le_mul (hK u p) (hB u) (abs_nonneg _) hKp
          · apply mul_le_mul (hM1 p) _ (abs_nonneg _) zero_le_one
            exact (hS u (p + e)).trans (mul_le_mul_of_nonneg_left h3 hS0)
      _ = _ := by ring
  rw [hsum]
  unfold trap
  rw [Nat.add_sub_cancel, ← Finset.sum_sub_distrib]
  have cell : ∀ i ∈ Finset.range N, |((df * ((i + 1 : ℕ) : ℝ) + e) - (df * (i : ℕ) + e))
      * ((M (df * (i : ℕ)) * s (df * (i : ℕ) + e) + M (df * ((i + 1 : ℕ) : ℝ)) * s (df * ((i + 1 : ℕ) : ℝ) + e)) / 2)
      - ∫ u in (df * (i : ℕ))..(df * ((i + 1 : ℕ) : ℝ)), M u * s u| ≤ (K * df * B + S * (df + 2 * e)) / 2 * df := by
    intro i _
    set a := df * (i : ℝ) with ha
    set b := df * ((i + 1 : ℕ) : ℝ) with hb
    have hba : b - a = df := by rw [ha, hb]; push_cast; ring
    set C := (M a * s (a + e) + M b * s (b + e)) / 2 with hC
    have e2 : (b + e - (a + e)) * C - ∫ u in a..b, M u * s u = -∫ u in a..b, (M u * s u - C) := by
      rw [intervalIntegral.integral_sub (hint _ _) (by simp), intervalIntegral.integral_const, smul_eq_mul]
      ring
    rw [e2, abs_neg]
    have := intervalIntegral.norm_integral_le_of_norm_le_const (a := a) (b := b)
      (C := (K * df * B + S * (df + 2 * e)) / 2) (f := fun u => M u * s u - C) (fun u hu => by
        rw [uIoc_of_le (by linarith)] at hu
        have h1 := point u a
        have h2 := point u b
        have d1 : |u - a| = u - a := abs_of_nonneg (by linarith [hu.1])
        have d2 : |u - b| = b - u := by rw [abs_sub_comm]; exact abs_of_nonneg (by linarith [hu.2])
        rw [d1] at h1; rw [d2] at h2
        rw [Real.norm_eq_abs]
        have e3 : M u * s u - C = ((M u * s u - M a * s (a + e)) + (M u * s u - M b * s (b + e))) / 2 := by
          rw [hC]; ring
        rw [e3, abs_div, abs_of_pos (show (0 : ℝ) < 2 by norm_num)]
        apply div_le_div_of_nonneg_right _ (by norm_num)
        calc _ ≤ _ := abs_add_le _ _
          _ ≤ _ := add_le_add h1 h2
          _ = K * (b - a) * B + S * (b - a + 2 * e) := by ring
          _ = _ := by rw [hba])
    rw [hba, abs_of_nonneg hdf] at this
    exact this
  calc _ ≤ _ := Finset.abs_sum_le_sum_abs _ _
    _ ≤ _ := Finset.sum_le_sum cell
    _ = _ := by rw [Finset.sum_const, Finset.card_range, nsmul_eq_mul]; ring

/-- How far the sampled edge response may be from the blurred edge at the angle `X`: the MTF, with slope at most `K`, is
sampled up to the frequency `W` in steps of `df`. -/
def Spec.edgeError (K W df X : ℝ) : ℝ := W * |X| * (K * df + Real.pi * |X| * (df + 2e-6))

theorem lipschitz_continuous {M : ℝ → ℝ} {K : ℝ} (hK : ∀ u v, |M u - M v| ≤ K * |u - v|) : Continuous M := by
  have : LipschitzWith K.toNNReal M := by
    apply LipschitzWith.of_dist_le_mul
    intro u v
    rw [Real.dist_eq, Real.dist_eq]
    exact (hK u v).trans (mul_le_mul_of_nonneg_right (Real.le_coe_toNNReal K) (abs_nonneg _))
  exact this.continuous

theorem edge_close {L : ℝ → ℝ} (h : LineSpread L) {K : ℝ} (hK : ∀ u v, |contrast L u - contrast L v| ≤ K * |u - v|)
    {df : ℝ} (hdf : 0 ≤ df) {N : ℕ} (hc : ∀ u, df * N ≤ u → contrast L u = 0) (ifov x : ℝ) :
    |edge (N + 1) (fun i => contrast L (df * i)) df ifov x - blurredEdge L (ifov * x)|
      ≤ edgeError K (df * N) df (ifov * x) := by
  have hM := lipschitz_continuous hK
  rw [edge_fringe _ _ hdf, edge_inversion h hM (c := df * N) (by positivity) hc]
  have hS : 0 ≤ Real.pi * (ifov * x) ^ 2 := by have := Real.pi_pos; positivity
  have := trap_error hM (fringe_continuous (ifov * x)) hK (contrast_le h) (fringe_le (ifov * x))
    (fringe_lipschitz (ifov * x)) hS hdf (e := 1e-6) (by norm_num) N
  rw [show ∀ a b : ℝ, 1 / 2 + 2 * a - (1 / 2 + 2 * b) = 2 * (a - b) by intros; ring, abs_mul, abs_of_pos (show (0 : ℝ) < 2 by norm_num)]
  calc _ ≤ 2 * (df * N * ((K * df * |ifov * x| + Real.pi * (ifov * x) ^ 2 * (df + 2 * 1e-6)) / 2)) :=
        mul_le_mul_of_nonneg_left this (by norm_num)
    _ = _ := by
        unfold edgeError
        rw [← sq_abs (ifov * x)]
        norm_num
        ring

/-- **C91** (edge response): sampled from the MTF of a line spread function up to its cutoff, `edge_response` is the image of a
step edge blurred by that line spread, up to an explicit error that vanishes with the frequency step. -/
theorem C91_edge {L : ℝ → ℝ} (h : LineSpread L) {K : ℝ} (hK : ∀ u v, |contrast L u - contrast L v| ≤ K * |u - v|)
    {df : ℝ} (hdf : 0 ≤ df) {N : ℕ} (hc : ∀ u, df * N ≤ u → contrast L u = 0) (ifov x : ℝ) :
    ∃ e, edgeResponse (.fin x) (vec (N + 1) fun i => contrast L (df * i)) (.fin df) (.fin ifov) = .ok (.fin e)
      ∧ |e - blurredEdge L (ifov * x)| ≤ edgeError K (df * N) df (ifov * x) :=
  ⟨_, edge_value _ _ hdf ifov x, edge_close h hK hdf hc ifov x⟩

/-- **C91** (relative edge response): likewise, `relative_edge_response` is the share of a line's light that falls within one
pixel, centred on the line. -/
theorem C91_rer {L : ℝ → ℝ} (h : LineSpread L) {K : ℝ} (hK : ∀ u v, |contrast L u - contrast L v| ≤ K * |u - v|)
    {df : ℝ} (hdf : 0 ≤ df) {N : ℕ} (hc : ∀ u, df * N ≤ u → contrast L u = 0) {ifov : ℝ} :
    ∃ r, relativeEdgeResponse (vec (N + 1) fun i => contrast L (df * i)) (.fin df) (.fin ifov) = .ok (.fin r)
      ∧ |r - ∫ t in (-(ifov / 2))..(ifov / 2), L t| ≤ 2 * edgeError K (df * N) df (ifov / 2) := by
  refine ⟨_, rer_value _ _ hdf ifov, ?_⟩
  have h1 := edge_close h hK hdf hc ifov 0.5
  have e1 : ifov * 0.5 = ifov / 2 := by ring
  rw [e1] at h1
  have half : ∫ t in Iic (0 : ℝ), L t = 1 / 2 := by
    have h1 := integral_comp_neg_Iic (0 : ℝ) L
    simp only [h.even, neg_zero] at h1
    have h2 := intervalIntegral.integral_Iic_add_Ioi (f := L) (b := 0) (μ := volume) h.integrable.integrableOn h.integrable.integrableOn
    rw [h.total] at h2
    linarith
  have split : blurredEdge L (ifov / 2) = 1 / 2 + ∫ t in (0 : ℝ)..(ifov / 2), L t := by
    have := intervalIntegral.integral_Iic_sub_Iic (f := L) (a := 0) (b := ifov / 2) (μ := volume) h.integrable.integrableOn
      h.integrable.integrableOn
    unfold blurredEdge
    linarith
  have sym : ∫ t in (-(ifov / 2))..(ifov / 2), L t = 2 * ∫ t in (0 : ℝ)..(ifov / 2), L t := by
    rw [← intervalIntegral.integral_add_adjacent_intervals (b := 0) (h.continuous.intervalIntegrable _ _)
      (h.continuous.intervalIntegrable _ _)]
    have := intervalIntegral.integral_comp_neg (f := L) (a := 0) (b := ifov / 2)
    simp only [h.even, neg_zero] at this
    rw [← this]; ring
  rw [sym, show ∀ a b : ℝ, 2 * a - 1 - 2 * b = 2 * (a - (1 / 2 + b)) by intros; ring, ← split, abs_mul,
    abs_of_pos (show (0 : ℝ) < 2 by norm_num)]
  exact mul_le_mul_of_nonneg_left h1 (by norm_num)

/-- **C91** (overshoot): a line spread function, being non-negative, produces no overshoot: `edge_height_overshoot` exceeds the
brightness 1 of the bright side by no more than the sampling error at 3 pixels, and it is not below the blurred edge at 1.25
pixels by more than that. -/
theorem C91_overshoot {L : ℝ → ℝ} (h : LineSpread L) {K : ℝ} (hK : ∀ u v, |contrast L u - contrast L v| ≤ K * |u - v|)
    {df : ℝ} (hdf : 0 ≤ df) {N : ℕ} (hc : ∀ u, df * N ≤ u → contrast L u = 0) {ifov : ℝ} :
    ∃ e, edgeHeightOvershoot (vec (N + 1) fun i => contrast L (df * i)) (.fin df) (.fin ifov) = .ok (.fin e)
      ∧ e ≤ 1 + edgeError K (df * N) df (ifov * 3)
      ∧ blurredEdge L (ifov * 1.25) - edgeError K (df * N) df (ifov * 1.25) ≤ e := by
  obtain ⟨E, e, hE, he, -, -, ⟨i, hi, hei⟩, h1⟩ := C52_overshoot (N + 1) (fun i => contrast L (df * i)) hdf ifov
  have hEv : ∀ i : ℕ, i < 9 → |E i - blurredEdge L (ifov * (1 + i / 4))| ≤ edgeError K (df * N) df (ifov * (1 + i / 4)) := by
    intro i hi
    obtain ⟨a, ha, hb⟩ := C91_edge h hK hdf hc ifov (1 + i / 4)
    rw [hE i hi, Except.ok.injEq, XR.fin_inj] at ha
    rw [ha]; exact hb
  have hK0 : 0 ≤ K := by
    have := (abs_nonneg _).trans (hK 1 0)
    simpa using this
  have hle : ∀ x, blurredEdge L x ≤ 1 := by
    intro x
    rw [← h.total]
    exact setIntegral_le_integral h.integrable (Filter.Eventually.of_forall h.nonneg)
  refine ⟨e, he, ?_, ?_⟩
  · have h2 := (abs_le.mp (hEv i hi)).2
    have h3 := hle (ifov * (1 + i / 4))
    have h4 : edgeError K (df * N) df (ifov * (1 + i / 4)) ≤ edgeError K (df * N) df (ifov * 3) := by
      have hi8 : (i : ℝ) ≤ 8 := by exact_mod_cast Nat.lt_succ_iff.mp hi
      have h5 : |ifov * (1 + (i : ℝ) / 4)| ≤ |ifov * 3| := by
        rw [abs_mul, abs_mul, abs_of_nonneg (show (0 : ℝ) ≤ 1 + i / 4 by positivity), abs_of_pos (show (0 : ℝ) < 3 by norm_num)]
        exact mul_le_mul_of_nonneg_left (by linarith) (abs_nonneg _)
      have hp := Real.pi_pos
      unfold edgeError
      gcongr
    linarith
  · have h2 := (abs_le.mp (hEv 1 (by norm_num))).1
    have e1 : ifov * (1 + ((1 : ℕ) : ℝ) / 4) = ifov * 1.25 := by norm_num
    rw [e1] at h2
    linarith

/-! ## An example: a triangular MTF -/

/-- The MTF falls linearly from 1 at frequency 0 to 0 at frequency 1. -/
def tri (u : ℝ) : ℝ := max 0 (1 - |u|)

theorem tri_continuous : Continuous tri := by unfold tri; fun_prop

theorem tri_even (u : ℝ) : tri (-u) = tri u := by unfold tri; rw [abs_neg]

theorem tri_zero {u : ℝ} (hu : 1 ≤ |u|) : tri u = 0 := by unfold tri; exact max_eq_left (by linarith)

theorem tri_integrable : Integrable tri := by
  apply tri_continuous.integrable_of_hasCompactSupport
  apply HasCompactSupport.of_support_subset_isCompact (isCompact_Icc (a := -1) (b := 1))
  intro u hu
  rw [Function.mem_support] at hu
  rw [mem_Icc, ← abs_le]
  by_contra hlt
  exact hu (tri_zero (by linarith))

theorem tri_lipschitz (u v : ℝ) : |tri u - tri v| ≤ 1 * |u - v| := by
  unfold tri
  have h1 := abs_max_sub_max_le_abs 0 (1 - |u|) (1 - |v|)
  have h2 := abs_abs_sub_abs_le_abs_sub v u
  calc |max 0 (1 - |u|) - max 0 (1 - |v|)| ≤ |(1 - |u|) - (1 - |v|)| := by
        rw [max_comm 0, max_comm 0]; exact abs_max_sub_max_le_abs _ _ _
    _ = |(|v| - |u|)| := by ring_nf
    _ ≤ |v - u| := h2
    _ = _ := by rw [abs_sub_comm, one_mul]

/-- Its line spread. -/
def triSpread (x : ℝ) : ℝ := ∫ u, tri u * Real.cos (2 * Real.pi * x * u)

theorem triSpread_value {x : ℝ} (hx : x ≠ 0) : triSpread x = (Real.sin (Real.pi * x) / (Real.pi * x)) ^ 2 := by
  have hp := Real.pi_pos.ne'
  unfold triSpread
  have habs : ∀ u, tri u * Real.cos (2 * Real.pi * x * u) = (fun v => tri v * Real.cos (2 * Real.pi * x * v)) |u| := by
    intro u
    rcases abs_choice u with hu | hu
    · simp only [hu]
    · simp only [hu, tri_even, mul_neg, Real.cos_neg]
  rw [show (∫ u, tri u * Real.cos (2 * Real.pi * x * u)) = ∫ u, (fun v => tri v * Real.cos (2 * Real.pi * x * v)) |u| by
    congr 1; funext u; exact habs u, integral_comp_abs (f := fun v => tri v * Real.cos (2 * Real.pi * x * v))]
  have hint : IntegrableOn (fun v => tri v * Real.cos (2 * Real.pi * x * v)) (Ioi 0) :=
    (tri_integrable.mul_bdd (c := 1) (g := fun v => Real.cos (2 * Real.pi * x * v)) (by fun_prop)
      (Filter.Eventually.of_forall fun u => Real.abs_cos_le_one _)).integrableOn
  rw [← intervalIntegral.integral_interval_add_Ioi hint (hint.mono_set (Ioi_subset_Ioi zero_le_one)),
    setIntegral_eq_zero_of_forall_eq_zero (t := Ioi 1) (fun u hu => by
      have hu' : (1 : ℝ) < u := hu
      rw [tri_zero (by rw [abs_of_pos (by linarith)]; linarith), zero_mul]), add_zero]
  have e : ∫ u in (0 : ℝ)..1, tri u * Real.cos (2 * Real.pi * x * u)
      = ∫ u in (0 : ℝ)..1, (1 - u) * Real.cos (2 * Real.pi * x * u) := by
    apply intervalIntegral.integral_congr
    intro u hu
    rw [uIcc_of_le zero_le_one] at hu
    simp only [tri]
    rw [abs_of_nonneg hu.1, max_eq_right (by linarith [hu.2])]
  rw [e]
  set k := 2 * Real.pi * x with hk
  have hk0 : k ≠ 0 := by rw [hk]; positivity
  have hd : ∀ t ∈ uIcc (0 : ℝ) 1, HasDerivAt (fun t => (1 - t) * Real.sin (k * t) / k - Real.cos (k * t) / k ^ 2)
      ((1 - t) * Real.cos (k * t)) t := by
    intro t _
    have h1 : HasDerivAt (fun t => k * t) k t := by simpa using (hasDerivAt_id t).const_mul k
    have h2 := ((((hasDerivAt_id t).const_sub 1).mul h1.sin).div_const k).sub ((h1.cos).div_const (k ^ 2))
    convert! h2 using 1
    simp only [id]
    field_simp
    ring
  rw [intervalIntegral.integral_eq_sub_of_hasDerivAt hd (Continuous.intervalIntegrable (by fun_prop) _ _)]
  have hc : Real.cos k = 1 - 2 * Real.sin (Real.pi * x) ^ 2 := by
    rw [hk, show 2 * Real.pi * x = 2 * (Real.pi * x) by ring, Real.cos_two_mul, Real.cos_sq']; ring
  simp only [mul_one, mul_zero, sub_self, zero_mul, zero_div, sub_zero, Real.sin_zero, Real.cos_zero, one_mul, zero_sub, hc]
  rw [hk]
  field_simp
  ring

theorem tri_fourier : 𝓕 (fun u => (tri u : ℂ)) = fun x => (triSpread x : ℂ) := by
  funext x
  exact even_fourier tri_integrable tri_even x

theorem triSpread_even (x : ℝ) : triSpread (-x) = triSpread x := by
  unfold triSpread
  congr 1; funext u
  rw [show 2 * Real.pi * -x * u = -(2 * Real.pi * x * u) by ring, Real.cos_neg]

theorem triSpread_continuous : Continuous triSpread := by
  have h : Continuous (𝓕 (fun u => (tri u : ℂ))) :=
    VectorFourier.fourierIntegral_continuous Real.continuous_fourierChar (by fun_prop) tri_integrable.ofReal
  rw [tri_fourier] at h
  have := Complex.continuous_re.comp h
  exact this

theorem triSpread_le_one (x : ℝ) : triSpread x ≤ 1 := by
  have hc := triSpread_continuous
  rcases eq_or_ne x 0 with rfl | hx
  · have hd : DenseRange (fun y : {y : ℝ // y ≠ 0} => (y : ℝ)) := by
      have := dense_compl_singleton (0 : ℝ)
      rw [DenseRange, Subtype.range_coe_subtype]
      exact this
    refine hd.induction_on (p := fun x => triSpread x ≤ 1) 0 (isClosed_le hc continuous_const) fun y => ?_
    rw [triSpread_value y.2]
    have h1 : |Real.sin (Real.pi * y) / (Real.pi * y)| ≤ 1 := by
      rw [abs_div]
      exact div_le_one_of_le₀ Real.abs_sin_le_abs (abs_nonneg _)
    rw [← sq_abs]
    exact pow_le_one₀ (abs_nonneg _) h1
  · rw [triSpread_value hx]
    have h1 : |Real.sin (Real.pi * x) / (Real.pi * x)| ≤ 1 := by
      rw [abs_div]
      exact div_le_one_of_le₀ Real.abs_sin_le_abs (abs_nonneg _)
    rw [← sq_abs]
    exact pow_le_one₀ (abs_nonneg _) h1

theorem triSpread_nonneg (x : ℝ) : 0 ≤ triSpread x := by
  rcases eq_or_ne x 0 with rfl | hx
  · unfold triSpread
    apply integral_nonneg
    intro u
    simp only [mul_zero, zero_mul, Real.cos_zero, mul_one]
    exact le_max_left _ _
  · rw [triSpread_value hx]; positivity

theorem triSpread_integrable : Integrable triSpread := by
  apply (integrable_inv_one_add_sq.const_mul 2).mono' triSpread_continuous.aestronglyMeasurable
  refine Filter.Eventually.of_forall fun x => ?_
  rw [Real.norm_of_nonneg (triSpread_nonneg x), ← div_eq_mul_inv, le_div_iff₀ (by positivity)]
  have h1 := triSpread_le_one x
  have h2 : triSpread x * x ^ 2 ≤ 1 := by
    rcases eq_or_ne x 0 with rfl | hx
    · simp
    · rw [triSpread_value hx]
      have hp := Real.pi_gt_three
      have e : (Real.sin (Real.pi * x) / (Real.pi * x)) ^ 2 * x ^ 2 = Real.sin (Real.pi * x) ^ 2 / Real.pi ^ 2 := by
        field_simp
      rw [e, div_le_one (by positivity)]
      have := Real.sin_sq_le_one (Real.pi * x)
      nlinarith
  linarith

theorem triSpread_contrast : contrast triSpread = tri := by
  funext u
  have h := Continuous.fourierInv_fourier_eq (f := fun u => (tri u : ℂ)) (by have := tri_continuous; fun_prop)
    tri_integrable.ofReal (by rw [tri_fourier]; exact triSpread_integrable.ofReal)
  rw [tri_fourier] at h
  have h2 := congrFun h u
  rw [Real.fourierInv_eq_fourier_neg, even_fourier triSpread_integrable triSpread_even] at h2
  have h3 := Complex.ofReal_injective h2
  rw [← h3]
  unfold contrast
  congr 1; funext x
  rw [show 2 * Real.pi * -u * x = -(2 * Real.pi * u * x) by ring, Real.cos_neg]

theorem triSpread_lineSpread : LineSpread triSpread where
  continuous := triSpread_continuous
  nonneg := triSpread_nonneg
  even := triSpread_even
  integrable := triSpread_integrable
  total := by
    have : contrast triSpread 0 = 1 := by rw [triSpread_contrast]; simp [tri]
    simpa [contrast] using this

/-- A triangular MTF with cutoff 1, sampled 1001 times, and a pixel of half a period of the cutoff: the relative edge response
is within 0.2 percent of the share of the line's light in a pixel. -/
example : ∃ r, relativeEdgeResponse (vec 1001 fun i => contrast triSpread (1e-3 * i)) (.fin 1e-3) (.fin 0.5) = .ok (.fin r)
    ∧ |r - ∫ t in (-(0.5 / 2 : ℝ))..(0.5 / 2), triSpread t| ≤ 0.002 := by
  obtain ⟨r, h1, h2⟩ := C91_rer triSpread_lineSpread (K := 1) (by rw [triSpread_contrast]; exact tri_lipschitz)
    (df := 1e-3) (by norm_num) (N := 1000) (by
      intro u hu
      norm_num at hu
      rw [triSpread_contrast, tri_zero (by rw [abs_of_pos (by linarith)]; exact hu)]) (ifov := 0.5)
  refine ⟨r, h1, h2.trans ?_⟩
  unfold edgeError
  have hp := Real.pi_lt_d2
  rw [abs_of_pos (by norm_num)]
  norm_num
  linarith

end PyBSM
