import Verif.Props.DoubleNiirs
import Verif.Props.DoubleChain

/-!
# C124: finely sampled sensors

If the detectors sample the cutoff frequency at least twelve times per cycle, the edge rises all the way to three pixels, so that its
shape is clear.
-/

noncomputable section

open Classical

namespace PyBSM

open Spec

variable {fl lgD cosD acosD sinD : ℝ → ℝ} {L : MathLib} {interp : (ℕ → ℕ → ℝ) → ℝ → ℝ → ℝ}

/-- Samples that are not negative have an integral of at least half the first of them. -/
theorem trap_ge_first {y : ℕ → ℝ} {df : ℝ} (hdf : 0 < df) (hy : ∀ i < 50, 0 ≤ y i) :
    df / 2 * y 0 ≤ trap 50 (fun i : ℕ => df * i + 1e-6) y := by
  unfold trap
  refine le_trans ?_ (Finset.single_le_sum (f := fun i : ℕ => ((df * ((i + 1 : ℕ) : ℝ) + 1e-6) - (df * i + 1e-6))
    * ((y i + y (i + 1)) / 2)) (fun i hi' => ?_) (Finset.mem_range.mpr (by norm_num : 0 < 49)))
  · have h2 := hy 1 (by norm_num)
    have h3 : (df * ((0 + 1 : ℕ) : ℝ) + 1e-6) - (df * (0 : ℕ) + 1e-6) = df := by push_cast; ring
    rw [h3]
    simp only [zero_add] at *
    nlinarith
  · have hi' : i < 49 := by simpa using hi'
    have h1 := hy i (by omega)
    have h2 := hy (i + 1) (by omega)
    have h3 : (0 : ℝ) ≤ (df * ((i + 1 : ℕ) : ℝ) + 1e-6) - (df * i + 1e-6) := by push_cast; nlinarith
    positivity

theorem trap_sub_eq (w y z : ℕ → ℝ) : trap 50 w y - trap 50 w z = trap 50 w fun i => y i - z i := by
  unfold trap
  rw [← Finset.sum_sub_distrib]
  exact Finset.sum_congr rfl fun i _ => by ring

/-- A quarter of a pixel further from the edge, the response of a finely sampled sensor is larger by at least a fifth of the product of the
frequency step and the field of view of a detector. -/
theorem edge_rise {M : ℕ → ℝ} {df ifov x : ℝ} (h0 : M 0 = 1) (hM : ∀ k, 0 ≤ M k) (hdf : 0 < df) (hi : 0 < ifov)
    (hs : 12 * (ifov * (df * 49 + 1e-6)) ≤ 1) (h3 : ifov * 1e-6 ≤ 0.001) (hx : 1 ≤ x) (hx3 : x + 1 / 4 ≤ 3) :
    0.2 * (df * ifov) ≤ edge 50 M df ifov (x + 1 / 4) - edge 50 M df ifov x := by
  have hpi := Real.pi_pos
  have hpi4 := Real.pi_lt_d2
  have hw : ∀ i : ℕ, (0 : ℝ) < df * i + 1e-6 := fun i => by positivity
  have key : edge 50 M df ifov (x + 1 / 4) - edge 50 M df ifov x
      = trap 50 (fun i : ℕ => df * i + 1e-6) (fun i : ℕ => M i * Real.sin (2 * Real.pi * (df * i + 1e-6) * (ifov * (x + 1 / 4))) / (df * i + 1e-6)
        - M i * Real.sin (2 * Real.pi * (df * i + 1e-6) * (ifov * x)) / (df * i + 1e-6)) / Real.pi := by
    rw [← trap_sub_eq]
    unfold edge
    dsimp only
    ring
  rw [key, le_div_iff₀ hpi]
  refine le_trans ?_ (trap_ge_first hdf fun i hi50 => ?_)
  · simp only [Nat.cast_zero, mul_zero, zero_add, h0, one_mul]
    rw [← sub_div, Real.sin_sub_sin]
    obtain ⟨d, hd⟩ : ∃ d, d = ifov * 1e-6 := ⟨_, rfl⟩
    have d0 : 0 < d := by rw [hd]; positivity
    have e1 : (2 * Real.pi * 1e-6 * (ifov * (x + 1 / 4)) - 2 * Real.pi * 1e-6 * (ifov * x)) / 2 = Real.pi * d / 4 := by rw [hd]; ring
    have e2 : (2 * Real.pi * 1e-6 * (ifov * (x + 1 / 4)) + 2 * Real.pi * 1e-6 * (ifov * x)) / 2 = Real.pi * d * (2 * x + 1 / 4) := by rw [hd]; ring
    rw [e1, e2]
    rw [← hd] at h3
    have p0 : 0 < Real.pi * d := by positivity
    have p1 : Real.pi * d ≤ 0.0032 := by nlinarith
    have s1 : 0.99 * (Real.pi * d / 4) ≤ Real.sin (Real.pi * d / 4) := by
      have := (Real.sin_gt_sub_cube (x := Real.pi * d / 4) (by positivity)).le
      have c : (Real.pi * d / 4) ^ 3 ≤ 0.01 * (Real.pi * d / 4) := by
        have : (Real.pi * d / 4) ^ 2 ≤ 0.01 := by
          have := pow_le_pow_left₀ (by positivity) (show Real.pi * d / 4 ≤ 0.001 by linarith) 2
          linarith
        have h4 : 0 ≤ Real.pi * d / 4 := by positivity
        nlinarith
      linarith
    have s2 : 0.99 ≤ Real.cos (Real.pi * d * (2 * x + 1 / 4)) := by
      have := Real.one_sub_sq_div_two_le_cos (x := Real.pi * d * (2 * x + 1 / 4))
      have c : (Real.pi * d * (2 * x + 1 / 4)) ^ 2 ≤ 0.02 := by
        have : Real.pi * d * (2 * x + 1 / 4) ≤ 0.0032 * 6 := mul_le_mul p1 (by linarith) (by linarith) (by norm_num)
        have := pow_le_pow_left₀ (by positivity) this 2
        linarith
      linarith
    have m := mul_le_mul s1 s2 (by norm_num) (le_trans (by positivity) s1)
    have fin : 0.98 * (Real.pi * d / 4) * 2 ≤ 2 * Real.sin (Real.pi * d / 4) * Real.cos (Real.pi * d * (2 * x + 1 / 4)) := by nlinarith
    have : df / 2 * (0.98 * (Real.pi * d / 4) * 2 / 1e-6)
        ≤ df / 2 * (2 * Real.sin (Real.pi * d / 4) * Real.cos (Real.pi * d * (2 * x + 1 / 4)) / 1e-6) := by
      refine mul_le_mul_of_nonneg_left (div_le_div_of_nonneg_right fin (by norm_num)) (by positivity)
    refine le_trans ?_ this
    rw [hd]
    have : df / 2 * (0.98 * (Real.pi * (ifov * 1e-6) / 4) * 2 / 1e-6) = 0.245 * (df * ifov * Real.pi) := by ring
    rw [this]
    have : 0 ≤ df * ifov * Real.pi := by positivity
    nlinarith
  · rw [← sub_div, ← mul_sub]
    refine div_nonneg (mul_nonneg (hM i) (sub_nonneg.mpr ?_)) (hw i).le
    have h1 : (i : ℝ) ≤ 49 := by exact_mod_cast (by omega : i ≤ 49)
    have h2 : df * i + 1e-6 ≤ df * 49 + 1e-6 := by nlinarith
    have h4 : ifov * (df * i + 1e-6) ≤ 1 / 12 := by
      have := mul_le_mul_of_nonneg_left h2 hi.le
      linarith
    have w0 := hw i
    obtain ⟨a, ha⟩ : ∃ a, a = ifov * (df * i + 1e-6) := ⟨_, rfl⟩
    have a0 : 0 < a := by rw [ha]; positivity
    rw [← ha] at h4
    have e1 : 2 * Real.pi * (df * i + 1e-6) * (ifov * x) = 2 * Real.pi * (a * x) := by rw [ha]; ring
    have e2 : 2 * Real.pi * (df * i + 1e-6) * (ifov * (x + 1 / 4)) = 2 * Real.pi * (a * (x + 1 / 4)) := by rw [ha]; ring
    rw [e1, e2]
    have h5 : a * (x + 1 / 4) ≤ 1 / 4 := by nlinarith
    have h6 : a * x ≤ a * (x + 1 / 4) := by nlinarith
    have h7 : 0 ≤ a * x := by nlinarith
    refine Real.sin_le_sin_of_le_of_le_pi_div_two ?_ ?_ ?_
    · have : 0 ≤ 2 * Real.pi * (a * x) := by positivity
      linarith
    · nlinarith
    · nlinarith

/-- **C124** (rising edges). The edge of a finely sampled sensor rises from one to three pixels, so that its shape is clear and its overshoot is
the response at 1.25 pixels, at least one half. -/
theorem C124_rising {M : ℕ → ℝ} {df ifov η : ℝ} (h0 : M 0 = 1) (hM : ∀ k, 0 ≤ M k) (hdf : 0 < df) (hi : 0 < ifov)
    (hs : 12 * (ifov * (df * 49 + 1e-6)) ≤ 1) (h3 : ifov * 1e-6 ≤ 0.001) (hη : 0 ≤ η) (hη' : 2 * η < 0.2 * (df * ifov)) :
    ClearShape M df ifov η ∧ IsOvershoot M df ifov (edge 50 M df ifov 1.25) ∧ 1 / 2 ≤ edge 50 M df ifov 1.25 := by
  have rise : ∀ i : ℕ, i < 8 → 2 * η < edge 50 M df ifov (1 + (i + 1 : ℕ) / 4) - edge 50 M df ifov (1 + i / 4) := by
    intro i hi8
    have hi' : (i : ℝ) ≤ 7 := by exact_mod_cast (by omega : i ≤ 7)
    have hi0 : (0 : ℝ) ≤ i := i.cast_nonneg
    have := edge_rise (x := 1 + i / 4) h0 hM hdf hi hs h3 (by linarith) (by linarith)
    have e : (1 : ℝ) + (i + 1 : ℕ) / 4 = 1 + i / 4 + 1 / 4 := by push_cast; ring
    rw [e]
    linarith
  refine ⟨.inl rise, ⟨fun _ => ?_, fun hn => absurd (fun i hi8 => ?_) hn⟩, ?_⟩
  · norm_num
  · have := rise i hi8
    dsimp only
    linarith
  unfold edge
  dsimp only
  have hpi := Real.pi_pos
  have hw : ∀ i : ℕ, (0 : ℝ) < df * i + 1e-6 := fun i => by positivity
  have hsin : ∀ i : ℕ, i < 50 → 0 ≤ M i * Real.sin (2 * Real.pi * (df * i + 1e-6) * (ifov * 1.25)) / (df * i + 1e-6) := by
    intro i hi50
    refine div_nonneg (mul_nonneg (hM i) (Real.sin_nonneg_of_nonneg_of_le_pi ?_ ?_)) (hw i).le
    · have := hw i; positivity
    · have h1 : (i : ℝ) ≤ 49 := by exact_mod_cast (by omega : i ≤ 49)
      have h2 : df * i + 1e-6 ≤ df * 49 + 1e-6 := by nlinarith
      have h4 := mul_le_mul_of_nonneg_left h2 hi.le
      nlinarith
  have t := trap_ge_first hdf hsin
  have y0 := hsin 0 (by norm_num)
  have : 0 ≤ trap 50 (fun i : ℕ => df * i + 1e-6) fun i : ℕ => M i * Real.sin (2 * Real.pi * (df * i + 1e-6) * (ifov * 1.25)) / (df * i + 1e-6) :=
    le_trans (mul_nonneg (by positivity) y0) t
  have := div_nonneg this hpi.le
  linarith

/-- What the bound amounts to for an ordinary rating. -/
theorem fine_bound {v e S z : ℝ} (h : v ≤ (2.9 + 1.6 * e + 2.1 / S) * 0.0006 + 1.1e-14 * (14 + 3 * |lg z| + 1.4 * e + 1 / S)) (he : e ≤ 1.5)
    (hS : 1.9 ≤ S) (h1 : 1e-10 ≤ z) (h2 : z ≤ 1e10) : v ≤ 0.004 := by
  have ten : (1 : ℝ) < 10 := by norm_num
  have hz : 0 < z := by linarith
  have sn : 2.1 / S ≤ 1.11 := by
    rw [div_le_iff₀ (by linarith)]
    linarith
  have sn' : 1 / S ≤ 1 := by
    rw [div_le_iff₀ (by linarith)]
    linarith
  have lgb : |lg z| ≤ 10 := by
    unfold lg
    rw [abs_le]
    constructor
    · rw [Real.le_logb_iff_rpow_le ten hz, Real.rpow_neg (by norm_num), show (10 : ℝ) ^ (10 : ℝ) = (10 : ℝ) ^ ((10 : ℕ) : ℝ) by norm_num,
        Real.rpow_natCast]
      norm_num at h1 ⊢
      linarith
    · rw [Real.logb_le_iff_le_rpow ten hz, show (10 : ℝ) ^ (10 : ℝ) = (10 : ℝ) ^ ((10 : ℕ) : ℝ) by norm_num, Real.rpow_natCast]
      norm_num at h2 ⊢
      linarith
  linarith

theorem small_angle {a : ℝ} (h : 2000 ≤ a) : 0.8 / a + 2e-9 ≤ 0.0006 := by
  have : 0.8 / a ≤ 0.0004 := by
    rw [div_le_iff₀ (by linarith)]
    linarith
  linarith

theorem clear_of_branch {r : ℝ} (h : r < 0.898 ∨ 0.902 ≤ r) : r * (1 + 2 * 0.0006) < 0.9 ∨ 0.9 * (1 + 2 * 0.0006) ≤ r := by
  rcases h with h | h
  · left; linarith
  · right; linarith

/-- **C124** (finely sampled). If the detectors sample the cutoff frequency between twelve and a hundred times per cycle and the line of sight is at
least a kilometre long, `δ = 0.0006` will do, whatever the shape of the MTF: a GIQE 3 score with an overshoot up to 1.5, a signal-to-noise ratio of at least
1.9 and a ground sample distance between `10^-10` and `10^10` inches per unit of relative edge response is computed to within 0.004. -/
theorem C124_finely_sampled (hfl : RoundsToNearest fl) (hlib : Accurate lgD L.sin L.exp L.pow) (hc : IsCosine cosD) (ha : IsArccos acosD)
    (hL : MathLibrary L) (hT : TenthPower L) (hI : Interpolates interp) {env : Env} {s : RealSensor} {g : RealScene} {sc : Scenario}
    {near : Bool} {B : List (Fin 6 → ℝ)} (him : Imaging env s g sc near B) (hker : s.filterKernel = [[1]])
    {order order' order'' orderK : SumTree} {pairs : List (ℝ × ℝ)}
    {t snr c δw δt δs : ℝ} (h : OrdinaryRating s g order (s.band B) (s.exposure B) c) (hframes : 0 < s.frameStacks)
    (hw : List.Forall₂ (fun p q : ℝ × ℝ => p.1 = q.1 ∧ WithinFactor δw p.2 q.2) pairs (s.band B))
    (ht : WithinFactor δt t (s.exposure B)) (hd : 11 * δt + 7 * δw ≤ 1.5e-7) (hs : WithinFactor δs snr (s.contrastSNR B)) (hds : δs ≤ 5e-4)
    (ho : order'.leaves.Perm (List.range 9999)) (hr : order'.depth ≤ 2000)
    (ho' : order''.leaves.Perm (List.range (sliceCountD fl 101 - 1))) (hr' : order''.depth ≤ 600)
    (hoK : orderK.leaves.Perm (List.range 1))
    (q1 : 0.01 ≤ s.pX / s.f * c) (q2 : s.pX / s.f * c ≤ 1 / 12) (q3 : 0.01 ≤ s.pY / s.f * c) (q4 : s.pY / s.f * c ≤ 1 / 12)
    (hfar : 1000 ≤ g.slant) :
    ∃ (m : Metrics) (x x4 y y4 gsd gp r e : ℝ), (niirs env s.toSensor sc near).1 = .ok m ∧ m.niirs = .fin y
      ∧ m.giqe34 = some (.fin (s.pY / s.f * g.slant), .fin gsd, .fin r, .fin e, .fin 1, .fin y4, .fin gp)
      ∧ niirsD fl lgD cosD acosD L interp order order' order'' orderK s g pairs t snr = .ok (.fin x, .fin x4)
      ∧ |x - y| ≤ (2.9 + 1.6 * e + 2.1 / (Real.sqrt s.frameStacks * s.contrastSNR B)) * 0.0006
        + 1.1e-14 * (14 + 3 * |lg (r / (gsd / 0.0254))| + 1.4 * e + 1 / (Real.sqrt s.frameStacks * s.contrastSNR B))
      ∧ (e ≤ 1.5 → 1.9 ≤ Real.sqrt s.frameStacks * s.contrastSNR B → 1e-10 ≤ r / (gsd / 0.0254) → r / (gsd / 0.0254) ≤ 1e10 → |x - y| ≤ 0.004)
      ∧ (2000 ≤ g.groundRange * g.altitude → (r < 0.898 ∨ 0.902 ≤ r) →
        |x4 - y4| ≤ (3.4 + 0.7 * e + 0.7 / (Real.sqrt s.frameStacks * s.contrastSNR B)) * 0.0006
          + 1.2e-14 * (17 + 3.4 * |lg (gp / 0.0254)| + 3 * |lg r| + e + 1 / (Real.sqrt s.frameStacks * s.contrastSNR B))) := by
  have hc0 : 0 < c := by linarith [h.large]
  have hlarge := h.large
  have hpx := div_pos him.pitchX h.focal
  have hpy := div_pos him.pitchY h.focal
  have hb := imaging_band him.wavelengths him.distinct him.signal
  have hM0 : s.mtf g B (fun _ _ => 1) 0 0 = 1 := by
    unfold RealSensor.mtf
    rw [opticsAt_zero him.optical g hb]; simp
  have lo : ∀ {i : ℝ}, 0 < i → i * c ≤ 1 / 12 → 12 * (i * (c / 50 * 49 + 1e-6)) ≤ 1 ∧ i * 1e-6 ≤ 0.001 := by
    intro i hi hq
    have : i * 1e-3 ≤ i * c := mul_le_mul_of_nonneg_left hlarge hi.le
    constructor <;> linarith
  have mu0 : alongU (s.mtf g B fun _ _ => 1) (c / 50) 0 = 1 := by unfold alongU; rw [Nat.cast_zero, zero_mul, hM0]
  have mv0 : alongV (s.mtf g B fun _ _ => 1) (c / 50) 0 = 1 := by unfold alongV; rw [Nat.cast_zero, zero_mul, hM0]
  have muN : ∀ k, 0 ≤ alongU (s.mtf g B fun _ _ => 1) (c / 50) k := fun k => abs_nonneg _
  have mvN : ∀ k, 0 ≤ alongV (s.mtf g B fun _ _ => 1) (c / 50) k := fun k => abs_nonneg _
  obtain ⟨x1, x2⟩ := lo hpx q2
  obtain ⟨y1, y2⟩ := lo hpy q4
  have hdf : 0 < c / 50 := by positivity
  have r1 := rer_ge mu0 muN hdf hpx (by linarith) (by linarith)
  have r2 := rer_ge mv0 mvN hdf hpy (by linarith) (by linarith)
  have hw0 : 0 ≤ δw := by
    obtain ⟨p, hp, -⟩ := h.shortest
    generalize s.band B = l at hw hp
    cases hw with
    | nil => cases hp
    | cons a _ => exact a.2.nonneg
  have ht0 := ht.nonneg
  have sm : 0.2 / g.slant ^ 2 ≤ 2e-7 := by
    rw [div_le_iff₀ (by positivity)]
    nlinarith
  have sm0 : 0 ≤ 0.2 / g.slant ^ 2 := by positivity
  have sm' : 0.125 / g.slant ^ 2 = 0.625 * (0.2 / g.slant ^ 2) := by ring
  have hE : 0 ≤ mtfError g.slant δw δt ∧ mtfError g.slant δw δt ≤ 1.675e-6 := by
    unfold mtfError
    rw [sm']
    constructor <;> linarith
  obtain ⟨E, hEe⟩ : ∃ E, E = mtfError g.slant δw δt := ⟨_, rfl⟩
  rw [← hEe] at hE
  have bud : ∀ {q r : ℝ}, 0.01 ≤ q → 0.6 * (q / 50) ≤ r → 4e-10 * (1 + q) + 4.2 * E * q ≤ (0.0006 - 1e-14) * r := by
    intro q r h1 h2
    have : E * q ≤ 1.675e-6 * q := mul_le_mul_of_nonneg_right hE.2 (by linarith)
    linarith
  have bud' : ∀ {q : ℝ}, 0.01 ≤ q → q ≤ 1 / 12 → 0 ≤ edgeRounding E q ∧ 2 * edgeRounding E q < 0.2 * (q / 50) ∧ 2 * edgeRounding E q ≤ 1e-5 := by
    intro q h1 h2
    have a1 : E * q ≤ 1.675e-6 * q := mul_le_mul_of_nonneg_right hE.2 (by linarith)
    have a0 : 0 ≤ E * q := mul_nonneg hE.1 (by linarith)
    unfold edgeRounding
    refine ⟨?_, ?_, ?_⟩ <;> linarith
  have e1 : c / 50 * (s.pX / s.f) = s.pX / s.f * c / 50 := by ring
  have e2 : c / 50 * (s.pY / s.f) = s.pY / s.f * c / 50 := by ring
  rw [e1] at r1
  rw [e2] at r2
  obtain ⟨s1, o1, l1⟩ := C124_rising mu0 muN hdf hpx x1 x2 (bud' q1 q2).1 (by rw [e1]; exact (bud' q1 q2).2.1)
  obtain ⟨s2, o2, l2⟩ := C124_rising mv0 mvN hdf hpy y1 y2 (bud' q3 q4).1 (by rw [e2]; exact (bud' q3 q4).2.1)
  have f1 := (bud' q1 q2).2.2
  have f2 := (bud' q3 q4).2.2
  have g1 := bud q1 r1
  have g2 := bud q3 r2
  subst hEe
  obtain ⟨m, x, x4, y, y4, gsd, gp, k1, k2, k3, k4, k5, k6⟩ := C124_score hfl hlib hc ha hL hT hI him hker (δ := 0.0006) h hframes hw (by linarith) ht
    (by linarith) hs ho hr ho' hr' hoK rfl rfl o1 o2 (lt_of_lt_of_le (by linarith) r1) (lt_of_lt_of_le (by linarith) r2) (by linarith)
    (by linarith) (by norm_num) s1 s2 g1 g2 (by linarith) (by linarith) (by linarith) (by linarith)
  refine ⟨m, x, x4, y, y4, gsd, gp, _, _, k1, k2, k3, k4, k5, fun a1 a2 a3 a4 => fine_bound k5 a1 a2 a3 a4,
    fun b1 b2 => k6 (small_angle b1) (clear_of_branch b2)⟩

/-- **C124** (from the inputs). A whole rating with GIQE 3 in floating-point arithmetic: the radiances, the spectra of the sensor, the weights, the
exposure time and the signal-to-noise ratio with relative rounding errors up to `u` in every operation, from there on in double precision (as in C122). For
a finely sampled scene, with `K u` at most `4 10^-9` and a contrast that is not too faint for the rounding errors, an ordinary score is within 0.004 of the
score of the report in exact arithmetic. -/
theorem C124_inputs (hfl : RoundsToNearest fl) (hlib : Accurate lgD L.sin L.exp L.pow) (hc : IsCosine cosD) (ha : IsArccos acosD)
    (hL : MathLibrary L) (hT : TenthPower L) (hI : Interpolates interp) {u : ℝ} (h0 : 0 ≤ u) {env : Env} {s : RealSensor}
    {g : RealScene} {sc : Scenario} {near : Bool} {B : List (Fin 6 → ℝ)} (him : Imaging env s g sc near B) (hker : s.filterKernel = [[1]])
    (htime : 0 < s.intTime) {k c : ℕ} (hs : s.WellConditioned k c B.length fun i => B.getD i 0 0) (hA : ∀ a ∈ B, ∀ j, 0 ≤ a j)
    (hk : ∀ a ∈ B, PlanckWithin k (a 0) 282 ∧ PlanckWithin k (a 0) 280) {order₁ order₂ : SumTree}
    (ho₁ : order₁.leaves.Perm (List.range (B.length - 1))) (ho₂ : order₂.leaves.Perm (List.range s.otherNoise.length))
    {K : ℕ} (hK : K = 1752 + 18 * k + 36 * c + 6 * order₁.depth + order₂.depth) (hKu : K * u ≤ 4e-9) {κ : ℝ}
    (hbright : s.electrons B s.backgroundAt < s.electrons B s.targetAt)
    (hκ : s.electrons B s.targetAt + s.electrons B s.backgroundAt ≤ κ * (s.electrons B s.targetAt - s.electrons B s.backgroundAt))
    (hfaint : K * u * κ ≤ 2.4e-4) {w : ℕ → ℝ} {t snr : ℝ} (hr : RadiometryComputed u order₁ order₂ s B w t snr)
    {order order' order'' orderK : SumTree} {q : ℝ} (h : OrdinaryRating s g order (s.band B) (s.exposure B) q)
    (hframes : 0 < s.frameStacks) (ho : order'.leaves.Perm (List.range 9999)) (hr' : order'.depth ≤ 2000)
    (ho' : order''.leaves.Perm (List.range (sliceCountD fl 101 - 1))) (hr'' : order''.depth ≤ 600)
    (hoK : orderK.leaves.Perm (List.range 1))
    (q1 : 0.01 ≤ s.pX / s.f * q) (q2 : s.pX / s.f * q ≤ 1 / 12) (q3 : 0.01 ≤ s.pY / s.f * q) (q4 : s.pY / s.f * q ≤ 1 / 12)
    (hfar : 1000 ≤ g.slant) :
    ∃ (m : Metrics) (x x4 y y4 gsd gp r e : ℝ), (niirs env s.toSensor sc near).1 = .ok m ∧ m.niirs = .fin y
      ∧ m.giqe34 = some (.fin (s.pY / s.f * g.slant), .fin gsd, .fin r, .fin e, .fin 1, .fin y4, .fin gp)
      ∧ niirsD fl lgD cosD acosD L interp order order' order'' orderK s g (keptPairs B.length (fun i => B.getD i 0 0) w) t snr
        = .ok (.fin x, .fin x4)
      ∧ |x - y| ≤ (2.9 + 1.6 * e + 2.1 / (Real.sqrt s.frameStacks * s.contrastSNR B)) * 0.0006
        + 1.1e-14 * (14 + 3 * |lg (r / (gsd / 0.0254))| + 1.4 * e + 1 / (Real.sqrt s.frameStacks * s.contrastSNR B))
      ∧ (e ≤ 1.5 → 1.9 ≤ Real.sqrt s.frameStacks * s.contrastSNR B → 1e-10 ≤ r / (gsd / 0.0254) → r / (gsd / 0.0254) ≤ 1e10 → |x - y| ≤ 0.004)
      ∧ (2000 ≤ g.groundRange * g.altitude → (r < 0.898 ∨ 0.902 ≤ r) →
        |x4 - y4| ≤ (3.4 + 0.7 * e + 0.7 / (Real.sqrt s.frameStacks * s.contrastSNR B)) * 0.0006
          + 1.2e-14 * (17 + 3.4 * |lg (gp / 0.0254)| + 3 * |lg r| + e + 1 / (Real.sqrt s.frameStacks * s.contrastSNR B))) := by
  obtain ⟨δw, δt, δs, w1, w2, w3, w4, w5⟩ := chain_within h0 him htime hs hA hk ho₁ ho₂ hK hKu hbright hκ hfaint hr h.exposed
  exact C124_finely_sampled hfl hlib hc ha hL hT hI him hker h hframes w1 w2 w3 w4 w5 ho hr' ho' hr'' hoK q1 q2 q3 q4 hfar

end PyBSM
