import Verif.Model.DoubleEdge
import Verif.Lemmas.DoubleGiqe
import Verif.Lemmas.Rounded
import Verif.Lemmas.Edge
import Mathlib.Analysis.SpecialFunctions.Trigonometric.Bounds
import Mathlib.Analysis.Real.Pi.Bounds

/-!
# C109: the edge metrics under small errors

Rounding and small changes of the MTF leave edge response and relative edge response nearly unchanged; the edge height
overshoot can jump.
-/

noncomputable section

open Classical

namespace PyBSM

open Spec

variable {fl sinD : ℝ → ℝ}

theorem Spec.WithinFactor.add {δ r x s y : ℝ} (h : WithinFactor δ r x) (h' : WithinFactor δ s y) :
    WithinFactor δ (r + s) (x + y) := by
  have key : ∀ a b : ℝ, WithinFactor δ a b → a ≤ Real.exp δ * b := by
    intro a b h
    have := (abs_le.mp h.2.2).2
    have h1 : Real.log a ≤ Real.log (Real.exp δ * b) := by
      rw [Real.log_mul (Real.exp_pos _).ne' h.2.1.ne', Real.log_exp]; linarith
    exact (Real.log_le_log_iff h.1 (mul_pos (Real.exp_pos _) h.2.1)).mp h1
  have hp : 0 < r + s := add_pos h.1 h'.1
  have hq : 0 < x + y := add_pos h.2.1 h'.2.1
  have up : ∀ a b : ℝ, 0 < a → 0 < b → a ≤ Real.exp δ * b → Real.log a - Real.log b ≤ δ := by
    intro a b ha hb hab
    have := Real.log_le_log ha hab
    rw [Real.log_mul (Real.exp_pos _).ne' hb.ne', Real.log_exp] at this
    linarith
  refine ⟨hp, hq, abs_le.mpr ⟨?_, ?_⟩⟩
  · have := up _ _ hq hp (by rw [mul_add]; exact add_le_add (key _ _ h.symm) (key _ _ h'.symm))
    linarith
  · exact up _ _ hp hq (by rw [mul_add]; exact add_le_add (key _ _ h) (key _ _ h'))

theorem Apx.of_factor {k r x : ℝ} (h : WithinFactor (k * 1e-15) r x) (hk : k ≤ 50) : Apx (k + 1) r x x := by
  have h0 := h.nonneg
  refine ⟨(h.error (by linarith)).trans ?_, (abs_of_pos h.2.1).le⟩
  have := h.2.1
  apply mul_le_mul_of_nonneg_right _ this.le
  linarith

theorem freq_within (hfl : RoundsToNearest fl) {df : ℝ} (hdf : 0 < df) (i : ℕ) :
    WithinFactor (2 * 1e-15) (edgeFreqD fl df i) (df * i + 1e-6) := by
  unfold edgeFreqD
  have h6 : WithinFactor 1e-15 (fl 1e-6) 1e-6 := fl_within hfl (by norm_num)
  rcases Nat.eq_zero_or_pos i with rfl | hi
  · rw [Nat.cast_zero, mul_zero, hfl.zero, zero_add, zero_add]
    exact (h6.round hfl).mono (by norm_num)
  · have hi' : 0 < df * (i : ℝ) := mul_pos hdf (by exact_mod_cast hi)
    exact (((fl_within hfl hi').add h6).round hfl).mono (by norm_num)

theorem term_apx (hfl : RoundsToNearest fl) (hs : ∀ x, |sinD x - Real.sin x| ≤ 1e-15 * |Real.sin x|) {m : ℕ → ℝ} {M df ifov x : ℝ}
    (hdf : 0 < df) (hi : 0 < ifov) {i : ℕ} (hm : |m i| ≤ M) :
    Apx 17 (edgeTermD fl sinD x m df ifov i)
      (m i * Real.sin (2 * Real.pi * (df * i + 1e-6) * (ifov * x)) / (df * i + 1e-6)) (M * (2 * Real.pi * ifov * |x|)) := by
  have hw := freq_within hfl hdf i
  have hM : 0 ≤ M := (abs_nonneg _).trans hm
  unfold edgeTermD
  generalize edgeFreqD fl df i = w' at *
  generalize df * (i : ℝ) + 1e-6 = w at *
  have hw0 := hw.2.1
  have hpi : WithinFactor 1e-15 (fl Real.pi) Real.pi := fl_within hfl Real.pi_pos
  have two : WithinFactor 0 (2 : ℝ) 2 := WithinFactor.refl (by norm_num)
  have hP : WithinFactor (6 * 1e-15) (fl (fl (fl (2 * fl Real.pi) * w') * ifov)) (2 * Real.pi * w * ifov) :=
    (((((two.mul hpi).round hfl).mul hw).round hfl).mul (WithinFactor.refl hi)).round hfl |>.mono (by norm_num)
  have hA := ((((Apx.of_factor hP (by norm_num)).mul (Apx.of (le_refl |x|)) (by norm_num) (by norm_num)).round hfl
    (by norm_num)).mono (k' := 9) (by norm_num))
  generalize fl (fl (fl (fl (2 * fl Real.pi) * w') * ifov) * x) = arg' at *
  generalize hP' : 2 * Real.pi * w * ifov = P at *
  have hP0 := hP.2.1
  have hS : Apx 11 (sinD arg') (Real.sin (P * x)) (P * |x|) := by
    have hn : 0 ≤ P * |x| := by positivity
    have e0 : |P * x| = P * |x| := by rw [abs_mul, abs_of_pos hP0]
    refine ⟨?_, (Real.abs_sin_le_abs).trans e0.le⟩
    have a1 := hs arg'
    have a2 : |Real.sin arg'| ≤ |arg'| := Real.abs_sin_le_abs
    have a3 : |arg'| ≤ |arg' - P * x| + |P * x| := by
      have := abs_add_le (arg' - P * x) (P * x)
      simpa using this
    have a4 : |Real.sin arg' - Real.sin (P * x)| ≤ |arg' - P * x| := by
      have := Real.abs_sin_sub_sin_le arg' (P * x)
      exact this
    have a5 := abs_sub_le (sinD arg') (Real.sin arg') (Real.sin (P * x))
    have a6 := hA.1
    linarith
  have hq : Apx 3 (m i / w') (m i / w) (M / w) := by
    have hinv : WithinFactor (2 * 1e-15) (1 / w') (1 / w) :=
      ((WithinFactor.refl (x := 1) one_pos).div hw).mono (by norm_num)
    have e := hinv.error (by norm_num)
    constructor
    · rw [show m i / w' - m i / w = m i * (1 / w' - 1 / w) by ring, abs_mul]
      calc |m i| * |1 / w' - 1 / w| ≤ M * (1.02 * (2 * 1e-15) * (1 / w)) := mul_le_mul hm e (abs_nonneg _) hM
        _ ≤ 3 * 1e-15 * (M / w) := by
          rw [show M * (1.02 * (2 * 1e-15) * (1 / w)) = 1.02 * (2 * 1e-15) * (M / w) by ring]
          apply mul_le_mul_of_nonneg_right (by norm_num)
          positivity
    · rw [abs_div, abs_of_pos hw0]
      exact div_le_div_of_nonneg_right hm hw0.le
  have h := (((hq.round hfl (by norm_num)).mul hS (by norm_num) (by norm_num)).round hfl (by norm_num)).mono (k' := 17)
    (by norm_num)
  have e1 : m i / w * Real.sin (P * x) = m i * Real.sin (2 * Real.pi * w * (ifov * x)) / w := by
    rw [← hP', show 2 * Real.pi * w * ifov * x = 2 * Real.pi * w * (ifov * x) by ring]; ring
  have e2 : M / w * (P * |x|) = M * (2 * Real.pi * ifov * |x|) := by
    rw [← hP']; field_simp
  rw [e1, e2] at h
  exact h

theorem sum_apx (hfl : RoundsToNearest fl) {f' f : ℕ → ℝ} {k c : ℝ} (hk : 0 ≤ k) (t : SumTree)
    (h : ∀ i ∈ t.leaves, Apx k (f' i) (f i) c) (hd : k + t.depth ≤ 1000) :
    Apx (k + t.depth) (t.sumD fl f') ((t.leaves.map f).sum) (t.leaves.length * c) := by
  induction t with
  | zero => simp [SumTree.sumD, SumTree.leaves, SumTree.depth, Apx]
  | leaf i => simpa [SumTree.sumD, SumTree.leaves, SumTree.depth] using h i (by simp [SumTree.leaves])
  | node a b iha ihb =>
    simp only [SumTree.depth, Nat.cast_add, Nat.cast_one] at hd ⊢
    have l1 : (a.depth : ℝ) ≤ ((Max.max a.depth b.depth : ℕ) : ℝ) := by exact_mod_cast le_max_left _ _
    have l2 : (b.depth : ℝ) ≤ ((Max.max a.depth b.depth : ℕ) : ℝ) := by exact_mod_cast le_max_right _ _
    have ha := (iha (fun i hi => h i (by simp [SumTree.leaves, hi])) (by linarith)).mono (by linarith : k + a.depth ≤ k + (Max.max a.depth b.depth : ℕ))
    have hb := (ihb (fun i hi => h i (by simp [SumTree.leaves, hi])) (by linarith)).mono (by linarith : k + b.depth ≤ k + (Max.max a.depth b.depth : ℕ))
    have := (ha.add hb)
    rw [max_self] at this
    have := this.round hfl (by linarith)
    simp only [SumTree.sumD, SumTree.leaves, List.map_append, List.sum_append, List.length_append, Nat.cast_add, add_mul]
    rw [← add_assoc]
    exact this

/-- The computed edge response. -/
theorem edge_apx (hfl : RoundsToNearest fl) (hs : ∀ x, |sinD x - Real.sin x| ≤ 1e-15 * |Real.sin x|) {n : ℕ} {m : ℕ → ℝ}
    {M df ifov x : ℝ} {order : SumTree} (ho : order.leaves.Perm (List.range (n - 1))) (hdf : 1e-6 ≤ df) (hi : 0 < ifov)
    (hm : ∀ i < n, |m i| ≤ M) (hn : 6 * n + order.depth ≤ 900) :
    Apx (6 * n + 28 + order.depth) (edgeResponseD fl sinD order x m df ifov) (edge n m df ifov x)
      (1 / 2 + 2 * M * ifov * |x| * ((n - 1 : ℕ) * df)) := by
  have hdf0 : 0 < df := lt_of_lt_of_le (by norm_num) hdf
  have hnr : 6 * (n : ℝ) + order.depth ≤ 900 := by exact_mod_cast hn
  have hn0 : (0 : ℝ) ≤ n := Nat.cast_nonneg n
  have hd0 : (0 : ℝ) ≤ order.depth := Nat.cast_nonneg _
  have hstep : ∀ i ∈ order.leaves, Apx (6 * n + 1) (fl (edgeFreqD fl df (i + 1) - edgeFreqD fl df i)) df df := by
    intro i hi
    have hlt : i < n - 1 := List.mem_range.mp (ho.mem_iff.mp hi)
    refine Apx.round hfl ?_ (by linarith)
    refine ⟨?_, (abs_of_pos hdf0).le⟩
    have a1 := (freq_within hfl hdf0 (i + 1)).error (by norm_num)
    have a2 := (freq_within hfl hdf0 i).error (by norm_num)
    have b1 : ((i : ℝ) + 1) + 1 ≤ n := by exact_mod_cast (by omega : i + 1 + 1 ≤ n)
    push_cast at a1
    have c1 : df * ((i : ℝ) + 1) + 1e-6 ≤ n * df := by nlinarith
    have c2 : df * (i : ℝ) + 1e-6 ≤ n * df := by nlinarith
    generalize edgeFreqD fl df (i + 1) = p at *
    generalize edgeFreqD fl df i = q at *
    have e : p - q - df = (p - (df * ((i : ℝ) + 1) + 1e-6)) - (q - (df * i + 1e-6)) := by ring
    rw [e]
    have s := abs_sub (p - (df * ((i : ℝ) + 1) + 1e-6)) (q - (df * i + 1e-6))
    have hnd : 0 ≤ n * df := by positivity
    linarith
  set Y : ℝ := M * (2 * Real.pi * ifov * |x|) with hY
  have hterm : ∀ i ∈ order.leaves, Apx (6 * n + 22) (fl (fl (fl (edgeFreqD fl df (i + 1) - edgeFreqD fl df i) *
      fl (edgeTermD fl sinD x m df ifov (i + 1) + edgeTermD fl sinD x m df ifov i)) / 2))
      (df * (m (i + 1) * Real.sin (2 * Real.pi * (df * (i + 1 : ℕ) + 1e-6) * (ifov * x)) / (df * (i + 1 : ℕ) + 1e-6)
        + m i * Real.sin (2 * Real.pi * (df * i + 1e-6) * (ifov * x)) / (df * i + 1e-6)) / 2) (df * Y) := by
    intro i hi'
    have hlt : i < n - 1 := List.mem_range.mp (ho.mem_iff.mp hi')
    have t1 := term_apx hfl hs (x := x) hdf0 hi (hm (i + 1) (by omega))
    have t2 := term_apx hfl hs (x := x) hdf0 hi (hm i (by omega))
    have t3 := (((t1.add t2).mono (k' := 17) (by norm_num)).round hfl (by norm_num))
    have t4 := (((hstep i hi').mul t3 (by linarith) (by norm_num)).round hfl (by linarith))
    have t5 := ((t4.div (s := 2) (by norm_num)).round hfl (by linarith)).mono (k' := 6 * n + 22) (by linarith)
    have e : df * (M * (2 * Real.pi * ifov * |x|) + M * (2 * Real.pi * ifov * |x|)) / |2| = df * Y := by
      rw [hY, abs_of_pos (by norm_num : (0 : ℝ) < 2)]; ring
    rw [e] at t5
    exact t5
  have hsum := sum_apx hfl (by positivity) order hterm (by linarith)
  have hlen : order.leaves.length = n - 1 := by rw [ho.length_eq, List.length_range]
  rw [(ho.map _).sum_eq, hlen] at hsum
  have hpi : WithinFactor (2 * 1e-15) (fl (1 / fl Real.pi)) (1 / Real.pi) :=
    ((((WithinFactor.refl (x := 1) one_pos).div (fl_within hfl Real.pi_pos))).round hfl).mono (by norm_num)
  have h1 := (((Apx.of_factor hpi (by norm_num)).mul hsum (by norm_num) (by linarith)).round hfl (by linarith))
  have h2 := ((((Apx.const hfl (x := 0.5) (by norm_num)).add h1).mono (k' := 6 * n + 27 + order.depth)
    (max_le (by linarith) (by linarith))).round hfl (by linarith))
  have e1 : edge n m df ifov x = 0.5 + 1 / Real.pi * ((List.range (n - 1)).map fun i =>
      df * (m (i + 1) * Real.sin (2 * Real.pi * (df * (i + 1 : ℕ) + 1e-6) * (ifov * x)) / (df * (i + 1 : ℕ) + 1e-6)
        + m i * Real.sin (2 * Real.pi * (df * i + 1e-6) * (ifov * x)) / (df * i + 1e-6)) / 2).sum := by
    unfold edge trap
    rw [← List.sum_toFinset _ (List.nodup_range), List.toFinset_range]
    norm_num only
    rw [add_right_inj, div_eq_mul_one_div, mul_comm]
    congr 1
    apply Finset.sum_congr rfl
    intro i _
    push_cast
    ring
  have e2 : 0.5 + 1 / Real.pi * (((n - 1 : ℕ) : ℝ) * (df * Y)) = 1 / 2 + 2 * M * ifov * |x| * ((n - 1 : ℕ) * df) := by
    rw [hY]
    have := Real.pi_pos.ne'
    field_simp
    ring
  rw [← e1, e2] at h2
  exact h2.mono (by linarith)

/-- **C109** (rounding): computed in double precision, with any rounding to nearest, any sine accurate to four units in
the last place and any order of the sum, edge response and relative edge response differ from the exact ones by at most
a part in `10¹²` of the largest size they can have for samples up to `M`. -/
theorem C109_rounding (hfl : RoundsToNearest fl) (hs : ∀ x, |sinD x - Real.sin x| ≤ 1e-15 * |Real.sin x|) {n : ℕ} {m : ℕ → ℝ}
    {M df ifov : ℝ} {order : SumTree} (ho : order.leaves.Perm (List.range (n - 1))) (hdf : 1e-6 ≤ df) (hi : 0 < ifov)
    (hm : ∀ i < n, |m i| ≤ M) (hn : 6 * n + order.depth ≤ 900) :
    (∀ x, ∃ e, edgeResponse (.fin x) (vec n m) (.fin df) (.fin ifov) = .ok (.fin e)
      ∧ |edgeResponseD fl sinD order x m df ifov - e| ≤ 1e-12 * (1 / 2 + 2 * M * ifov * |x| * ((n - 1 : ℕ) * df)))
    ∧ ∃ r, relativeEdgeResponse (vec n m) (.fin df) (.fin ifov) = .ok (.fin r)
      ∧ |relativeEdgeResponseD fl sinD order m df ifov - r| ≤ 1e-12 * (1 + 2 * M * ifov * ((n - 1 : ℕ) * df)) := by
  have hdf0 : 0 < df := lt_of_lt_of_le (by norm_num) hdf
  have hnr : 6 * (n : ℝ) + order.depth ≤ 900 := by exact_mod_cast hn
  constructor
  · intro x
    refine ⟨_, edge_value n m hdf0.le ifov x, ?_⟩
    have h := (edge_apx hfl hs (x := x) ho hdf hi hm hn).mono (k' := 1000) (by linarith)
    refine h.1.trans (le_of_eq ?_)
    norm_num
  · refine ⟨_, rer_value n m hdf0.le ifov, ?_⟩
    have h1 := (edge_apx hfl hs (x := 0.5) ho hdf hi hm hn).mono (k' := 999) (by linarith)
    have h2 := (edge_apx hfl hs (x := -0.5) ho hdf hi hm hn).mono (k' := 999) (by linarith)
    have h := ((h1.sub h2).mono (k' := 999) (by norm_num)).round hfl (by norm_num)
    have e := edge_neg n m df ifov 0.5
    rw [e, show edge n m df ifov 0.5 - (1 - edge n m df ifov 0.5) = 2 * edge n m df ifov 0.5 - 1 by ring] at h
    refine h.1.trans (le_of_eq ?_)
    rw [abs_neg, abs_of_pos (by norm_num : (0 : ℝ) < 0.5)]
    ring

/-- A bounded slice moves the edge response by a bounded amount. -/
theorem edge_bound {n : ℕ} {m : ℕ → ℝ} {ε df ifov x : ℝ} (hdf : 0 ≤ df) (hi : 0 ≤ ifov) (hm : ∀ i < n, |m i| ≤ ε) :
    |edge n m df ifov x - 1 / 2| ≤ 2 * ifov * |x| * ((n - 1 : ℕ) * df) * ε := by
  unfold edge trap
  rw [add_sub_cancel_left, abs_div, abs_of_pos Real.pi_pos, div_le_iff₀ Real.pi_pos]
  refine (Finset.abs_sum_le_sum_abs _ _).trans ?_
  have hy : ∀ i < n, |m i * Real.sin (2 * Real.pi * (df * i + 1e-6) * (ifov * x)) / (df * i + 1e-6)|
      ≤ ε * (2 * Real.pi * ifov * |x|) := by
    intro i hin
    have hw : 0 < df * i + 1e-6 := by positivity
    have hε : 0 ≤ ε := (abs_nonneg _).trans (hm i hin)
    have h1 : |Real.sin (2 * Real.pi * (df * i + 1e-6) * (ifov * x))| ≤ (2 * Real.pi * ifov * |x|) * (df * i + 1e-6) := by
      refine Real.abs_sin_le_abs.trans (le_of_eq ?_)
      rw [abs_mul, abs_mul, abs_mul, abs_mul, abs_of_pos hw, abs_of_pos Real.pi_pos, abs_of_nonneg hi]
      norm_num
      ring
    rw [abs_div, abs_of_pos hw, div_le_iff₀ hw, abs_mul]
    calc _ ≤ ε * ((2 * Real.pi * ifov * |x|) * (df * i + 1e-6)) := mul_le_mul (hm i hin) h1 (abs_nonneg _) hε
      _ = _ := by ring
  calc _ ≤ ∑ _i ∈ Finset.range (n - 1), df * (ε * (2 * Real.pi * ifov * |x|)) := by
        apply Finset.sum_le_sum
        intro i hin
        have hin := Finset.mem_range.mp hin
        have a := hy i (by omega)
        have b := hy (i + 1) (by omega)
        rw [abs_mul, show df * ((i + 1 : ℕ) : ℝ) + 1e-6 - (df * (i : ℝ) + 1e-6) = df by push_cast; ring,
          abs_of_nonneg hdf]
        apply mul_le_mul_of_nonneg_left _ hdf
        rw [abs_div, abs_of_pos (by norm_num : (0 : ℝ) < 2), div_le_iff₀ (by norm_num)]
        refine (abs_add_le _ _).trans ?_
        linarith
    _ = _ := by rw [Finset.sum_const, Finset.card_range, nsmul_eq_mul]; ring

theorem edge_near {n : ℕ} {m m' : ℕ → ℝ} {ε df ifov : ℝ} (hdf : 0 ≤ df) (hi : 0 ≤ ifov)
    (hm : ∀ i < n, |m' i - m i| ≤ ε) (x : ℝ) :
    |edge n m' df ifov x - edge n m df ifov x| ≤ 2 * ifov * |x| * ((n - 1 : ℕ) * df) * ε := by
  have h := edge_affine n m' m 1 (-1) df ifov x
  have hb := edge_bound (n := n) (m := fun i => 1 * m' i + -1 * m i) (ε := ε) (x := x) hdf hi (fun i hin => by
    rw [show (1 : ℝ) * m' i + -1 * m i = m' i - m i by ring]; exact hm i hin)
  rw [h] at hb
  refine (le_of_eq ?_).trans hb
  congr 1; ring

/-- **C109** (stability): two MTF slices that differ by at most `ε` at every sample have edge responses that differ by
at most `2 · ifov · |x| · f · ε` at `x` pixels, and relative edge responses that differ by at most `2 · ifov · f · ε`,
where `f` is the highest frequency of the slice. -/
theorem C109_stable {n : ℕ} {m m' : ℕ → ℝ} {ε df ifov : ℝ} (hdf : 0 ≤ df) (hi : 0 ≤ ifov)
    (hm : ∀ i < n, |m' i - m i| ≤ ε) :
    (∀ x, ∃ e e', edgeResponse (.fin x) (vec n m) (.fin df) (.fin ifov) = .ok (.fin e)
      ∧ edgeResponse (.fin x) (vec n m') (.fin df) (.fin ifov) = .ok (.fin e')
      ∧ |e' - e| ≤ 2 * ifov * |x| * ((n - 1 : ℕ) * df) * ε)
    ∧ ∃ r r', relativeEdgeResponse (vec n m) (.fin df) (.fin ifov) = .ok (.fin r)
      ∧ relativeEdgeResponse (vec n m') (.fin df) (.fin ifov) = .ok (.fin r')
      ∧ |r' - r| ≤ 2 * ifov * ((n - 1 : ℕ) * df) * ε := by
  refine ⟨fun x => ⟨_, _, edge_value n m hdf ifov x, edge_value n m' hdf ifov x, edge_near hdf hi hm x⟩,
    _, _, rer_value n m hdf ifov, rer_value n m' hdf ifov, ?_⟩
  have h := edge_near hdf hi hm 0.5
  rw [abs_of_pos (by norm_num : (0 : ℝ) < 0.5)] at h
  rw [show 2 * edge n m' df ifov 0.5 - 1 - (2 * edge n m df ifov 0.5 - 1)
    = 2 * (edge n m' df ifov 0.5 - edge n m df ifov 0.5) by ring, abs_mul, abs_of_pos (by norm_num : (0 : ℝ) < 2)]
  linarith

/-- **C109** (overshoot, stable case): if the edge response rises throughout the range from 1 to 3 pixels for both
slices, or for neither, the overshoots differ by at most `6 · ifov · f · ε`. -/
theorem C109_overshoot_stable {n : ℕ} {m m' : ℕ → ℝ} {ε df ifov : ℝ} (hdf : 0 ≤ df) (hi : 0 ≤ ifov) (hε : 0 ≤ ε)
    (hm : ∀ i < n, |m' i - m i| ≤ ε)
    (same : (∀ i : ℕ, i < 8 → edge n m df ifov (1 + i / 4) < edge n m df ifov (1 + (i + 1 : ℕ) / 4))
      ↔ ∀ i : ℕ, i < 8 → edge n m' df ifov (1 + i / 4) < edge n m' df ifov (1 + (i + 1 : ℕ) / 4)) :
    ∃ h h', edgeHeightOvershoot (vec n m) (.fin df) (.fin ifov) = .ok (.fin h)
      ∧ edgeHeightOvershoot (vec n m') (.fin df) (.fin ifov) = .ok (.fin h')
      ∧ |h' - h| ≤ 6 * ifov * ((n - 1 : ℕ) * df) * ε := by
  obtain ⟨h, e1, p1, q1⟩ := eho_value n m hdf ifov
  obtain ⟨h', e2, p2, q2⟩ := eho_value n m' hdf ifov
  refine ⟨h, h', e1, e2, ?_⟩
  have hc : ∀ x : ℝ, 0 ≤ x → x ≤ 3 → |edge n m' df ifov x - edge n m df ifov x| ≤ 6 * ifov * ((n - 1 : ℕ) * df) * ε := by
    intro x hx hx3
    refine (edge_near hdf hi hm x).trans ?_
    rw [abs_of_nonneg hx]
    have : 0 ≤ ifov * ((n - 1 : ℕ) * df) * ε := by positivity
    nlinarith
  by_cases c : ∀ i : ℕ, i < 8 → edge n m df ifov (1 + i / 4) < edge n m df ifov (1 + (i + 1 : ℕ) / 4)
  · rw [p1 c, p2 (same.mp c)]
    exact hc _ (by norm_num) (by norm_num)
  · obtain ⟨⟨i, hi9, hie⟩, hle⟩ := q1 c
    obtain ⟨⟨j, hj9, hje⟩, hle'⟩ := q2 (fun c' => c (same.mpr c'))
    have hb : ∀ k : ℕ, k < 9 → (0 : ℝ) ≤ 1 + k / 4 ∧ (1 : ℝ) + k / 4 ≤ 3 := by
      intro k hk
      have : (k : ℝ) ≤ 8 := by exact_mod_cast (by omega : k ≤ 8)
      constructor
      · positivity
      · linarith
    have a1 := abs_le.mp (hc _ (hb i hi9).1 (hb i hi9).2)
    have a2 := abs_le.mp (hc _ (hb j hj9).1 (hb j hj9).2)
    have a3 := hle j hj9
    have a4 := hle' i hi9
    rw [abs_le]
    constructor <;> linarith

/-- The edge response of the slice `[1, t]`. -/
theorem edge_two (t x : ℝ) :
    edge 2 (fun i => if i = 0 then 1 else t) 999.999999 0.00025 x
      = 1 / 2 + 999.999999 * (1e6 * Real.sin (5e-10 * Real.pi * x) + t * Real.sin (Real.pi / 2 * x) / 1000) / (2 * Real.pi) := by
  unfold edge trap
  dsimp only
  rw [show 2 - 1 = 1 from rfl, Finset.sum_range_one]
  simp only [Nat.cast_zero, Nat.cast_one, mul_zero, zero_add, mul_one, if_true, one_ne_zero, if_false]
  rw [show 2 * Real.pi * 1e-6 * (0.00025 * x) = 5e-10 * Real.pi * x by ring,
    show 2 * Real.pi * (999.999999 + 1e-6) * (0.00025 * x) = Real.pi / 2 * x by ring]
  have := Real.pi_pos.ne'
  field_simp
  ring

theorem slice_two (t : ℝ) : [XR.fin 1, XR.fin t] = vec 2 (fun i => if i = 0 then 1 else t) := by
  simp [vec, List.range_succ]

/-- **C109** (overshoot, jump): however close two MTF slices are required to be, there are two whose overshoots differ
by more than a tenth. -/
theorem C109_overshoot_jumps {ε : ℝ} (hε : 0 < ε) :
    ∃ t t' h h' : ℝ, |t' - t| ≤ ε ∧ 0 ≤ t ∧ t' ≤ 1.03
      ∧ edgeHeightOvershoot [.fin 1, .fin t] (.fin 999.999999) (.fin 0.00025) = .ok (.fin h)
      ∧ edgeHeightOvershoot [.fin 1, .fin t'] (.fin 999.999999) (.fin 0.00025) = .ok (.fin h')
      ∧ h + 0.1 < h' := by
  have hpi := Real.pi_pos
  have hpi1 : 3.1415 < Real.pi := Real.pi_gt_d4
  have hpi2 : Real.pi < 3.1416 := Real.pi_lt_d4
  set E : ℝ → ℝ → ℝ := fun t x => edge 2 (fun i => if i = 0 then 1 else t) 999.999999 0.00025 x with hE
  have hEv : ∀ t x, E t x = 1 / 2 + 999.999999 * (1e6 * Real.sin (5e-10 * Real.pi * x)
      + t * Real.sin (Real.pi / 2 * x) / 1000) / (2 * Real.pi) := edge_two
  let S : Set ℝ := {t | 0 ≤ t ∧ ∃ i ∈ Finset.range 8, E t (1 + (i + 1 : ℕ) / 4) ≤ E t (1 + (i : ℕ) / 4)}
  have hcont : ∀ x, Continuous fun t => E t x := by
    intro x
    simp only [hEv]
    fun_prop
  have hclosed : IsClosed S := by
    have h0 : S = {t | 0 ≤ t} ∩ ⋃ i ∈ Finset.range 8, {t | E t (1 + (i + 1 : ℕ) / 4) ≤ E t (1 + (i : ℕ) / 4)} := by
      ext t; simp [S]
    rw [h0]
    refine (isClosed_le continuous_const continuous_id).inter ?_
    exact isClosed_biUnion_finset fun i _ => isClosed_le (hcont _) (hcont _)
  have hmem : (1.03 : ℝ) ∈ S := by
    refine ⟨by norm_num, 3, by simp, ?_⟩
    rw [hEv, hEv]
    have e1 : Real.pi / 2 * (1 + ((3 + 1 : ℕ) : ℝ) / 4) = Real.pi := by push_cast; ring
    have e2 : Real.pi / 2 * (1 + ((3 : ℕ) : ℝ) / 4) = Real.pi - Real.pi / 8 := by push_cast; ring
    rw [e1, e2, Real.sin_pi, Real.sin_pi_sub]
    have h8 : 0.3826 ≤ Real.sin (Real.pi / 8) := by
      rw [Real.sin_pi_div_eight]
      have h2 : Real.sqrt 2 ≤ 1.41422 := by
        rw [Real.sqrt_le_left (by norm_num)]; norm_num
      have : (0.7652 : ℝ) ≤ Real.sqrt (2 - Real.sqrt 2) := Real.le_sqrt_of_sq_le (by norm_num; linarith)
      linarith
    have hl := le_of_abs_le (Real.abs_sin_sub_sin_le (5e-10 * Real.pi * (1 + ((3 + 1 : ℕ) : ℝ) / 4))
      (5e-10 * Real.pi * (1 + ((3 : ℕ) : ℝ) / 4)))
    rw [show 5e-10 * Real.pi * (1 + ((3 + 1 : ℕ) : ℝ) / 4) - 5e-10 * Real.pi * (1 + ((3 : ℕ) : ℝ) / 4)
      = 1.25e-10 * Real.pi by push_cast; ring, abs_of_pos (by positivity)] at hl
    rw [add_le_add_iff_left]
    apply div_le_div_of_nonneg_right _ (by positivity)
    apply mul_le_mul_of_nonneg_left _ (by norm_num)
    linarith
  have hbdd : BddBelow S := ⟨0, fun t ht => ht.1⟩
  have hT := hclosed.csInf_mem ⟨_, hmem⟩ hbdd
  have hle := csInf_le hbdd hmem
  set T := sInf S with hTdef
  have hT0 : 0 < T := by
    rcases hT.1.lt_or_eq with h | h
    · exact h
    · exfalso
      obtain ⟨i, hi, hi'⟩ := hT.2
      have hi8 := Finset.mem_range.mp hi
      have hir : (i : ℝ) ≤ 7 := by exact_mod_cast (by omega : i ≤ 7)
      have hi0 : (0 : ℝ) ≤ i := Nat.cast_nonneg i
      rw [← h, hEv, hEv, zero_mul, zero_div, add_zero, zero_mul, zero_div, add_zero] at hi'
      push_cast at hi'
      have hs : Real.sin (5e-10 * Real.pi * (1 + (i : ℝ) / 4)) < Real.sin (5e-10 * Real.pi * (1 + ((i : ℝ) + 1) / 4)) := by
        apply Real.sin_lt_sin_of_lt_of_le_pi_div_two
        · have : 0 ≤ 5e-10 * Real.pi * (1 + (i : ℝ) / 4) := by positivity
          linarith
        · nlinarith
        · apply mul_lt_mul_of_pos_left _ (by positivity)
          linarith
      have := div_lt_div_of_pos_right (mul_lt_mul_of_pos_left (mul_lt_mul_of_pos_left hs (by norm_num : (0 : ℝ) < 1e6))
        (by norm_num : (0 : ℝ) < 999.999999)) (by positivity : 0 < 2 * Real.pi)
      linarith
  obtain ⟨t, ht0, htT, htε⟩ : ∃ t, 0 ≤ t ∧ t < T ∧ T - t ≤ ε := by
    refine ⟨max 0 (T - ε), le_max_left _ _, max_lt hT0 (by linarith), ?_⟩
    have := le_max_right 0 (T - ε)
    linarith
  have hmono : ∀ i : ℕ, i < 8 → E t (1 + i / 4) < E t (1 + (i + 1 : ℕ) / 4) := by
    intro i hi
    by_contra hc
    exact absurd (csInf_le hbdd (show t ∈ S from ⟨ht0, i, Finset.mem_range.mpr hi, not_lt.mp hc⟩)) (not_le.mpr htT)
  have hnot : ¬ ∀ i : ℕ, i < 8 → E T (1 + i / 4) < E T (1 + (i + 1 : ℕ) / 4) := by
    intro hc
    obtain ⟨i, hi, hi'⟩ := hT.2
    exact absurd (hc i (Finset.mem_range.mp hi)) (not_lt.mpr hi')
  obtain ⟨h, e1, p1, -⟩ := eho_value 2 (fun i => if i = 0 then 1 else t) (df := 999.999999) (by norm_num) 0.00025
  obtain ⟨h', e2, -, q2⟩ := eho_value 2 (fun i => if i = 0 then 1 else T) (df := 999.999999) (by norm_num) 0.00025
  refine ⟨t, T, h, h', ?_, ht0, hle, by rw [slice_two]; exact e1, by rw [slice_two]; exact e2, ?_⟩
  · rw [abs_of_pos (by linarith)]; exact htε
  · have r1 : h = E t 1.25 := p1 hmono
    have r2 : E T 3 ≤ h' := by
      have := (q2 hnot).2 8 (by norm_num)
      have e : (1 : ℝ) + ((8 : ℕ) : ℝ) / 4 = 3 := by norm_num
      rw [e] at this
      exact this
    have key : E t 1.25 + 0.1 < E T 3 := by
      rw [hEv, hEv]
      have s3 : Real.sin (Real.pi / 2 * 3) = -1 := by
        rw [show Real.pi / 2 * 3 = Real.pi / 2 + Real.pi by ring, Real.sin_add_pi, Real.sin_pi_div_two]
      have s1 : Real.sin (Real.pi / 2 * 1.25) ≤ 1 := Real.sin_le_one _
      have l1 : Real.sin (5e-10 * Real.pi * 1.25) ≤ 5e-10 * Real.pi * 1.25 := Real.sin_le (by positivity)
      have l2 := Real.sin_gt_sub_cube (x := 5e-10 * Real.pi * 3) (by positivity)
      have l3 : (5e-10 * Real.pi * 3) ^ 3 / 6 ≤ 1e-20 * Real.pi := by
        have : Real.pi ^ 2 ≤ 10 := by nlinarith
        rw [show (5e-10 * Real.pi * 3) ^ 3 / 6 = ((5e-10 * 3) ^ 3 / 6 * Real.pi ^ 2) * Real.pi by ring]
        apply mul_le_mul_of_nonneg_right _ hpi.le
        linarith
      have l4 : t * Real.sin (Real.pi / 2 * 1.25) ≤ T := by nlinarith
      rw [s3]
      have hd : (0 : ℝ) < 2 * Real.pi := by positivity
      rw [← sub_pos]
      have e : 1 / 2 + 999.999999 * (1e6 * Real.sin (5e-10 * Real.pi * 3) + T * -1 / 1000) / (2 * Real.pi)
          - (1 / 2 + 999.999999 * (1e6 * Real.sin (5e-10 * Real.pi * 1.25)
            + t * Real.sin (Real.pi / 2 * 1.25) / 1000) / (2 * Real.pi) + 0.1)
          = (999.999999 * (1e6 * Real.sin (5e-10 * Real.pi * 3) - T / 1000
            - 1e6 * Real.sin (5e-10 * Real.pi * 1.25) - t * Real.sin (Real.pi / 2 * 1.25) / 1000) - 0.2 * Real.pi)
            / (2 * Real.pi) := by
        field_simp
        ring
      rw [e]
      apply div_pos _ hd
      linarith
    linarith

/-- A slice of 51 samples falling from 1 to 0, added from left to right: the relative edge response is computed to
within `2e-12`. -/
example (hfl : RoundsToNearest fl) (hs : ∀ x, |sinD x - Real.sin x| ≤ 1e-15 * |Real.sin x|) :
    ∃ r, relativeEdgeResponse (vec 51 fun i => 1 - i / 50) (.fin 200) (.fin 0.0001) = .ok (.fin r)
      ∧ |relativeEdgeResponseD fl sinD (SumTree.sequential 50) (fun i => 1 - i / 50) 200 0.0001 - r| ≤ 3e-12 := by
  obtain ⟨-, r, h, hr⟩ := C109_rounding (n := 51) (m := fun i => 1 - i / 50) (M := 1) (df := 200) (ifov := 0.0001)
    (order := SumTree.sequential 50) hfl hs (by rw [SumTree.sequential_leaves]) (by norm_num) (by norm_num)
    (fun i hi => by
      have : (i : ℝ) ≤ 50 := by exact_mod_cast (by omega : i ≤ 50)
      have h0 : (0 : ℝ) ≤ i := Nat.cast_nonneg i
      rw [abs_le]; constructor <;> linarith) (by rw [SumTree.sequential_depth]; norm_num)
  refine ⟨r, h, hr.trans ?_⟩
  norm_num

/-- The same slice with an uncertainty of a hundredth in every sample. -/
example {m' : ℕ → ℝ} (hm : ∀ i < 51, |m' i - (1 - i / 50)| ≤ 0.01) :
    ∃ r r', relativeEdgeResponse (vec 51 fun i => 1 - i / 50) (.fin 200) (.fin 0.0001) = .ok (.fin r)
      ∧ relativeEdgeResponse (vec 51 m') (.fin 200) (.fin 0.0001) = .ok (.fin r') ∧ |r' - r| ≤ 0.02 := by
  obtain ⟨-, r, r', h, h', hr⟩ := C109_stable (n := 51) (m := fun i => 1 - i / 50) (m' := m') (ε := 0.01) (df := 200)
    (ifov := 0.0001) (by norm_num) (by norm_num) hm
  refine ⟨r, r', h, h', hr.trans ?_⟩
  norm_num

/-- A slice and the slice one per cent higher meet the hypotheses of the stable case: the response rises for both or for
neither. -/
example {m : ℕ → ℝ} (h1 : ∀ i < 51, |m i| ≤ 1) :
    ∃ h h', edgeHeightOvershoot (vec 51 m) (.fin 200) (.fin 0.0001) = .ok (.fin h)
      ∧ edgeHeightOvershoot (vec 51 fun i => 1.01 * m i + 0 * m i) (.fin 200) (.fin 0.0001) = .ok (.fin h')
      ∧ |h' - h| ≤ 0.06 := by
  have e : ∀ x, edge 51 (fun i => 1.01 * m i + 0 * m i) 200 0.0001 x = 1 / 2 + 1.01 * (edge 51 m 200 0.0001 x - 1 / 2) := by
    intro x
    have := edge_affine 51 m m 1.01 0 200 0.0001 x
    linarith
  obtain ⟨h, h', e, e', hr⟩ := C109_overshoot_stable (n := 51) (m := m)
    (m' := fun i => 1.01 * m i + 0 * m i) (ε := 0.01) (df := 200) (ifov := 0.0001) (by norm_num) (by norm_num)
    (by norm_num) (fun i hi => by
      rw [show 1.01 * m i + 0 * m i - m i = 0.01 * m i by ring, abs_mul, abs_of_pos (by norm_num : (0 : ℝ) < 0.01)]
      have := h1 i hi
      linarith)
    (by
      constructor
      · intro c i hi; rw [e, e]; have := c i hi; linarith
      · intro c i hi; have := c i hi; rw [e, e] at this; linarith)
  refine ⟨h, h', e, e', hr.trans ?_⟩
  norm_num

end PyBSM
