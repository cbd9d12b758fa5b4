import Verif.Spec.DoubleMtf
import Verif.Lemmas.DoubleOtfRound
import Verif.Lemmas.DoubleGiqe
import Mathlib.Analysis.SpecialFunctions.Trigonometric.Sinc
import Mathlib.Analysis.SpecialFunctions.Trigonometric.Bounds

/-!
# Rounding errors of sinc functions, exponentials and weighted means
-/

noncomputable section

open Classical

namespace PyBSM

open Spec

variable {fl : ℝ → ℝ} {L : MathLib}

/-! ## Exponentials -/

theorem exp_neg_lip {x y : ℝ} (h : x ≤ y) : Real.exp (-x) - Real.exp (-y) ≤ (y - x) * Real.exp (-x) := by
  have h1 : Real.exp (-y) = Real.exp (-x) * Real.exp (-(y - x)) := by rw [← Real.exp_add]; congr 1; ring
  have h2 := Real.add_one_le_exp (-(y - x))
  have h3 := Real.exp_pos (-x)
  rw [h1]
  nlinarith

theorem exp_close {z z' d : ℝ} (hd : |z' - z| ≤ d) (hz : z ≤ 0) (hd1 : d ≤ 1) : |Real.exp z' - Real.exp z| ≤ 3 * d := by
  obtain ⟨h1, h2⟩ := abs_le.mp hd
  have hd0 : 0 ≤ d := (abs_nonneg _).trans hd
  have e3 : Real.exp 1 ≤ 3 := by have := Real.exp_one_lt_d9; linarith
  have key : ∀ a b : ℝ, a ≤ b → b ≤ 1 → b - a ≤ d → |Real.exp b - Real.exp a| ≤ 3 * d := by
    intro a b hab hb hba
    have h := exp_neg_lip (x := -b) (y := -a) (by linarith)
    rw [neg_neg, neg_neg] at h
    have hm : Real.exp a ≤ Real.exp b := Real.exp_le_exp.mpr hab
    have hb' : Real.exp b ≤ 3 := (Real.exp_le_exp.mpr hb).trans e3
    have := Real.exp_pos b
    rw [abs_of_nonneg (by linarith)]
    nlinarith
  rcases le_total z z' with h | h
  · exact key z z' h (by linarith) (by linarith)
  · rw [abs_sub_comm]; exact key z' z h (by linarith) (by linarith)

theorem Spec.MathLibrary.exp_abs (hL : MathLibrary L) {z z' d : ℝ} (hd : |z' - z| ≤ d) (hz : z ≤ 0) (hd1 : d ≤ 1) :
    |L.exp z' - Real.exp z| ≤ 3 * d + 3e-15 := by
  have h1 := hL.exp z'
  have h2 := exp_close hd hz hd1
  have h3 : Real.exp z' ≤ 3 := by
    have : z' ≤ 1 := by have := (abs_le.mp hd).2; linarith
    have e3 : Real.exp 1 ≤ 3 := by have := Real.exp_one_lt_d9; linarith
    exact (Real.exp_le_exp.mpr this).trans e3
  have h4 := abs_sub_le (L.exp z') (Real.exp z') (Real.exp z)
  linarith

/-- The exponential of a negative number with a relative error. -/
theorem Spec.MathLibrary.exp_rel (hL : MathLibrary L) {k z' a : ℝ} (h : Apx k z' (-a) a) (hk0 : 0 ≤ k) (hk : k ≤ 1000) :
    |L.exp z' - Real.exp (-a)| ≤ (k + 1) * 1e-15 ∧ z' ≤ 0 := by
  have ha := h.size
  have hz := h.1
  have hδ0 : 0 ≤ k * 1e-15 := by positivity
  have hδ1 : k * 1e-15 ≤ 1e-12 := by linarith
  generalize hδ : k * 1e-15 = δ at hz hδ0 hδ1
  obtain ⟨z1, z2⟩ := abs_le.mp hz
  have hneg : z' ≤ 0 := by nlinarith
  refine ⟨?_, hneg⟩
  have key : |Real.exp z' - Real.exp (-a)| ≤ δ := by
    have ht : a * (1 - δ) * Real.exp (-(a * (1 - δ))) ≤ 0.5 := by
      have h1 := Real.add_one_le_exp (a * (1 - δ) - 1)
      have h2 : Real.exp (a * (1 - δ) - 1) * Real.exp (-(a * (1 - δ))) = Real.exp (-1) := by
        rw [← Real.exp_add]; congr 1; ring
      have h3 : Real.exp (-1) ≤ 0.5 := by
        rw [Real.exp_neg]
        have := Real.exp_one_gt_d9
        rw [show (0.5 : ℝ) = 2⁻¹ by norm_num]
        exact inv_anti₀ (by norm_num) (by linarith)
      have h4 := Real.exp_pos (-(a * (1 - δ)))
      calc a * (1 - δ) * Real.exp (-(a * (1 - δ))) ≤ Real.exp (a * (1 - δ) - 1) * Real.exp (-(a * (1 - δ))) :=
            mul_le_mul_of_nonneg_right (by linarith) h4.le
        _ ≤ 0.5 := by rw [h2]; exact h3
    have main : |Real.exp z' - Real.exp (-a)| ≤ δ * a * Real.exp (-(a * (1 - δ))) := by
      rcases le_total (-z') a with c | c
      · have h1 := exp_neg_lip c
        rw [neg_neg] at h1
        have h2 : Real.exp z' ≤ Real.exp (-(a * (1 - δ))) := Real.exp_le_exp.mpr (by linarith)
        have h3 : Real.exp (-a) ≤ Real.exp z' := Real.exp_le_exp.mpr (by linarith)
        rw [abs_of_nonneg (by linarith)]
        calc _ ≤ (a - -z') * Real.exp z' := h1
          _ ≤ δ * a * Real.exp (-(a * (1 - δ))) := mul_le_mul (by linarith) h2 (Real.exp_pos _).le (by positivity)
      · have h1 := exp_neg_lip c
        rw [neg_neg] at h1
        have h2 : Real.exp (-a) ≤ Real.exp (-(a * (1 - δ))) := Real.exp_le_exp.mpr (by nlinarith)
        have h3 : Real.exp z' ≤ Real.exp (-a) := Real.exp_le_exp.mpr (by linarith)
        rw [abs_sub_comm, abs_of_nonneg (by linarith)]
        calc _ ≤ (-z' - a) * Real.exp (-a) := h1
          _ ≤ δ * a * Real.exp (-(a * (1 - δ))) := mul_le_mul (by linarith) h2 (Real.exp_pos _).le (by positivity)
    have h5 : a * Real.exp (-(a * (1 - δ))) ≤ 1 := by
      have h4 := Real.exp_pos (-(a * (1 - δ)))
      have : 0 ≤ a * Real.exp (-(a * (1 - δ))) := by positivity
      nlinarith
    calc _ ≤ δ * a * Real.exp (-(a * (1 - δ))) := main
      _ = δ * (a * Real.exp (-(a * (1 - δ)))) := by ring
      _ ≤ δ * 1 := mul_le_mul_of_nonneg_left h5 hδ0
      _ = δ := mul_one _
  have h1 := hL.exp z'
  have h2 : Real.exp z' ≤ 1 := Real.exp_le_one_iff.mpr hneg
  have h3 := abs_sub_le (L.exp z') (Real.exp z') (Real.exp (-a))
  rw [add_mul, hδ]
  linarith

/-! ## The sinc function -/

theorem sinc_close {y y' δ : ℝ} (hy : y ≠ 0) (h : |y' - y| ≤ δ * |y|) (hδ : δ ≤ 0.1) :
    |Real.sin y' / y' - Real.sin y / y| ≤ 3 * δ ∧ y' ≠ 0 := by
  have hp : 0 < |y| := abs_pos.mpr hy
  have hδ0 : 0 ≤ δ := by
    by_contra hc
    have := (abs_nonneg _).trans h
    nlinarith
  have hy' : 0.9 * |y| ≤ |y'| := by
    have := abs_sub_abs_le_abs_sub y y'
    rw [abs_sub_comm] at this
    nlinarith
  have hp' : 0 < |y'| := by linarith
  have hne : y' ≠ 0 := abs_pos.mp hp'
  refine ⟨?_, hne⟩
  have e : Real.sin y' / y' - Real.sin y / y = (Real.sin y' - Real.sin y) / y' + Real.sin y / y * ((y - y') / y') := by
    field_simp
    ring
  have h1 : |(Real.sin y' - Real.sin y) / y'| ≤ 1.2 * δ := by
    rw [abs_div, div_le_iff₀ hp']
    have := Real.abs_sin_sub_sin_le y' y
    nlinarith
  have h2 : |Real.sin y / y| ≤ 1 := by
    rw [abs_div, div_le_one hp]
    exact Real.abs_sin_le_abs
  have h3 : |(y - y') / y'| ≤ 1.2 * δ := by
    rw [abs_div, div_le_iff₀ hp', abs_sub_comm]
    nlinarith
  rw [e]
  have h4 := abs_add_le ((Real.sin y' - Real.sin y) / y') (Real.sin y / y * ((y - y') / y'))
  rw [abs_mul] at h4
  have h5 : |Real.sin y / y| * |(y - y') / y'| ≤ 1 * (1.2 * δ) := mul_le_mul h2 h3 (abs_nonneg _) zero_le_one
  linarith

theorem Spec.MathLibrary.sin_div (hL : MathLibrary L) {y : ℝ} (hy : y ≠ 0) : |L.sin y / y - Real.sin y / y| ≤ 1e-15 := by
  have hp : 0 < |y| := abs_pos.mpr hy
  rw [← sub_div, abs_div, div_le_iff₀ hp]
  have h1 := hL.trig.sin y
  have h2 := Real.abs_sin_le_abs (x := y)
  linarith

theorem abs_sinc_le (x : ℝ) : |Real.sinc x| ≤ 1 := by
  rw [abs_le]; exact ⟨Real.neg_one_le_sinc x, Real.sinc_le_one x⟩

/-- `np.sinc` of a number with a relative error. -/
theorem sinc_value (hfl : RoundsToNearest fl) (hL : MathLibrary L) {k x' x : ℝ} (h : Apx k x' x |x|) (hk0 : 0 ≤ k) (hk : k ≤ 100) :
    |sincD fl L x' - Real.sinc (Real.pi * x)| ≤ (3 * k + 15) * 1e-15 := by
  have hpi := Real.pi_pos
  have PI : Apx 1 (fl Real.pi) Real.pi Real.pi := Apx.const hfl hpi.le
  -- the last division, for an argument `y'` close to `y`
  have last : ∀ {y' c : ℝ}, y' ≠ 0 → |Real.sin y' / y' - c| ≤ (3 * k + 12) * 1e-15 → |c| ≤ 1 →
      |fl (L.sin y' / y') - c| ≤ (3 * k + 15) * 1e-15 := by
    intro y' c hy' hc hc1
    have h1 := hL.sin_div hy'
    have h2 : |L.sin y' / y' - c| ≤ (3 * k + 13) * 1e-15 := by
      have := abs_sub_le (L.sin y' / y') (Real.sin y' / y') c
      linarith
    have h3 : |L.sin y' / y'| ≤ 2 := by
      have := abs_sub_abs_le_abs_sub (L.sin y' / y') c
      linarith
    have h4 := fl_close hfl h3
    have := abs_sub_le (fl (L.sin y' / y')) (L.sin y' / y') c
    linarith
  by_cases hx : x = 0
  · have hx' : x' = 0 := by
      have := h.1
      rw [hx, abs_zero, mul_zero, sub_zero] at this
      exact abs_nonpos_iff.mp this
    unfold sincD
    rw [if_pos hx', hx, mul_zero, Real.sinc_zero]
    have T : Apx 1 (fl 1e-20) 1e-20 1e-20 := Apx.const hfl (by norm_num)
    have Y := (PI.mul T (by norm_num) (by norm_num)).round hfl (by norm_num)
    have hm : 0 < Real.pi * 1e-20 := by positivity
    have hpi4 := Real.pi_le_four
    obtain ⟨y1, y2⟩ := abs_le.mp Y.1
    generalize fl (fl Real.pi * fl 1e-20) = y' at *
    have hy0 : 0 < y' := by nlinarith
    have hy1 : y' ≤ 1e-8 := by nlinarith
    refine last hy0.ne' ?_ (by norm_num)
    have h1 : Real.sin y' ≤ y' := Real.sin_le hy0.le
    have h2 : y' - y' ^ 3 / 6 < Real.sin y' := Real.sin_gt_sub_cube hy0
    rw [div_sub_one hy0.ne', abs_div, abs_of_pos hy0, div_le_iff₀ hy0, abs_sub_comm, abs_of_nonneg (by linarith)]
    have h3 : y' ^ 3 / 6 ≤ 1e-16 / 6 * y' := by
      have : y' ^ 2 ≤ (1e-8) ^ 2 := pow_le_pow_left₀ hy0.le hy1 2
      nlinarith
    nlinarith
  · have hxp : 0 < |x| := abs_pos.mpr hx
    have hx' : x' ≠ 0 := by
      intro h0
      have := h.1
      rw [h0, zero_sub, abs_neg] at this
      nlinarith
    unfold sincD
    rw [if_neg hx', Real.sinc_of_ne_zero (mul_ne_zero hpi.ne' hx)]
    have Y := (PI.mul h (by norm_num) (by linarith)).round hfl (by linarith)
    have Y1 := Y.1
    have hm : Real.pi * |x| = |Real.pi * x| := by rw [abs_mul, abs_of_pos hpi]
    rw [hm] at Y1
    obtain ⟨c1, c2⟩ := sinc_close (mul_ne_zero hpi.ne' hx) Y1 (by linarith)
    refine last c2 (c1.trans (by linarith)) ?_
    rw [← Real.sinc_of_ne_zero (mul_ne_zero hpi.ne' hx)]
    exact abs_sinc_le _

/-- A product of two computed factors of size at most 1. -/
theorem mul_close (hfl : RoundsToNearest fl) {a' a b' b d e : ℝ} (ha : |a' - a| ≤ d) (hb : |b' - b| ≤ e) (ha1 : |a| ≤ 1) (hb1 : |b| ≤ 1)
    (hd : d ≤ 0.1) (he : e ≤ 0.1) : |fl (a' * b') - a * b| ≤ d + 1.1 * e + 2e-16 := by
  have hd0 : 0 ≤ d := (abs_nonneg _).trans ha
  have he0 : 0 ≤ e := (abs_nonneg _).trans hb
  have ha' : |a'| ≤ 1.1 := by have := abs_sub_abs_le_abs_sub a' a; linarith
  have hb' : |b'| ≤ 1.1 := by have := abs_sub_abs_le_abs_sub b' b; linarith
  have h1 : |a' * b'| ≤ 1.21 := by
    rw [abs_mul]
    calc |a'| * |b'| ≤ 1.1 * 1.1 := mul_le_mul ha' hb' (abs_nonneg _) (by norm_num)
      _ = 1.21 := by norm_num
  have h2 := fl_close hfl h1
  have e1 : a' * b' - a * b = a' * (b' - b) + (a' - a) * b := by ring
  have h3 : |a' * b' - a * b| ≤ 1.1 * e + d := by
    rw [e1]
    refine (abs_add_le _ _).trans (add_le_add ?_ ?_)
    · rw [abs_mul]; exact mul_le_mul ha' hb (abs_nonneg _) (by norm_num)
    · rw [abs_mul]
      calc |a' - a| * |b| ≤ d * 1 := mul_le_mul ha hb1 (abs_nonneg _) hd0
        _ = d := mul_one d
  have := abs_sub_le (fl (a' * b')) (a' * b') (a * b)
  linarith

/-! ## Weighted means -/

theorem sumD_close (hfl : RoundsToNearest fl) {f : ℕ → ℝ} (t : SumTree) (hf : ∀ i ∈ t.leaves, 0 ≤ f i) (ht : t.depth ≤ 2000) :
    0 ≤ (t.leaves.map f).sum ∧ |t.sumD fl f - (t.leaves.map f).sum| ≤ t.depth * 1.5e-16 * (t.leaves.map f).sum := by
  induction t with
  | zero => simp [SumTree.leaves, SumTree.sumD]
  | leaf i =>
    have := hf i (by simp [SumTree.leaves])
    simp [SumTree.leaves, SumTree.sumD, SumTree.depth, this]
  | node a b iha ihb =>
    simp only [SumTree.depth] at ht
    obtain ⟨a0, a1⟩ := iha (fun i hi => hf i (by simp [SumTree.leaves, hi])) (by omega)
    obtain ⟨b0, b1⟩ := ihb (fun i hi => hf i (by simp [SumTree.leaves, hi])) (by omega)
    simp only [SumTree.leaves, SumTree.sumD, SumTree.depth, List.map_append, List.sum_append]
    refine ⟨add_nonneg a0 b0, ?_⟩
    have ha : (a.depth : ℝ) ≤ max a.depth b.depth := by exact_mod_cast le_max_left _ _
    have hb : (b.depth : ℝ) ≤ max a.depth b.depth := by exact_mod_cast le_max_right _ _
    have hm : ((max a.depth b.depth : ℕ) : ℝ) ≤ 2000 := by
      have : max a.depth b.depth ≤ 2000 := by omega
      exact_mod_cast this
    push_cast at hm ha hb ⊢
    generalize (a.leaves.map f).sum = A at *
    generalize (b.leaves.map f).sum = B at *
    generalize a.sumD fl f = A' at *
    generalize b.sumD fl f = B' at *
    generalize max (a.depth : ℝ) b.depth = m at *
    have a2 : |A' - A| ≤ m * 1.5e-16 * A := a1.trans (by gcongr)
    have b2 : |B' - B| ≤ m * 1.5e-16 * B := b1.trans (by gcongr)
    have e : |A' + B' - (A + B)| ≤ m * 1.5e-16 * (A + B) := by
      rw [show A' + B' - (A + B) = (A' - A) + (B' - B) by ring]
      exact (abs_add_le _ _).trans (by linarith)
    have hS : 0 ≤ A + B := add_nonneg a0 b0
    generalize A + B = S at *
    have g : |A' + B'| ≤ 1.25 * S := by
      have := abs_sub_abs_le_abs_sub (A' + B') S
      rw [abs_of_nonneg hS] at this
      nlinarith
    have h := fl_close hfl g
    have := abs_sub_le (fl (A' + B')) (A' + B') S
    nlinarith

theorem range_getD (pairs : List (ℝ × ℝ)) :
    (List.range pairs.length).map (fun i => (pairs.getD i (0, 0)).2) = pairs.map (·.2) := by
  apply List.ext_getElem
  · simp
  · intro i h1 h2
    simp at h1
    simp [List.getD_eq_getElem?_getD, h1]

/-- A running sum of numbers with absolute errors. -/
theorem fold_close (hfl : RoundsToNearest fl) (l : List (ℝ × ℝ)) : ∀ a' a e : ℝ, |a' - a| ≤ e →
    |a| + (l.map fun p => |p.2|).sum ≤ 1 → e + (l.map fun p => |p.1 - p.2|).sum + l.length * 2.4e-16 ≤ 1 →
    |(l.map (·.1)).foldl (fun s x => fl (s + x)) a' - (a + (l.map (·.2)).sum)|
      ≤ e + (l.map fun p => |p.1 - p.2|).sum + l.length * 2.4e-16 := by
  induction l with
  | nil => intro a' a e h _ _; simpa using h
  | cons p l ih =>
    intro a' a e h h1 h2
    simp only [List.map_cons, List.sum_cons, List.length_cons, Nat.cast_add, Nat.cast_one, List.foldl_cons] at h1 h2 ⊢
    have n1 : 0 ≤ (l.map fun p => |p.2|).sum := List.sum_nonneg (by
      simp only [List.mem_map]
      rintro _ ⟨q, _, rfl⟩
      positivity)
    have n2 : 0 ≤ (l.map fun p => |p.1 - p.2|).sum := List.sum_nonneg (by
      simp only [List.mem_map]
      rintro _ ⟨q, _, rfl⟩
      positivity)
    have n3 : (0 : ℝ) ≤ l.length := Nat.cast_nonneg _
    have he : 0 ≤ e := (abs_nonneg _).trans h
    have hb : |a' + p.1| ≤ 2 := by
      have e1 : a' + p.1 = (a' - a) + (p.1 - p.2) + (a + p.2) := by ring
      have t1 := abs_add_le ((a' - a) + (p.1 - p.2)) (a + p.2)
      have t2 := abs_add_le (a' - a) (p.1 - p.2)
      have t3 := abs_add_le a p.2
      rw [← e1] at t1
      linarith
    have hr := fl_close hfl hb
    have step : |fl (a' + p.1) - (a + p.2)| ≤ e + |p.1 - p.2| + 2.4e-16 := by
      have t1 := abs_sub_le (fl (a' + p.1)) (a' + p.1) (a + p.2)
      have t2 := abs_add_le (a' - a) (p.1 - p.2)
      rw [show (a' - a) + (p.1 - p.2) = a' + p.1 - (a + p.2) by ring] at t2
      linarith
    have := ih (fl (a' + p.1)) (a + p.2) _ step (by have := abs_add_le a p.2; linarith) (by linarith)
    rw [show a + (p.2 + (l.map (·.2)).sum) = a + p.2 + (l.map (·.2)).sum by ring]
    linarith

theorem abs_sum_map_le (l : List (ℝ × ℝ)) (f : ℝ × ℝ → ℝ) : |(l.map f).sum| ≤ (l.map fun p => |f p|).sum := by
  induction l with
  | nil => simp
  | cons p l ih =>
    simp only [List.map_cons, List.sum_cons]
    exact (abs_add_le _ _).trans (by linarith)

theorem sum_le_of_forall {l : List (ℝ × ℝ)} {f g : ℝ × ℝ → ℝ} (h : ∀ p ∈ l, f p ≤ g p) : (l.map f).sum ≤ (l.map g).sum :=
  List.sum_le_sum h

/-- The computed weighted mean of a function with values in `[-1, 1]`. -/
theorem weighted_value (hfl : RoundsToNearest fl) {order : SumTree} {pairs : List (ℝ × ℝ)} {F' F : ℝ → ℝ} {ε : ℝ}
    (ho : order.leaves.Perm (List.range pairs.length)) (hd : order.depth ≤ 2000) (hn : pairs.length ≤ 2000)
    (hw : ∀ p ∈ pairs, 0 ≤ p.2) (ht : 0 < (pairs.map (·.2)).sum) (hF : ∀ p ∈ pairs, |F' p.1 - F p.1| ≤ ε ∧ |F p.1| ≤ 1)
    (he : ε ≤ 0.1) : |weightedD fl order pairs F' - wmean pairs F| ≤ ε + 3e-12 ∧ |wmean pairs F| ≤ 1 := by
  have hsum := sumD_close hfl (f := fun i => (pairs.getD i (0, 0)).2) order (by
    intro i hi
    have hi' : i < pairs.length := List.mem_range.mp (ho.mem_iff.mp hi)
    have : pairs.getD i (0, 0) = pairs[i] := by simp [List.getD_eq_getElem?_getD, hi']
    show 0 ≤ (pairs.getD i (0, 0)).2
    rw [this]
    exact hw _ (List.getElem_mem hi')) hd
  rw [(ho.map _).sum_eq, range_getD] at hsum
  have hT := hsum.2
  have hdep : (order.depth : ℝ) ≤ 2000 := by exact_mod_cast hd
  have hlen : (pairs.length : ℝ) ≤ 2000 := by exact_mod_cast hn
  have hcons : pairs ≠ [] := by rintro rfl; simp at ht
  have hε0 : 0 ≤ ε := by
    obtain ⟨p, hp⟩ := List.exists_mem_of_ne_nil _ hcons
    exact (abs_nonneg _).trans (hF p hp).1
  unfold weightedD wmean
  dsimp only
  generalize order.sumD fl (fun i => (pairs.getD i (0, 0)).2) = T' at *
  generalize hTt : (pairs.map (·.2)).sum = T at *
  have hT2 : |T' - T| ≤ 3.1e-13 * T := hT.trans (by nlinarith)
  obtain ⟨t1, t2⟩ := abs_le.mp hT2
  have hT'0 : 0 < T' := by nlinarith
  -- one term
  have term : ∀ p ∈ pairs, |fl (fl (p.2 / T') * F' p.1) - p.2 / T * F p.1| ≤ (ε + 1e-12) * (p.2 / T) := by
    intro p hp
    obtain ⟨f1, f2⟩ := hF p hp
    have hp0 := hw p hp
    have hq0 : 0 ≤ p.2 / T := by positivity
    have hq : |p.2 / T' - p.2 / T| ≤ 3.2e-13 * (p.2 / T) := by
      have : p.2 / T' - p.2 / T = p.2 / T * ((T - T') / T') := by field_simp
      rw [this, abs_mul, abs_of_nonneg hq0, mul_comm]
      refine mul_le_mul_of_nonneg_right ?_ hq0
      rw [abs_div, abs_of_pos hT'0, div_le_iff₀ hT'0, abs_sub_comm]
      nlinarith
    generalize p.2 / T = q at *
    have hq1 : |p.2 / T'| ≤ 1.1 * q := by
      have := abs_sub_abs_le_abs_sub (p.2 / T') q
      rw [abs_of_nonneg hq0] at this
      linarith
    have hr : |fl (p.2 / T') - q| ≤ 3.3e-13 * q := by
      have h1 := fl_close hfl hq1
      have := abs_sub_le (fl (p.2 / T')) (p.2 / T') q
      linarith
    generalize fl (p.2 / T') = q' at *
    have hq' : |q'| ≤ 1.1 * q := by
      have := abs_sub_abs_le_abs_sub q' q
      rw [abs_of_nonneg hq0] at this
      linarith
    have hF1 : |F' p.1| ≤ 1.1 := by
      have := abs_sub_abs_le_abs_sub (F' p.1) (F p.1)
      linarith
    have hm : |q' * F' p.1| ≤ 1.21 * q := by
      rw [abs_mul]
      calc |q'| * |F' p.1| ≤ (1.1 * q) * 1.1 := mul_le_mul hq' hF1 (abs_nonneg _) (by positivity)
        _ = 1.21 * q := by ring
    have h1 := fl_close hfl hm
    have h2 : |q' * F' p.1 - q * F p.1| ≤ 3.3e-13 * q * 1.1 + q * ε := by
      rw [show q' * F' p.1 - q * F p.1 = (q' - q) * F' p.1 + q * (F' p.1 - F p.1) by ring]
      refine (abs_add_le _ _).trans (add_le_add ?_ ?_)
      · rw [abs_mul]; exact mul_le_mul hr hF1 (abs_nonneg _) (by positivity)
      · rw [abs_mul, abs_of_nonneg hq0]; exact mul_le_mul_of_nonneg_left f1 hq0
    have := abs_sub_le (fl (q' * F' p.1)) (q' * F' p.1) (q * F p.1)
    linarith
  have tsum : (pairs.map fun p => p.2 / T).sum = 1 := by
    have : (pairs.map fun p => p.2 / T).sum = (pairs.map (·.2)).sum / T := by
      simp only [div_eq_mul_inv, List.sum_map_mul_right]
    rw [this, hTt, div_self ht.ne']
  have wsum : (pairs.map fun p => p.2 * F p.1).sum / T = (pairs.map fun p => p.2 / T * F p.1).sum := by
    rw [div_eq_mul_inv, ← List.sum_map_mul_right]
    congr 1
    apply List.map_congr_left
    intro p _
    rw [div_eq_mul_inv]; ring
  have absum : (pairs.map fun p => |p.2 / T * F p.1|).sum ≤ 1 := by
    rw [← tsum]
    apply sum_le_of_forall
    intro p hp
    have hp0 := hw p hp
    have : 0 ≤ p.2 / T := by positivity
    rw [abs_mul, abs_of_nonneg this]
    exact mul_le_of_le_one_right this (hF p hp).2
  have errsum : (pairs.map fun p => |fl (fl (p.2 / T') * F' p.1) - p.2 / T * F p.1|).sum ≤ ε + 1e-12 := by
    refine (sum_le_of_forall term).trans ?_
    rw [List.sum_map_mul_left, tsum, mul_one]
  rw [wsum]
  obtain ⟨p, l, rfl⟩ := List.exists_cons_of_ne_nil hcons
  simp only [List.map_cons, List.sum_cons, List.length_cons] at *
  have key := fold_close hfl (l.map fun p => (fl (fl (p.2 / T') * F' p.1), p.2 / T * F p.1))
    (fl (fl (p.2 / T') * F' p.1)) (p.2 / T * F p.1) _ le_rfl
    (by simpa only [List.map_map, Function.comp_def] using absum)
    (by
      simp only [List.map_map, Function.comp_def, List.length_map]
      push_cast at hlen
      linarith)
  simp only [List.map_map, Function.comp_def, List.length_map] at key
  push_cast at hlen
  refine ⟨by linarith, ?_⟩
  have h1 : |(l.map fun p => p.2 / T * F p.1).sum| ≤ (l.map fun p => |p.2 / T * F p.1|).sum := by
    exact abs_sum_map_le l _
  exact (abs_add_le _ _).trans (by linarith)

end PyBSM
