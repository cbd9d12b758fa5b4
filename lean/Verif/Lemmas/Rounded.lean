import Verif.Model.Rounded
import Mathlib.Algebra.Order.BigOperators.Group.Finset
import Mathlib.Algebra.BigOperators.Fin
import Mathlib.Analysis.SpecialFunctions.Pow.Real

/-!
# Rounding errors of computations without cancellation

A computation of nonnegative numbers that subtracts computed numbers only where they differ enough has a small relative
error: a factor `1 / (1 - u)` for each rounding on the way.
-/

noncomputable section

open Classical

namespace PyBSM

/-- `r` is `x ≥ 0` with up to `k` rounding errors. -/
def Near (u : ℝ) (k : ℕ) (r x : ℝ) : Prop := x * (1 - u) ^ k ≤ r ∧ r * (1 - u) ^ k ≤ x

section near

variable {u : ℝ} (h0 : 0 ≤ u) (h1 : u < 1)

include h0 h1

theorem pow_bounds (k : ℕ) : 0 < (1 - u) ^ k ∧ (1 - u) ^ k ≤ 1 :=
  ⟨by have : 0 < 1 - u := by linarith
      positivity, pow_le_one₀ (by linarith) (by linarith)⟩

theorem Near.nonneg {k : ℕ} {r x : ℝ} (h : Near u k r x) (hx : 0 ≤ x) : 0 ≤ r :=
  (mul_nonneg hx (pow_bounds h0 h1 k).1.le).trans h.1

theorem Near.refl (x : ℝ) : Near u 0 x x := by simp [Near]

theorem Near.mono {j k : ℕ} {r x : ℝ} (h : Near u j r x) (hx : 0 ≤ x) (hjk : j ≤ k) : Near u k r x := by
  have hp : (1 - u) ^ k ≤ (1 - u) ^ j := pow_le_pow_of_le_one (by linarith) (by linarith) hjk
  have hr := h.nonneg h0 h1 hx
  exact ⟨(mul_le_mul_of_nonneg_left hp hx).trans h.1, (mul_le_mul_of_nonneg_left hp hr).trans h.2⟩

theorem Near.round {k : ℕ} {r x s : ℝ} (h : Near u k r x) (hx : 0 ≤ x) (hs : Rnd u r s) : Near u (k + 1) s x := by
  have hr := h.nonneg h0 h1 hx
  unfold Rnd at hs
  rw [abs_of_nonneg hr, abs_le] at hs
  obtain ⟨hp, -⟩ := pow_bounds h0 h1 k
  constructor
  · calc x * (1 - u) ^ (k + 1) = (x * (1 - u) ^ k) * (1 - u) := by ring
      _ ≤ r * (1 - u) := mul_le_mul_of_nonneg_right h.1 (by linarith)
      _ ≤ s := by linarith
  · calc s * (1 - u) ^ (k + 1) = s * (1 - u) * (1 - u) ^ k := by ring
      _ ≤ r * (1 - u) ^ k := by
        refine mul_le_mul_of_nonneg_right ?_ hp.le
        nlinarith [mul_nonneg hr (sq_nonneg u)]
      _ ≤ x := h.2

theorem Near.mul {j k : ℕ} {r x s y : ℝ} (h : Near u j r x) (h' : Near u k s y) (hx : 0 ≤ x) (hy : 0 ≤ y) :
    Near u (j + k) (r * s) (x * y) := by
  have hr := h.nonneg h0 h1 hx
  have hs := h'.nonneg h0 h1 hy
  have p1 := (pow_bounds h0 h1 j).1.le
  have p2 := (pow_bounds h0 h1 k).1.le
  constructor
  · calc x * y * (1 - u) ^ (j + k) = (x * (1 - u) ^ j) * (y * (1 - u) ^ k) := by ring
      _ ≤ r * s := mul_le_mul h.1 h'.1 (mul_nonneg hy p2) hr
  · calc r * s * (1 - u) ^ (j + k) = (r * (1 - u) ^ j) * (s * (1 - u) ^ k) := by ring
      _ ≤ x * y := mul_le_mul h.2 h'.2 (mul_nonneg hs p2) hx

theorem Near.div {j k : ℕ} {r x s y : ℝ} (h : Near u j r x) (h' : Near u k s y) (hx : 0 ≤ x) (hy : 0 < y) :
    Near u (j + k) (r / s) (x / y) := by
  have hr := h.nonneg h0 h1 hx
  have p1 := (pow_bounds h0 h1 j).1
  have p2 := (pow_bounds h0 h1 k).1
  have hs : 0 < s := lt_of_lt_of_le (mul_pos hy p2) h'.1
  constructor
  · rw [le_div_iff₀ hs, div_mul_eq_mul_div, div_mul_eq_mul_div, div_le_iff₀ hy]
    calc x * (1 - u) ^ (j + k) * s = (x * (1 - u) ^ j) * (s * (1 - u) ^ k) := by ring
      _ ≤ r * y := mul_le_mul h.1 h'.2 (mul_nonneg hs.le p2.le) hr
  · rw [le_div_iff₀ hy, div_mul_eq_mul_div, div_mul_eq_mul_div, div_le_iff₀ hs]
    calc r * (1 - u) ^ (j + k) * y = (r * (1 - u) ^ j) * (y * (1 - u) ^ k) := by ring
      _ ≤ x * s := mul_le_mul h.2 h'.1 (mul_nonneg hy.le p2.le) hx

theorem Near.add {k : ℕ} {r x s y : ℝ} (h : Near u k r x) (h' : Near u k s y) : Near u k (r + s) (x + y) :=
  ⟨by rw [add_mul]; exact add_le_add h.1 h'.1, by rw [add_mul]; exact add_le_add h.2 h'.2⟩

theorem Near.max {k : ℕ} {r x s y : ℝ} (h : Near u k r x) (h' : Near u k s y) :
    Near u k (Max.max r s) (Max.max x y) := by
  have p := (pow_bounds h0 h1 k).1.le
  constructor
  · rw [max_mul_of_nonneg _ _ p]; exact max_le_max h.1 h'.1
  · rw [max_mul_of_nonneg _ _ p]; exact max_le_max h.2 h'.2

theorem Near.min {k : ℕ} {r x s y : ℝ} (h : Near u k r x) (h' : Near u k s y) :
    Near u k (Min.min r s) (Min.min x y) := by
  have p := (pow_bounds h0 h1 k).1.le
  constructor
  · rw [min_mul_of_nonneg _ _ p]; exact min_le_min h.1 h'.1
  · rw [min_mul_of_nonneg _ _ p]; exact min_le_min h.2 h'.2

theorem Near.sqrt {k : ℕ} {r x : ℝ} (h : Near u k r x) (hx : 0 ≤ x) : Near u k (Real.sqrt r) (Real.sqrt x) := by
  have hr := h.nonneg h0 h1 hx
  obtain ⟨p, p'⟩ := pow_bounds h0 h1 k
  have hq : (1 - u) ^ k ≤ Real.sqrt ((1 - u) ^ k) := by
    apply Real.le_sqrt_of_sq_le
    nlinarith
  constructor
  · calc Real.sqrt x * (1 - u) ^ k ≤ Real.sqrt x * Real.sqrt ((1 - u) ^ k) :=
          mul_le_mul_of_nonneg_left hq (Real.sqrt_nonneg _)
      _ = Real.sqrt (x * (1 - u) ^ k) := (Real.sqrt_mul hx _).symm
      _ ≤ Real.sqrt r := Real.sqrt_le_sqrt h.1
  · calc Real.sqrt r * (1 - u) ^ k ≤ Real.sqrt r * Real.sqrt ((1 - u) ^ k) :=
          mul_le_mul_of_nonneg_left hq (Real.sqrt_nonneg _)
      _ = Real.sqrt (r * (1 - u) ^ k) := (Real.sqrt_mul hr _).symm
      _ ≤ Real.sqrt x := Real.sqrt_le_sqrt h.2

/-- From a small relative error to a number of roundings. -/
theorem near_of_error {r v c : ℝ} (hv : 0 ≤ v) (hc : 0 ≤ c) (hcu : c * u ≤ 1 / 2) (h : |r - v| ≤ c * u * v) :
    Near u ⌈2 * c⌉₊ r v := by
  obtain ⟨ha, hb⟩ := abs_le.mp h
  have hj : 2 * c ≤ ⌈2 * c⌉₊ := Nat.le_ceil _
  generalize ⌈2 * c⌉₊ = j at *
  have hju : 2 * (c * u) ≤ j * u := by nlinarith
  have hcu0 : 0 ≤ c * u := mul_nonneg hc h0
  -- `(1 - u)^j ≤ 1 / (1 + j u)`
  have hp := (pow_bounds h0 h1 j).1
  have key : (1 - u) ^ j * (1 + j * u) ≤ 1 := by
    have h2 := one_add_mul_le_pow (a := u) (by linarith) j
    calc (1 - u) ^ j * (1 + j * u) ≤ (1 - u) ^ j * (1 + u) ^ j := mul_le_mul_of_nonneg_left h2 hp.le
      _ = (1 - u ^ 2) ^ j := by rw [← mul_pow]; ring
      _ ≤ 1 := pow_le_one₀ (by nlinarith) (by nlinarith [sq_nonneg u])
  have hp2 : (1 - u) ^ j * (1 + 2 * (c * u)) ≤ 1 := (mul_le_mul_of_nonneg_left (by linarith) hp.le).trans key
  have hp1 : (1 - u) ^ j ≤ 1 - c * u := by
    by_contra hlt
    push Not at hlt
    nlinarith
  constructor
  · calc v * (1 - u) ^ j ≤ v * (1 - c * u) := mul_le_mul_of_nonneg_left hp1 hv
      _ ≤ r := by linarith
  · calc r * (1 - u) ^ j ≤ (v * (1 + c * u)) * (1 - u) ^ j := mul_le_mul_of_nonneg_right (by linarith) hp.le
      _ ≤ v * ((1 - u) ^ j * (1 + 2 * (c * u))) := by
        have : 0 ≤ v * (1 - u) ^ j * (c * u) := by positivity
        linarith
      _ ≤ v * 1 := mul_le_mul_of_nonneg_left hp2 hv
      _ = v := mul_one v

/-- From the number of roundings to the relative error. -/
theorem Near.error {k : ℕ} {r x : ℝ} (h : Near u k r x) (hx : 0 ≤ x) (hk : k * u < 1) :
    |r - x| ≤ k * u / (1 - k * u) * x := by
  have hb : 1 - k * u ≤ (1 - u) ^ k := by
    have := one_add_mul_le_pow (a := -u) (by linarith) k
    simpa [sub_eq_add_neg] using this
  have hr := h.nonneg h0 h1 hx
  have hd : 0 < 1 - k * u := by linarith
  have hku : 0 ≤ k * u := by positivity
  have e : k * u ≤ k * u / (1 - k * u) := le_div_self hku hd (by linarith)
  rw [abs_le]
  constructor
  · have : x * (1 - k * u) ≤ r := (mul_le_mul_of_nonneg_left hb hx).trans h.1
    have h3 := mul_le_mul_of_nonneg_right e hx
    linarith
  · have : r * (1 - k * u) ≤ x := (mul_le_mul_of_nonneg_left hb hr).trans h.2
    rw [div_mul_eq_mul_div, le_div_iff₀ hd]
    nlinarith

/-- A simpler bound for few roundings. -/
theorem Near.error' {k : ℕ} {r x : ℝ} (h : Near u k r x) (hx : 0 ≤ x) (hk : k * u ≤ 1 / 2) : |r - x| ≤ 2 * k * u * x := by
  refine (h.error h0 h1 hx (by linarith)).trans (mul_le_mul_of_nonneg_right ?_ hx)
  have hku : 0 ≤ k * u := by positivity
  rw [div_le_iff₀ (by linarith)]
  nlinarith

/-- A difference of computed numbers. -/
theorem Near.sub {k : ℕ} {r x s y : ℝ} (h : Near u k r x) (h' : Near u k s y) (hy : 0 ≤ y) (hxy : y < x)
    (hk : 4 * k * ((x + y) / (x - y)) * u ≤ 1) : Near u ⌈4 * k * ((x + y) / (x - y))⌉₊ (r - s) (x - y) := by
  have hd : 0 < x - y := by linarith
  have hq : 1 ≤ (x + y) / (x - y) := by rw [one_le_div hd]; linarith
  have hk0 : (0 : ℝ) ≤ k := Nat.cast_nonneg k
  have hku : k * u ≤ 1 / 2 := by
    have : k * u ≤ k * ((x + y) / (x - y)) * u := by
      have := mul_le_mul_of_nonneg_right (mul_le_mul_of_nonneg_left hq hk0) h0
      linarith
    nlinarith
  have e1 := h.error' h0 h1 (by linarith) hku
  have e2 := h'.error' h0 h1 hy hku
  have e3 : |r - s - (x - y)| ≤ 2 * k * ((x + y) / (x - y)) * u * (x - y) := by
    calc |r - s - (x - y)| = |(r - x) - (s - y)| := by congr 1; ring
      _ ≤ |r - x| + |s - y| := abs_sub _ _
      _ ≤ 2 * k * u * (x + y) := by linarith
      _ = _ := by field_simp
  have := near_of_error h0 h1 hd.le (c := 2 * k * ((x + y) / (x - y))) (by positivity) (by linarith) e3
  rwa [show 2 * (2 * k * ((x + y) / (x - y))) = 4 * k * ((x + y) / (x - y)) by ring] at this

/-- An exponential of a computed number. -/
theorem Near.exp {k : ℕ} {r x : ℝ} (h : Near u k r x) (hx : 0 ≤ x) (hk : 2 * k * u ≤ 1) :
    Near u ⌈2 * k * x⌉₊ (Real.exp r) (Real.exp x) := by
  obtain ⟨ha, hb⟩ := abs_le.mp (h.error' h0 h1 hx (by linarith))
  have hj : 2 * k * x ≤ ⌈2 * k * x⌉₊ := Nat.le_ceil _
  generalize ⌈2 * k * x⌉₊ = j at *
  have hju : 2 * k * u * x ≤ j * u := by nlinarith
  have hp : (1 - u) ^ j ≤ Real.exp (-(j * u)) := by
    rw [show -(j * u) = (j : ℝ) * (-u) by ring, Real.exp_nat_mul]
    exact pow_le_pow_left₀ (by linarith) (by linarith [Real.add_one_le_exp (-u)]) j
  constructor
  · calc Real.exp x * (1 - u) ^ j ≤ Real.exp x * Real.exp (-(j * u)) :=
          mul_le_mul_of_nonneg_left hp (Real.exp_pos x).le
      _ = Real.exp (x + -(j * u)) := (Real.exp_add _ _).symm
      _ ≤ Real.exp r := Real.exp_le_exp.mpr (by linarith)
  · calc Real.exp r * (1 - u) ^ j ≤ Real.exp r * Real.exp (-(j * u)) :=
          mul_le_mul_of_nonneg_left hp (Real.exp_pos r).le
      _ = Real.exp (r + -(j * u)) := (Real.exp_add _ _).symm
      _ ≤ Real.exp x := Real.exp_le_exp.mpr (by linarith)

end near

theorem Rnd.factor {u x r : ℝ} (h0 : 0 ≤ u) (h : Rnd u x r) : ∃ c, r = x * c ∧ Rnd u 1 c := by
  unfold Rnd at *
  by_cases hx : x = 0
  · subst hx
    exact ⟨1, by simpa using h, by simpa using h0⟩
  · refine ⟨r / x, by field_simp, ?_⟩
    rw [show r / x - 1 = (r - x) / x by field_simp, abs_div, abs_one, mul_one, div_le_iff₀ (abs_pos.mpr hx)]
    exact h

/-- Linear interpolation between positive values, before the last rounding. -/
theorem lerp_near {u : ℝ} (h0 : 0 ≤ u) (h1 : u < 1) {x0 y0 x1 y1 x dy dx slope d p : ℝ} (hx : x0 < x1) (ha : x0 ≤ x)
    (hb : x ≤ x1) (hy0 : 0 < y0) (hy1 : 0 < y1) (hu : 10 * u ≤ 1) (hc : 20 * (|y1 - y0| / min y0 y1) * u ≤ 1)
    (e1 : Rnd u (y1 - y0) dy) (e2 : Rnd u (x1 - x0) dx) (e3 : Rnd u (dy / dx) slope) (e4 : Rnd u (x - x0) d)
    (e5 : Rnd u (slope * d) p) :
    Near u ⌈20 * (|y1 - y0| / min y0 y1)⌉₊ (p + y0) ((y1 - y0) / (x1 - x0) * (x - x0) + y0) := by
  obtain ⟨c1, rfl, r1⟩ := e1.factor h0
  obtain ⟨c2, rfl, r2⟩ := e2.factor h0
  obtain ⟨c3, rfl, r3⟩ := e3.factor h0
  obtain ⟨c4, rfl, r4⟩ := e4.factor h0
  obtain ⟨c5, rfl, r5⟩ := e5.factor h0
  have one : ∀ {c : ℝ}, Rnd u 1 c → Near u 1 c 1 := fun h => (Near.refl h0 h1 1).round h0 h1 zero_le_one h
  have n := (((((one r1).div h0 h1 (one r2) zero_le_one one_pos).mul h0 h1 (one r3) (by norm_num) zero_le_one).mul h0 h1
    (one r4) (by norm_num) zero_le_one).mul h0 h1 (one r5) (by norm_num) zero_le_one)
  have e := n.error' h0 h1 (by norm_num) (by push_cast; linarith)
  have hm : 0 < min y0 y1 := lt_min hy0 hy1
  have hd : 0 < x1 - x0 := by linarith
  obtain ⟨hs0, hs1⟩ : 0 ≤ (x - x0) / (x1 - x0) ∧ (x - x0) / (x1 - x0) ≤ 1 :=
    ⟨div_nonneg (by linarith) hd.le, (div_le_one hd).mpr (by linarith)⟩
  have hv : min y0 y1 ≤ (y1 - y0) / (x1 - x0) * (x - x0) + y0 := by
    rw [show (y1 - y0) / (x1 - x0) * (x - x0) + y0 = y0 + (y1 - y0) * ((x - x0) / (x1 - x0)) by ring]
    generalize (x - x0) / (x1 - x0) = s at *
    rcases le_total y0 y1 with h | h
    · rw [min_eq_left h]; nlinarith
    · rw [min_eq_right h]; nlinarith
  have err : |(y1 - y0) * c1 / ((x1 - x0) * c2) * c3 * ((x - x0) * c4) * c5 + y0
      - ((y1 - y0) / (x1 - x0) * (x - x0) + y0)|
        ≤ 10 * (|y1 - y0| / min y0 y1) * u * ((y1 - y0) / (x1 - x0) * (x - x0) + y0) := by
    have e0 : (y1 - y0) * c1 / ((x1 - x0) * c2) * c3 * ((x - x0) * c4) * c5 + y0
        - ((y1 - y0) / (x1 - x0) * (x - x0) + y0)
          = (y1 - y0) * ((x - x0) / (x1 - x0)) * (c1 / c2 * c3 * c4 * c5 - 1 / 1 * 1 * 1 * 1) := by
      by_cases h2 : c2 = 0
      · subst h2; simp; ring
      · field_simp
        ring
    rw [e0, abs_mul, abs_mul, abs_of_nonneg hs0]
    have f1 : |y1 - y0| * ((x - x0) / (x1 - x0)) ≤ |y1 - y0| := mul_le_of_le_one_right (abs_nonneg _) hs1
    push_cast at e
    calc |y1 - y0| * ((x - x0) / (x1 - x0)) * |c1 / c2 * c3 * c4 * c5 - 1 / 1 * 1 * 1 * 1|
        ≤ |y1 - y0| * (10 * u) := mul_le_mul f1 (by linarith) (abs_nonneg _) (abs_nonneg _)
      _ = 10 * (|y1 - y0| / min y0 y1) * u * min y0 y1 := by field_simp
      _ ≤ _ := mul_le_mul_of_nonneg_left hv (by positivity)
  have := near_of_error h0 h1 (hm.le.trans hv) (c := 10 * (|y1 - y0| / min y0 y1)) (by positivity) (by linarith) err
  rwa [show 2 * (10 * (|y1 - y0| / min y0 y1)) = 20 * (|y1 - y0| / min y0 y1) by ring] at this

namespace Expr

/-- The number of roundings on the way to the result. -/
def weight : Expr → ℕ
  | val _ => 0
  | lit _ => 1
  | approx _ j => j
  | add a b => Max.max a.weight b.weight + 1
  | mul a b => a.weight + b.weight + 1
  | div a b => a.weight + b.weight + 1
  | sqrt a => a.weight + 1
  | max a b => Max.max a.weight b.weight
  | fill a cap => a.weight + cap.weight + 1
  | sub a b => ⌈4 * (Max.max a.weight b.weight : ℕ) * ((a.exact + b.exact) / (a.exact - b.exact))⌉₊ + 1
  | exp a => ⌈2 * a.weight * a.exact⌉₊ + 1
  | lerp _ y0 _ y1 _ => ⌈20 * (|y1 - y0| / Min.min y0 y1)⌉₊ + 1

/-- All numbers are nonnegative, no divisor is zero, and cancellation, where it occurs, is mild compared to `1 / u`. -/
def Pos (u : ℝ) : Expr → Prop
  | val x => 0 ≤ x
  | lit x => 0 ≤ x
  | approx x _ => 0 ≤ x
  | add a b => a.Pos u ∧ b.Pos u
  | mul a b => a.Pos u ∧ b.Pos u
  | div a b => a.Pos u ∧ b.Pos u ∧ 0 < b.exact
  | sqrt a => a.Pos u
  | max a b => a.Pos u ∧ b.Pos u
  | fill a cap => a.Pos u ∧ cap.Pos u
  | sub a b => a.Pos u ∧ b.Pos u ∧ b.exact < a.exact
      ∧ 4 * (Max.max a.weight b.weight : ℕ) * ((a.exact + b.exact) / (a.exact - b.exact)) * u ≤ 1
  | exp a => a.Pos u ∧ 2 * a.weight * u ≤ 1
  | lerp x0 y0 x1 y1 x => x0 < x1 ∧ x0 ≤ x ∧ x ≤ x1 ∧ 0 < y0 ∧ 0 < y1 ∧ 10 * u ≤ 1
      ∧ 20 * (|y1 - y0| / Min.min y0 y1) * u ≤ 1

theorem Pos.nonneg {u : ℝ} {e : Expr} (h : e.Pos u) : 0 ≤ e.exact := by
  induction e with
  | val x => exact h
  | lit x => exact h
  | approx x j => exact h
  | add a b iha ihb => exact add_nonneg (iha h.1) (ihb h.2)
  | mul a b iha ihb => exact mul_nonneg (iha h.1) (ihb h.2)
  | div a b iha ihb => exact div_nonneg (iha h.1) (ihb h.2.1)
  | sqrt a iha => exact Real.sqrt_nonneg _
  | max a b iha ihb => exact le_max_of_le_left (iha h.1)
  | fill a cap iha ihb =>
    simp only [exact]
    split_ifs
    · exact div_nonneg (ihb h.2) (iha h.1)
    · exact zero_le_one
  | sub a b iha ihb => exact sub_nonneg.mpr h.2.2.1.le
  | exp a iha => exact (Real.exp_pos _).le
  | lerp x0 y0 x1 y1 x =>
    obtain ⟨hx, ha, hb, hy0, hy1, -, -⟩ := h
    simp only [exact]
    have hd : 0 < x1 - x0 := by linarith
    have e : (y1 - y0) / (x1 - x0) * (x - x0) + y0 = (y1 * (x - x0) + y0 * (x1 - x)) / (x1 - x0) := by
      field_simp
      ring
    rw [e]
    exact div_nonneg (add_nonneg (mul_nonneg hy1.le (by linarith)) (mul_nonneg hy0.le (by linarith))) hd.le

/-- Whatever the rounding errors, the computed value is near the exact one. -/
theorem Computed.near {u : ℝ} (h0 : 0 ≤ u) (h1 : u < 1) {e : Expr} {r : ℝ} (hr : e.Computed u r) (h : e.Pos u) :
    Near u e.weight r e.exact := by
  induction hr with
  | val x => exact Near.refl h0 h1 x
  | lit hx => exact (Near.refl h0 h1 _).round h0 h1 h hx
  | approx ha hb => exact ⟨ha, hb⟩
  | @add a b x y r ha hb hx iha ihb =>
    refine Near.round h0 h1 (Near.add h0 h1 ((iha h.1).mono h0 h1 h.1.nonneg (le_max_left _ _))
      ((ihb h.2).mono h0 h1 h.2.nonneg (le_max_right _ _))) (add_nonneg h.1.nonneg h.2.nonneg) hx
  | mul ha hb hx iha ihb =>
    exact Near.round h0 h1 ((iha h.1).mul h0 h1 (ihb h.2) h.1.nonneg h.2.nonneg) (mul_nonneg h.1.nonneg h.2.nonneg) hx
  | div ha hb hx iha ihb =>
    exact Near.round h0 h1 ((iha h.1).div h0 h1 (ihb h.2.1) h.1.nonneg h.2.2) (div_nonneg h.1.nonneg h.2.1.nonneg) hx
  | @sqrt a x r ha hx iha =>
    have h' : a.Pos u := h
    exact Near.round h0 h1 ((iha h').sqrt h0 h1 h'.nonneg) (Real.sqrt_nonneg _) hx
  | max ha hb iha ihb =>
    exact Near.max h0 h1 ((iha h.1).mono h0 h1 h.1.nonneg (le_max_left _ _))
      ((ihb h.2).mono h0 h1 h.2.nonneg (le_max_right _ _))
  | @cut a cap x y r ha hb hlt hx iha ihb =>
    have na := iha h.1
    have nb := ihb h.2
    have hy := nb.nonneg h0 h1 h.2.nonneg
    have hax : 0 < a.exact := by
      rcases h.1.nonneg.lt_or_eq with h' | h'
      · exact h'
      · have := na.2
        rw [← h'] at this
        have hp := (pow_bounds h0 h1 a.weight).1
        nlinarith
    have nd := nb.div h0 h1 na h.2.nonneg hax
    have nm := Near.min h0 h1 ((Near.refl h0 h1 1).mono h0 h1 zero_le_one (Nat.zero_le (cap.weight + a.weight))) nd
    have e1 : Min.min 1 (y / x) = y / x := min_eq_right ((div_le_one (by linarith)).mpr hlt.le)
    have e2 : Min.min 1 (cap.exact / a.exact) = (fill a cap).exact := by
      simp only [exact]
      split_ifs with hc
      · exact min_eq_right ((div_le_one hax).mpr hc.le)
      · exact min_eq_left ((one_le_div hax).mpr (not_lt.mp hc))
    rw [e1, e2] at nm
    have := nm.round h0 h1 (Pos.nonneg (e := fill a cap) h) hx
    rwa [show cap.weight + a.weight + 1 = (fill a cap).weight by simp only [weight]; ring] at this
  | @keep a cap x y ha hb hlt iha ihb =>
    have na := iha h.1
    have nb := ihb h.2
    rcases h.1.nonneg.lt_or_eq with hax | hax
    · have nd := nb.div h0 h1 na h.2.nonneg hax
      have hx : 0 < x := lt_of_lt_of_le (mul_pos hax (pow_bounds h0 h1 _).1) na.1
      have nm := Near.min h0 h1 ((Near.refl h0 h1 1).mono h0 h1 zero_le_one (Nat.zero_le (cap.weight + a.weight))) nd
      have e1 : Min.min 1 (y / x) = 1 := min_eq_left ((one_le_div hx).mpr (not_lt.mp hlt))
      have e2 : Min.min 1 (cap.exact / a.exact) = (fill a cap).exact := by
        simp only [exact]
        split_ifs with hc
        · exact min_eq_right ((div_le_one hax).mpr hc.le)
        · exact min_eq_left ((one_le_div hax).mpr (not_lt.mp hc))
      rw [e1, e2] at nm
      exact nm.mono h0 h1 (Pos.nonneg (e := fill a cap) h) (by simp only [weight]; omega)
    · have e2 : (fill a cap).exact = 1 := by
        simp only [exact]
        rw [if_neg]
        rw [← hax]
        exact not_lt.mpr h.2.nonneg
      rw [e2]
      exact (Near.refl h0 h1 1).mono h0 h1 zero_le_one (Nat.zero_le _)
  | @sub a b x y r ha hb hx iha ihb =>
    have na := (iha h.1).mono h0 h1 h.1.nonneg (le_max_left _ b.weight)
    have nb := (ihb h.2.1).mono h0 h1 h.2.1.nonneg (le_max_right a.weight _)
    exact (na.sub h0 h1 nb h.2.1.nonneg h.2.2.1 h.2.2.2).round h0 h1 (sub_nonneg.mpr h.2.2.1.le) hx
  | @exp a x r ha hx iha =>
    exact ((iha h.1).exp h0 h1 h.1.nonneg h.2).round h0 h1 (Real.exp_pos _).le hx
  | lerp e1 e2 e3 e4 e5 e6 =>
    obtain ⟨hx, ha, hb, hy0, hy1, hu, hc⟩ := id h
    exact (lerp_near h0 h1 hx ha hb hy0 hy1 hu hc e1 e2 e3 e4 e5).round h0 h1 (Pos.nonneg (u := u) (e := Expr.lerp _ _ _ _ _) h) e6

/-- The value when every operation rounds with the function `fl`. -/
def eval (fl : ℝ → ℝ) : Expr → ℝ
  | val x => x
  | lit x => fl x
  | approx x _ => x
  | add a b => fl (a.eval fl + b.eval fl)
  | mul a b => fl (a.eval fl * b.eval fl)
  | div a b => fl (a.eval fl / b.eval fl)
  | sqrt a => fl (Real.sqrt (a.eval fl))
  | max a b => Max.max (a.eval fl) (b.eval fl)
  | fill a cap => if cap.eval fl < a.eval fl then fl (cap.eval fl / a.eval fl) else 1
  | sub a b => fl (a.eval fl - b.eval fl)
  | exp a => fl (Real.exp (a.eval fl))
  | lerp x0 y0 x1 y1 x => fl (fl (fl (fl (y1 - y0) / fl (x1 - x0)) * fl (x - x0)) + y0)

/-- Rounding with a function is one of the possible computations. -/
theorem eval_computed {u : ℝ} (h0 : 0 ≤ u) (h1 : u < 1) {fl : ℝ → ℝ} (hfl : ∀ x, Rnd u x (fl x)) {e : Expr} (h : e.Pos u) :
    e.Computed u (e.eval fl) := by
  induction e with
  | val x => exact .val x
  | lit x => exact .lit (hfl x)
  | approx x j =>
    have hx : 0 ≤ x := h
    have hp := (pow_bounds h0 h1 j).2
    exact .approx (mul_le_of_le_one_right hx hp) (mul_le_of_le_one_right hx hp)
  | add a b iha ihb => exact .add (iha h.1) (ihb h.2) (hfl _)
  | mul a b iha ihb => exact .mul (iha h.1) (ihb h.2) (hfl _)
  | div a b iha ihb => exact .div (iha h.1) (ihb h.2.1) (hfl _)
  | sqrt a iha => exact .sqrt (iha h) (hfl _)
  | max a b iha ihb => exact .max (iha h.1) (ihb h.2)
  | fill a cap iha ihb =>
    simp only [eval]
    split_ifs with hc
    · exact .cut (iha h.1) (ihb h.2) hc (hfl _)
    · exact .keep (iha h.1) (ihb h.2) hc
  | sub a b iha ihb => exact .sub (iha h.1) (ihb h.2.1) (hfl _)
  | exp a iha => exact .exp (iha h.1) (hfl _)
  | lerp x0 y0 x1 y1 x => exact .lerp (hfl _) (hfl _) (hfl _) (hfl _) (hfl _) (hfl _)

end Expr

/-! ## Sums -/

namespace SumTree

theorem expr_pos {u : ℝ} {f : ℕ → Expr} (t : SumTree) (h : ∀ i ∈ t.leaves, (f i).Pos u) : (t.expr f).Pos u := by
  induction t with
  | zero => exact le_rfl
  | leaf i => exact h i (by simp [leaves])
  | node a b iha ihb =>
    exact ⟨iha fun i hi => h i (by simp [leaves, hi]), ihb fun i hi => h i (by simp [leaves, hi])⟩

theorem expr_weight {f : ℕ → Expr} {w : ℕ} (t : SumTree) (h : ∀ i ∈ t.leaves, (f i).weight ≤ w) :
    (t.expr f).weight ≤ w + t.depth := by
  induction t with
  | zero => simp [expr, Expr.weight]
  | leaf i => simpa [expr, depth] using h i (by simp [leaves])
  | node a b iha ihb =>
    have ha := iha fun i hi => h i (by simp [leaves, hi])
    have hb := ihb fun i hi => h i (by simp [leaves, hi])
    simp only [expr, depth, Expr.weight]
    omega

theorem expr_exact (f : ℕ → Expr) (t : SumTree) : (t.expr f).exact = (t.leaves.map fun i => (f i).exact).sum := by
  induction t with
  | zero => simp [expr, leaves, Expr.exact]
  | leaf i => simp [expr, leaves]
  | node a b iha ihb => simp [expr, leaves, Expr.exact, iha, ihb]

/-- Every order gives the same exact sum. -/
theorem expr_sum {f : ℕ → Expr} {t : SumTree} {n : ℕ} (h : t.leaves.Perm (List.range n)) :
    (t.expr f).exact = ∑ i ∈ Finset.range n, (f i).exact := by
  rw [expr_exact, (h.map _).sum_eq]
  simp [Finset.sum, Finset.range, Multiset.range]

theorem mem_of_perm {t : SumTree} {n : ℕ} (h : t.leaves.Perm (List.range n)) {i : ℕ} (hi : i ∈ t.leaves) : i < n :=
  List.mem_range.mp (h.mem_iff.mp hi)

theorem sequential_leaves (n : ℕ) : (sequential n).leaves = List.range n := by
  induction n with
  | zero => rfl
  | succ n ih => simp [sequential, leaves, ih, List.range_succ]

theorem sequential_depth (n : ℕ) : (sequential n).depth = n := by
  induction n with
  | zero => rfl
  | succ n ih => simp [sequential, depth, ih]

end SumTree

end PyBSM
