import Verif.Model.Ieee
import Verif.Lemmas.Rounded

/-!
# Lemmas: computations within the range of double precision
-/

noncomputable section

open Classical

namespace PyBSM

/-- The unit roundoff of double precision. -/
def ulp : ℝ := (2 : ℝ) ^ (-53 : ℤ)

theorem ulp_eq : ulp = 1 / 9007199254740992 := by unfold ulp; norm_num

theorem ulp_nonneg : 0 ≤ ulp := by unfold ulp; positivity

theorem ulp_lt_one : ulp < 1 := by rw [ulp_eq]; norm_num

/-- A number that is zero or between powers of two. -/
def Mag (lo hi : ℤ) (x : ℝ) : Prop := x = 0 ∨ ((2 : ℝ) ^ lo ≤ |x| ∧ |x| ≤ (2 : ℝ) ^ hi)

theorem two_pow_le {a b : ℤ} (h : a ≤ b) : (2 : ℝ) ^ a ≤ (2 : ℝ) ^ b := zpow_le_zpow_right₀ (by norm_num) h

theorem two_pow_pos (a : ℤ) : (0 : ℝ) < (2 : ℝ) ^ a := by positivity

namespace Mag

theorem mono {a b c d : ℤ} {x : ℝ} (h : Mag a b x) (h1 : c ≤ a) (h2 : b ≤ d) : Mag c d x := by
  rcases h with h | ⟨h3, h4⟩
  · exact Or.inl h
  · exact Or.inr ⟨(two_pow_le h1).trans h3, h4.trans (two_pow_le h2)⟩

theorem of_pos {a b : ℤ} {x : ℝ} (h1 : (2 : ℝ) ^ a ≤ x) (h2 : x ≤ (2 : ℝ) ^ b) : Mag a b x := by
  have := two_pow_pos a
  exact Or.inr (by rw [abs_of_nonneg (by linarith)]; exact ⟨h1, h2⟩)

theorem pos {a b : ℤ} {x : ℝ} (h : Mag a b x) (hx : 0 < x) : (2 : ℝ) ^ a ≤ x ∧ x ≤ (2 : ℝ) ^ b := by
  rcases h with h | h
  · exact absurd h hx.ne'
  · rwa [abs_of_pos hx] at h

theorem le {a b : ℤ} {x : ℝ} (h : Mag a b x) : |x| ≤ (2 : ℝ) ^ b := by
  rcases h with h | h
  · rw [h, abs_zero]; exact (two_pow_pos b).le
  · exact h.2

theorem mul {a b c d : ℤ} {x y : ℝ} (h : Mag a b x) (h' : Mag c d y) : Mag (a + c) (b + d) (x * y) := by
  rcases h with h | ⟨h1, h2⟩
  · left; rw [h, zero_mul]
  rcases h' with h | ⟨h3, h4⟩
  · left; rw [h, mul_zero]
  right
  rw [abs_mul, zpow_add₀ two_ne_zero, zpow_add₀ two_ne_zero]
  exact ⟨mul_le_mul h1 h3 (two_pow_pos _).le (abs_nonneg _), mul_le_mul h2 h4 (abs_nonneg _) (two_pow_pos _).le⟩

theorem div {a b c d : ℤ} {x y : ℝ} (h : Mag a b x) (h' : Mag c d y) : Mag (a - d) (b - c) (x / y) := by
  rcases h with h | ⟨h1, h2⟩
  · left; rw [h, zero_div]
  rcases h' with h | ⟨h3, h4⟩
  · left; rw [h, div_zero]
  right
  have hy : 0 < |y| := lt_of_lt_of_le (two_pow_pos _) h3
  rw [abs_div, zpow_sub₀ two_ne_zero, zpow_sub₀ two_ne_zero]
  exact ⟨div_le_div₀ (abs_nonneg _) h1 hy h4, div_le_div₀ (two_pow_pos _).le h2 (two_pow_pos _) h3⟩

/-- Adding to a positive number. -/
theorem add {a b c d m : ℤ} {x y : ℝ} (h : Mag a b x) (h' : Mag c d y) (hx : 0 < x) (hy : 0 ≤ y) (hb : b ≤ m) (hd : d ≤ m) :
    Mag a (m + 1) (x + y) := by
  obtain ⟨h1, h2⟩ := h.pos hx
  have h3 := h'.le
  rw [abs_of_nonneg hy] at h3
  refine of_pos (by linarith) ?_
  have e : (2 : ℝ) ^ (m + 1) = 2 * (2 : ℝ) ^ m := by rw [zpow_add₀ two_ne_zero]; ring
  have := two_pow_le hb
  have := two_pow_le hd
  rw [e]
  linarith

/-- Adding numbers that may be zero. -/
theorem add' {a b c d l m : ℤ} {x y : ℝ} (h : Mag a b x) (h' : Mag c d y) (hx : 0 ≤ x) (hy : 0 ≤ y) (ha : l ≤ a) (hc : l ≤ c)
    (hb : b ≤ m) (hd : d ≤ m) : Mag l (m + 1) (x + y) := by
  rcases hx.lt_or_eq with hx | hx
  · exact (h.add h' hx hy hb hd).mono ha le_rfl
  rcases hy.lt_or_eq with hy | hy
  · rw [add_comm x y]; exact (h'.add h hy hx.le hd hb).mono hc le_rfl
  · left; rw [← hx, ← hy, add_zero]

theorem sqrt {a b c d : ℤ} {x : ℝ} (h : Mag a b x) (hx : 0 ≤ x) (ha : 2 * c ≤ a) (hb : b ≤ 2 * d) : Mag c d (Real.sqrt x) := by
  rcases hx.lt_or_eq with hx | hx
  · obtain ⟨h1, h2⟩ := h.pos hx
    have e : ∀ k : ℤ, (2 : ℝ) ^ (2 * k) = ((2 : ℝ) ^ k) ^ 2 := by
      intro k; rw [two_mul, zpow_add₀ two_ne_zero, pow_two]
    refine of_pos ?_ ?_
    · apply Real.le_sqrt_of_sq_le
      rw [← e]
      exact (two_pow_le ha).trans h1
    · rw [Real.sqrt_le_left (two_pow_pos _).le, ← e]
      exact h2.trans (two_pow_le hb)
  · left; rw [← hx, Real.sqrt_zero]

theorem max {a b c d l m : ℤ} {x y : ℝ} (h : Mag a b x) (h' : Mag c d y) (ha : l ≤ a) (hc : l ≤ c) (hb : b ≤ m) (hd : d ≤ m) :
    Mag l m (Max.max x y) := by
  rcases max_choice x y with e | e <;> rw [e]
  · exact h.mono ha hb
  · exact h'.mono hc hd

theorem rnd {a b : ℤ} {x r : ℝ} (h : Mag a b x) (hr : Rnd ulp x r) : Mag (a - 1) (b + 1) r := by
  unfold Rnd at hr
  have hu : ulp ≤ 1 / 2 := by rw [ulp_eq]; norm_num
  have hp : ulp * |x| ≤ 1 / 2 * |x| := mul_le_mul_of_nonneg_right hu (abs_nonneg _)
  rcases h with h | ⟨h1, h2⟩
  · left
    rw [h, abs_zero, mul_zero, sub_zero, abs_nonpos_iff] at hr
    exact hr
  right
  have e1 := abs_sub_abs_le_abs_sub x r
  have e2 := abs_sub_abs_le_abs_sub r x
  rw [abs_sub_comm] at e1
  have f1 : (2 : ℝ) ^ (a - 1) = (2 : ℝ) ^ a / 2 := by rw [zpow_sub₀ two_ne_zero, zpow_one]
  have f2 : (2 : ℝ) ^ (b + 1) = (2 : ℝ) ^ b * 2 := by rw [zpow_add₀ two_ne_zero, zpow_one]
  rw [f1, f2]
  have := abs_nonneg x
  constructor <;> linarith

end Mag

/-- Half of a number to twice the number. -/
theorem near_mag {k : ℕ} {r x : ℝ} (h : Near ulp k r x) (hx : 0 ≤ x) (hk : k * ulp ≤ 1 / 2) {a b : ℤ} (hm : Mag a b x) :
    Mag (a - 1) (b + 1) r := by
  have hpow : 1 / 2 ≤ (1 - ulp) ^ k := by
    have := one_add_mul_le_pow (a := -ulp) (by have := ulp_lt_one; linarith) k
    rw [← sub_eq_add_neg] at this
    refine le_trans ?_ this
    linarith
  have hr := h.nonneg ulp_nonneg ulp_lt_one hx
  rcases hx.lt_or_eq with hx | hx
  · obtain ⟨h1, h2⟩ := hm.pos hx
    obtain ⟨n1, n2⟩ := h
    have f1 : (2 : ℝ) ^ (a - 1) = (2 : ℝ) ^ a / 2 := by rw [zpow_sub₀ two_ne_zero, zpow_one]
    have f2 : (2 : ℝ) ^ (b + 1) = (2 : ℝ) ^ b * 2 := by rw [zpow_add₀ two_ne_zero, zpow_one]
    refine Mag.of_pos ?_ ?_
    · rw [f1]
      have := mul_le_mul_of_nonneg_left hpow hx.le
      linarith
    · rw [f2]
      have := mul_le_mul_of_nonneg_left hpow hr
      linarith
  · left
    have := h.2
    rw [← hx] at this
    have hp : 0 < (1 - ulp) ^ k := by linarith
    nlinarith

/-- What the rounding `fl` does within the range of doubles, and rounding without limits outside. -/
def flat (fl : ℝ → XR) (x : ℝ) : ℝ := if h : ∃ y, fl x = .fin y ∧ Rnd ulp x y then h.choose else roundDouble x

theorem flat_rnd (fl : ℝ → XR) (x : ℝ) : Rnd ulp x (flat fl x) := by
  unfold flat
  split_ifs with h
  · exact h.choose_spec.2
  · exact nearest_rnd roundDouble_rounds x

theorem flat_eq {fl : ℝ → XR} {x : ℝ} (h : ∃ y, fl x = .fin y ∧ Rnd ulp x y) : fl x = .fin (flat fl x) := by
  unfold flat
  rw [dif_pos h]
  exact h.choose_spec.1

theorem flat_range {fl : ℝ → XR} (hfl : RoundsIeee fl) {x : ℝ} (h : Mag (-1022) 1023 x) : fl x = .fin (flat fl x) := by
  rcases h with h | ⟨h1, h2⟩
  · refine flat_eq ⟨x, ?_, by simp [Rnd, h]⟩
    rw [h]
    exact hfl.exact zero_binary64
  · obtain ⟨y, e, -, hr⟩ := hfl.rnd h1 h2
    exact flat_eq ⟨y, e, hr⟩

theorem flat_binary64 {fl : ℝ → XR} (hfl : RoundsIeee fl) {x : ℝ} (h : Mag (-1022) 1023 x) : IsBinary64 (flat fl x) := by
  have e := flat_range hfl h
  have hlt : |x| < overflowAt := by
    by_contra hc
    rcases le_abs.mp (not_lt.mp hc) with h2 | h2
    · rw [hfl.over x h2] at e; cases e
    · rw [hfl.under x (by linarith)] at e; cases e
  obtain ⟨y, e', hy, -⟩ := hfl.finite x hlt
  rw [e] at e'
  rwa [XR.fin.inj e']

theorem rnd_self (u x : ℝ) (h : 0 ≤ u) : Rnd u x x := by
  unfold Rnd
  rw [sub_self, abs_zero]
  positivity

namespace Expr

/-- The exact result of every operation is zero or well within the normal range of doubles. -/
def InRange : Expr → Prop
  | val _ => True
  | lit x => Mag (-1021) 1022 x
  | approx _ _ => True
  | add a b => a.InRange ∧ b.InRange ∧ Mag (-1021) 1022 (a.exact + b.exact)
  | mul a b => a.InRange ∧ b.InRange ∧ Mag (-1021) 1022 (a.exact * b.exact)
  | div a b => a.InRange ∧ b.InRange ∧ Mag (-1021) 1022 (a.exact / b.exact)
  | sqrt a => a.InRange ∧ Mag (-1021) 1022 (Real.sqrt a.exact)
  | max a b => a.InRange ∧ b.InRange
  | fill a cap => a.InRange ∧ cap.InRange ∧ Mag (-1021) 1022 (fill a cap).exact
  | sub a b => a.InRange ∧ b.InRange ∧ Mag (-1021) 1022 (a.exact - b.exact)
  | exp a => a.InRange ∧ a.weight ≤ 1000 ∧ Mag (-1021) 1022 (Real.exp a.exact)
  | lerp x0 y0 x1 y1 x => Mag (-200) 200 (y1 - y0) ∧ Mag (-200) 200 (x1 - x0) ∧ Mag (-200) 200 (x - x0)
      ∧ Mag (-1021) 1022 ((y1 - y0) / (x1 - x0) * (x - x0) + y0)

theorem half {j k : ℕ} (h : j ≤ k) (hk : k * ulp ≤ 1 / 2) : j * ulp ≤ 1 / 2 :=
  (mul_le_mul_of_nonneg_right (by exact_mod_cast h) ulp_nonneg).trans hk

/-- A possible value of a computation, before the last rounding, is rounded without overflow or underflow. -/
theorem round_ok {fl : ℝ → XR} (hfl : RoundsIeee fl) {e : Expr} {z : ℝ} (hz : e.Computed ulp z) (hp : e.Pos ulp)
    (hw : e.weight * ulp ≤ 1 / 2) (hm : Mag (-1021) 1022 e.exact) : fl z = .fin (flat fl z) :=
  flat_range hfl (near_mag (hz.near ulp_nonneg ulp_lt_one hp) hp.nonneg hw hm)

/-- Within the range double precision computes as if it had no limits. -/
theorem ieee_eval {fl : ℝ → XR} (hfl : RoundsIeee fl) {e : Expr} (hp : e.Pos ulp) (hw : e.weight * ulp ≤ 1 / 2) (hr : e.InRange) :
    e.ieee fl = .fin (e.eval (flat fl)) := by
  have u0 := ulp_nonneg
  have u1 := ulp_lt_one
  have ev : ∀ {e : Expr}, e.Pos ulp → e.Computed ulp (e.eval (flat fl)) := fun h => eval_computed u0 u1 (flat_rnd fl) h
  have self : ∀ x, Rnd ulp x x := fun x => rnd_self ulp x u0
  induction e with
  | val x => rfl
  | lit x => exact round_ok hfl (.lit (self x)) hp hw hr
  | approx x j => rfl
  | add a b iha ihb =>
    simp only [weight] at hw
    simp only [ieee, eval, iha hp.1 (half (by omega) hw) hr.1, ihb hp.2 (half (by omega) hw) hr.2.1, XR.fin_add]
    exact round_ok hfl (.add (ev hp.1) (ev hp.2) (self _)) hp hw hr.2.2
  | mul a b iha ihb =>
    simp only [weight] at hw
    simp only [ieee, eval, iha hp.1 (half (by omega) hw) hr.1, ihb hp.2 (half (by omega) hw) hr.2.1, XR.fin_mul]
    exact round_ok hfl (.mul (ev hp.1) (ev hp.2) (self _)) hp hw hr.2.2
  | div a b iha ihb =>
    simp only [weight] at hw
    have hb : 0 < b.eval (flat fl) := lt_of_lt_of_le (mul_pos hp.2.2 (pow_bounds u0 u1 _).1) ((ev hp.2.1).near u0 u1 hp.2.1).1
    simp only [ieee, eval, iha hp.1 (half (by omega) hw) hr.1, ihb hp.2.1 (half (by omega) hw) hr.2.1, XR.fin_div _ hb.ne']
    exact round_ok hfl (.div (ev hp.1) (ev hp.2.1) (self _)) hp hw hr.2.2
  | sqrt a iha =>
    have hp' : a.Pos ulp := hp
    simp only [weight] at hw
    have ha : 0 ≤ a.eval (flat fl) := ((ev hp').near u0 u1 hp').nonneg u0 u1 hp'.nonneg
    simp only [ieee, eval, iha hp' (half (by omega) hw) hr.1, XR.fin_sqrt ha]
    exact round_ok hfl (.sqrt (ev hp') (self _)) hp hw hr.2
  | max a b iha ihb =>
    simp only [weight] at hw
    simp only [ieee, eval, iha hp.1 (half (by omega) hw) hr.1, ihb hp.2 (half (by omega) hw) hr.2, XR.fin_max]
  | fill a cap iha ihb =>
    have hw' := hw
    simp only [weight] at hw
    simp only [ieee, eval, iha hp.1 (half (by omega) hw) hr.1, ihb hp.2 (half (by omega) hw) hr.2.1, XR.fin_lt]
    split_ifs with hc
    · have ha : 0 ≤ cap.eval (flat fl) := ((ev hp.2).near u0 u1 hp.2).nonneg u0 u1 hp.2.nonneg
      rw [XR.fin_div _ (by linarith : a.eval (flat fl) ≠ 0)]
      exact round_ok hfl (.cut (ev hp.1) (ev hp.2) hc (self _)) hp hw' hr.2.2
    · rfl
  | sub a b iha ihb =>
    have hab := hp.2.2.1
    have ha := hp.1.nonneg
    have hb := hp.2.1.nonneg
    have hmax : Max.max a.weight b.weight ≤ (sub a b).weight := by
      simp only [weight]
      have h1 : (1 : ℝ) ≤ (a.exact + b.exact) / (a.exact - b.exact) := by
        rw [one_le_div (by linarith)]; linarith
      have h2 : ((Max.max a.weight b.weight : ℕ) : ℝ)
          ≤ 4 * (Max.max a.weight b.weight : ℕ) * ((a.exact + b.exact) / (a.exact - b.exact)) := by
        have h3 : (0 : ℝ) ≤ (Max.max a.weight b.weight : ℕ) := Nat.cast_nonneg _
        nlinarith
      have h3 := h2.trans (Nat.le_ceil _)
      have h4 : Max.max a.weight b.weight ≤ ⌈4 * (Max.max a.weight b.weight : ℕ) * ((a.exact + b.exact) / (a.exact - b.exact))⌉₊ := by
        exact_mod_cast h3
      omega
    simp only [ieee, eval, iha hp.1 (half ((le_max_left _ _).trans hmax) hw) hr.1,
      ihb hp.2.1 (half ((le_max_right _ _).trans hmax) hw) hr.2.1, XR.fin_sub]
    exact round_ok hfl (.sub (ev hp.1) (ev hp.2.1) (self _)) hp hw hr.2.2
  | exp a iha =>
    have h1 : (a.weight : ℝ) * ulp ≤ 1 / 2 := half hr.2.1 (by rw [ulp_eq]; norm_num)
    simp only [ieee, eval, iha hp.1 h1 hr.1, XR.fin_exp]
    exact round_ok hfl (.exp (ev hp.1) (self _)) hp hw hr.2.2
  | lerp x0 y0 x1 y1 x =>
    obtain ⟨m1, m2, m3, m4⟩ := hr
    have hx : x0 < x1 := hp.1
    have wide : ∀ {z : ℝ} {a b : ℤ}, Mag a b z → -1022 ≤ a → b ≤ 1023 → fl z = .fin (flat fl z) :=
      fun h h1 h2 => flat_range hfl (h.mono h1 h2)
    have r1 := m1.rnd (flat_rnd fl _)
    have r2 := m2.rnd (flat_rnd fl _)
    have r3 := m3.rnd (flat_rnd fl _)
    have s1 := r1.div r2
    have s2 := s1.rnd (flat_rnd fl _)
    have s3 := s2.mul r3
    have hne : flat fl (x1 - x0) ≠ 0 := by
      have := flat_rnd fl (x1 - x0)
      unfold Rnd at this
      intro h
      rw [h, zero_sub, abs_neg] at this
      have hpos : 0 < |x1 - x0| := abs_pos.mpr (by linarith)
      nlinarith
    simp only [ieee, eval, wide m1 (by norm_num) (by norm_num), wide m2 (by norm_num) (by norm_num),
      wide m3 (by norm_num) (by norm_num), XR.fin_div _ hne, XR.through, wide s1 (by norm_num) (by norm_num), XR.fin_mul,
      wide s3 (by norm_num) (by norm_num), XR.fin_add]
    exact round_ok hfl (.lerp (flat_rnd fl _) (flat_rnd fl _) (flat_rnd fl _) (flat_rnd fl _) (flat_rnd fl _) (self _)) hp hw m4

/-- Within the range double precision gives one of the values for which the error bounds hold. -/
theorem ieee_computed {fl : ℝ → XR} (hfl : RoundsIeee fl) {e : Expr} (hp : e.Pos ulp) (hw : e.weight * ulp ≤ 1 / 2)
    (hr : e.InRange) : ∃ r, e.ieee fl = .fin r ∧ e.Computed ulp r :=
  ⟨_, ieee_eval hfl hp hw hr, eval_computed ulp_nonneg ulp_lt_one (flat_rnd fl) hp⟩

/-- A computation that stays in range, with bounds for its exact result. -/
def Sized (lo hi : ℤ) (e : Expr) : Prop := e.InRange ∧ Mag lo hi e.exact ∧ 0 ≤ e.exact

namespace Sized

variable {a b c d l m : ℤ} {e f : Expr} {x : ℝ}

theorem val (h : Mag a b x) (hx : 0 ≤ x) : Sized a b (.val x) := ⟨trivial, h, hx⟩

theorem lit (h : Mag a b x) (hx : 0 ≤ x) (ho : -1021 ≤ a ∧ b ≤ 1022 := by norm_num) : Sized a b (.lit x) :=
  ⟨h.mono ho.1 ho.2, h, hx⟩

theorem mono (h : Sized a b e) (ho : l ≤ a ∧ b ≤ m := by norm_num) : Sized l m e := ⟨h.1, h.2.1.mono ho.1 ho.2, h.2.2⟩

theorem raise (h : Sized a b e) (he : (2 : ℝ) ^ l ≤ e.exact) : Sized l b e :=
  ⟨h.1, Mag.of_pos he (by have := h.2.1.le; rwa [abs_of_nonneg h.2.2] at this), h.2.2⟩

theorem mul (h : Sized a b e) (h' : Sized c d f)
    (ho : l ≤ a + c ∧ b + d ≤ m ∧ -1021 ≤ l ∧ m ≤ 1022 := by norm_num) : Sized l m (.mul e f) := by
  have k := (h.2.1.mul h'.2.1).mono ho.1 ho.2.1
  exact ⟨⟨h.1, h'.1, k.mono ho.2.2.1 ho.2.2.2⟩, k, mul_nonneg h.2.2 h'.2.2⟩

theorem div (h : Sized a b e) (h' : Sized c d f)
    (ho : l ≤ a - d ∧ b - c ≤ m ∧ -1021 ≤ l ∧ m ≤ 1022 := by norm_num) : Sized l m (.div e f) := by
  have k := (h.2.1.div h'.2.1).mono ho.1 ho.2.1
  exact ⟨⟨h.1, h'.1, k.mono ho.2.2.1 ho.2.2.2⟩, k, div_nonneg h.2.2 h'.2.2⟩

/-- The first summand is positive. -/
theorem add (h : Sized a b e) (h' : Sized c d f) (hp : 0 < e.exact)
    (ho : l ≤ a ∧ b + 1 ≤ m ∧ d + 1 ≤ m ∧ -1021 ≤ l ∧ m ≤ 1022 := by norm_num) : Sized l m (.add e f) := by
  have k := (h.2.1.add h'.2.1 hp h'.2.2 (m := m - 1) (by omega) (by omega)).mono ho.1 (show m - 1 + 1 ≤ m by omega)
  exact ⟨⟨h.1, h'.1, k.mono ho.2.2.2.1 ho.2.2.2.2⟩, k, add_nonneg h.2.2 h'.2.2⟩

/-- The second summand is positive. -/
theorem add₂ (h : Sized a b e) (h' : Sized c d f) (hp : 0 < f.exact)
    (ho : l ≤ c ∧ b + 1 ≤ m ∧ d + 1 ≤ m ∧ -1021 ≤ l ∧ m ≤ 1022 := by norm_num) : Sized l m (.add e f) := by
  have k := (h'.2.1.add h.2.1 hp h.2.2 (m := m - 1) (by omega) (by omega)).mono ho.1 (show m - 1 + 1 ≤ m by omega)
  rw [add_comm] at k
  exact ⟨⟨h.1, h'.1, k.mono ho.2.2.2.1 ho.2.2.2.2⟩, k, add_nonneg h.2.2 h'.2.2⟩

theorem add' (h : Sized a b e) (h' : Sized c d f)
    (ho : l ≤ a ∧ l ≤ c ∧ b + 1 ≤ m ∧ d + 1 ≤ m ∧ -1021 ≤ l ∧ m ≤ 1022 := by norm_num) : Sized l m (.add e f) := by
  have k := (h.2.1.add' h'.2.1 h.2.2 h'.2.2 ho.1 ho.2.1 (m := m - 1) (by omega) (by omega)).mono le_rfl
    (show m - 1 + 1 ≤ m by omega)
  exact ⟨⟨h.1, h'.1, k.mono ho.2.2.2.2.1 ho.2.2.2.2.2⟩, k, add_nonneg h.2.2 h'.2.2⟩

theorem sqrt (h : Sized a b e) (ho : 2 * l ≤ a ∧ b ≤ 2 * m ∧ -1021 ≤ l ∧ m ≤ 1022 := by norm_num) : Sized l m (.sqrt e) := by
  have k := h.2.1.sqrt h.2.2 ho.1 ho.2.1
  exact ⟨⟨h.1, k.mono ho.2.2.1 ho.2.2.2⟩, k, Real.sqrt_nonneg _⟩

theorem max (h : Sized a b e) (h' : Sized c d f) (ho : l ≤ a ∧ l ≤ c ∧ b ≤ m ∧ d ≤ m := by norm_num) : Sized l m (.max e f) :=
  ⟨⟨h.1, h'.1⟩, h.2.1.max h'.2.1 ho.1 ho.2.1 ho.2.2.1 ho.2.2.2, le_max_of_le_left h.2.2⟩

theorem sub (h : Sized a b e) (h' : Sized c d f) (h1 : (2 : ℝ) ^ l ≤ e.exact - f.exact)
    (ho : b ≤ m ∧ -1021 ≤ l ∧ m ≤ 1022 := by norm_num) : Sized l m (.sub e f) := by
  have h2 := h.2.1.le
  rw [abs_of_nonneg h.2.2] at h2
  have h3 := h'.2.2
  have h4 := two_pow_le ho.1
  have h5 := two_pow_pos l
  have k : Mag l m (e.exact - f.exact) := Mag.of_pos h1 (by linarith)
  exact ⟨⟨h.1, h'.1, k.mono ho.2.1 ho.2.2⟩, k, by show 0 ≤ e.exact - f.exact; linarith⟩

theorem exp (h : Sized a b e) (hw : e.weight ≤ 1000) (h1 : Real.exp e.exact ≤ (2 : ℝ) ^ m) (ho : m ≤ 1022 := by norm_num) :
    Sized 0 m (.exp e) := by
  have h2 := Real.add_one_le_exp e.exact
  have h3 := h.2.2
  have k : Mag 0 m (Real.exp e.exact) := Mag.of_pos (by rw [zpow_zero]; linarith) h1
  exact ⟨⟨h.1, hw, k.mono (by norm_num) ho⟩, k, (Real.exp_pos _).le⟩

/-- Cutting to a positive capacity. -/
theorem fill (h : Sized a b e) (h' : Sized c d f) (hp : 0 < f.exact)
    (ho : l ≤ c - b ∧ l ≤ 0 ∧ -1021 ≤ l := by norm_num) : Sized l 0 (.fill e f) := by
  have k : Mag l 0 (Expr.fill e f).exact := by
    simp only [exact]
    split_ifs with hc
    · have he : 0 < e.exact := hp.trans hc
      have h1 := ((h'.2.1.div h.2.1).pos (div_pos hp he)).1
      refine Mag.of_pos ((two_pow_le ho.1).trans h1) ?_
      rw [zpow_zero]
      exact (div_le_one he).mpr hc.le
    · exact Mag.of_pos (by simpa using two_pow_le ho.2.1) (by simp)
  refine ⟨⟨h.1, h'.1, k.mono ho.2.2 (by norm_num)⟩, k, ?_⟩
  simp only [exact]
  split_ifs
  · exact div_nonneg h'.2.2 h.2.2
  · exact zero_le_one

end Sized

end Expr

/-- Sums of up to `2^11` terms. -/
theorem sized_sum {a b l m : ℤ} {f : ℕ → Expr} (t : SumTree) (h : ∀ i ∈ t.leaves, (f i).Sized a b) (ht : t.leaves.length ≤ 2 ^ 11)
    (ho : l ≤ a ∧ b + 11 ≤ m ∧ -1021 ≤ l ∧ m ≤ 1022 := by norm_num) : (t.expr f).Sized l m := by
  have key : ∀ t : SumTree, (∀ i ∈ t.leaves, (f i).Sized a b) → t.leaves.length ≤ 2 ^ 11 →
      (t.expr f).InRange ∧ 0 ≤ (t.expr f).exact ∧ (t.expr f).exact ≤ t.leaves.length * (2 : ℝ) ^ b
        ∧ ((t.expr f).exact = 0 ∨ (2 : ℝ) ^ l ≤ (t.expr f).exact) := by
    intro t
    induction t with
    | zero => intro _ _; exact ⟨trivial, le_rfl, by simp [SumTree.expr, SumTree.leaves, Expr.exact], Or.inl rfl⟩
    | leaf i =>
      intro h _
      have hi := h i (by simp [SumTree.leaves])
      refine ⟨hi.1, hi.2.2, ?_, ?_⟩
      · have := hi.2.1.le
        rw [abs_of_nonneg hi.2.2] at this
        simpa [SumTree.leaves, SumTree.expr] using this
      · rcases hi.2.1 with h2 | ⟨h2, -⟩
        · exact Or.inl h2
        · rw [abs_of_nonneg hi.2.2] at h2
          exact Or.inr ((two_pow_le ho.1).trans h2)
    | node s t ihs iht =>
      intro h hl
      simp only [SumTree.leaves, List.length_append] at hl
      obtain ⟨a1, a2, a3, a4⟩ := ihs (fun i hi => h i (by simp [SumTree.leaves, hi])) (by omega)
      obtain ⟨b1, b2, b3, b4⟩ := iht (fun i hi => h i (by simp [SumTree.leaves, hi])) (by omega)
      have e : ((s.node t).expr f).exact = (s.expr f).exact + (t.expr f).exact := rfl
      have hle : (s.expr f).exact + (t.expr f).exact ≤ ((s.node t).leaves.length : ℝ) * (2 : ℝ) ^ b := by
        simp only [SumTree.leaves, List.length_append]
        push_cast
        linarith
      have hup : (s.expr f).exact + (t.expr f).exact ≤ (2 : ℝ) ^ m := by
        refine hle.trans ?_
        have h1 : (((s.node t).leaves.length : ℕ) : ℝ) ≤ (2 : ℝ) ^ (11 : ℕ) := by
          have : (s.node t).leaves.length ≤ 2 ^ 11 := by simp only [SumTree.leaves, List.length_append]; omega
          exact_mod_cast this
        calc _ ≤ (2 : ℝ) ^ (11 : ℕ) * (2 : ℝ) ^ b := mul_le_mul_of_nonneg_right h1 (two_pow_pos _).le
          _ = (2 : ℝ) ^ (b + 11) := by rw [add_comm, zpow_add₀ two_ne_zero]; norm_cast
          _ ≤ _ := two_pow_le ho.2.1
      have hlow : (s.expr f).exact + (t.expr f).exact = 0 ∨ (2 : ℝ) ^ l ≤ (s.expr f).exact + (t.expr f).exact := by
        rcases a4 with a4 | a4
        · rcases b4 with b4 | b4
          · left; rw [a4, b4, add_zero]
          · right; linarith
        · right; linarith
      refine ⟨⟨a1, b1, ?_⟩, by rw [e]; linarith, by rw [e]; exact hle, by rw [e]; exact hlow⟩
      rcases hlow with h0 | h0
      · exact Or.inl h0
      · exact (Mag.of_pos h0 hup).mono ho.2.2.1 ho.2.2.2
  obtain ⟨h1, h2, h3, h4⟩ := key t h ht
  refine ⟨h1, ?_, h2⟩
  rcases h4 with h0 | h0
  · exact Or.inl h0
  · refine Mag.of_pos h0 (h3.trans ?_)
    have h1 : ((t.leaves.length : ℕ) : ℝ) ≤ (2 : ℝ) ^ (11 : ℕ) := by exact_mod_cast ht
    calc _ ≤ (2 : ℝ) ^ (11 : ℕ) * (2 : ℝ) ^ b := mul_le_mul_of_nonneg_right h1 (two_pow_pos _).le
      _ = (2 : ℝ) ^ (b + 11) := by rw [add_comm, zpow_add₀ two_ne_zero]; norm_cast
      _ ≤ _ := two_pow_le ho.2.1

/-- Doubles from `2^a` on are multiples of `2^(a-52)`. -/
theorem IsBinary64.multiple_of {x : ℝ} (h : IsBinary64 x) {a : ℤ} (hx : (2 : ℝ) ^ a ≤ |x|) : ∃ k : ℤ, x = k * (2 : ℝ) ^ (a - 53) := by
  obtain ⟨m, e, hm, -, -, rfl⟩ := h
  have hp := two_pow_pos e
  have he : a - 53 ≤ e := by
    by_contra hc
    rw [abs_mul, abs_of_pos hp] at hx
    have h1 : |(m : ℝ)| ≤ 2 ^ 53 := by exact_mod_cast hm.le
    have h2 : (2 : ℝ) ^ (e + 53) < (2 : ℝ) ^ a := zpow_lt_zpow_right₀ (by norm_num) (by omega)
    have h3 : (2 : ℝ) ^ (e + 53) = 2 ^ 53 * (2 : ℝ) ^ e := pow_split 53 (by push_cast; ring)
    have h4 := mul_le_mul_of_nonneg_right h1 hp.le
    rw [h3] at h2
    exact absurd (hx.trans h4) (not_le.mpr h2)
  obtain ⟨j, hj⟩ := Int.eq_ofNat_of_zero_le (by omega : 0 ≤ e - (a - 53))
  refine ⟨m * 2 ^ j, ?_⟩
  rw [pow_split j (by omega : e = j + (a - 53))]
  push_cast
  ring

/-- The difference of two doubles from `2^a` to `2^b`. -/
theorem mag_diff {x y : ℝ} (hx : IsBinary64 x) (hy : IsBinary64 y) {a b : ℤ} (h1 : (2 : ℝ) ^ a ≤ x ∧ x ≤ (2 : ℝ) ^ b)
    (h2 : (2 : ℝ) ^ a ≤ y ∧ y ≤ (2 : ℝ) ^ b) : Mag (a - 53) b (x - y) := by
  have pa := two_pow_pos a
  obtain ⟨j, hj⟩ := hx.multiple_of (a := a) (by rw [abs_of_pos (by linarith)]; exact h1.1)
  obtain ⟨k, hk⟩ := hy.multiple_of (a := a) (by rw [abs_of_pos (by linarith)]; exact h2.1)
  by_cases h : j = k
  · left; rw [hj, hk, h, sub_self]
  right
  refine ⟨?_, by rw [abs_le]; constructor <;> linarith⟩
  have e : x - y = ((j - k : ℤ) : ℝ) * (2 : ℝ) ^ (a - 53) := by rw [hj, hk]; push_cast; ring
  rw [e, abs_mul, abs_of_pos (two_pow_pos _)]
  have h3 : (1 : ℝ) ≤ |((j - k : ℤ) : ℝ)| := by
    have : 1 ≤ |j - k| := Int.one_le_abs (sub_ne_zero.mpr h)
    exact_mod_cast this
  have := two_pow_pos (a - 53)
  nlinarith

end PyBSM
