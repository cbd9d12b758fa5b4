import Verif.Model.DoubleBlur
import Verif.Spec.DoubleBlur
import Verif.Lemmas.Image
import Verif.Props.DoubleStretch

/-!
# C144: blurring and resampling in double precision
-/

noncomputable section

open Classical

namespace PyBSM

open Spec

variable {fl fs : ℝ → ℝ}

/-! ## Positions -/

theorem single_zero (hfs : SinglePrecision fs) : fs 0 = 0 := by simpa using hfs.whole 0 (by norm_num)

theorem single_one (hfs : SinglePrecision fs) : fs 1 = 1 := by simpa using hfs.whole 1 (by norm_num)

theorem single_unit (hfs : SinglePrecision fs) {f : ℝ} (h0 : 0 ≤ f) (h1 : f ≤ 1) : 0 ≤ fs f ∧ fs f ≤ 1 := by
  have a := hfs.mono h0
  have b := hfs.mono h1
  rw [single_zero hfs] at a
  rw [single_one hfs] at b
  exact ⟨a, b⟩

/-- The position of an output pixel, in the notation of the model. -/
def exactPosition (src dst d : ℕ) : ℝ := ((d : ℝ) + 0.5) * ((src : ℝ) / dst) - 0.5

theorem position_close (hfl : RoundsToNearest fl) (hfs : SinglePrecision fs) {src dst d : ℕ} (hs : 0 < src) (hd : d < dst) :
    |resizePositionD fl fs src dst d - exactPosition src dst d| ≤ 7e-8 * src := by
  have hsr : (1 : ℝ) ≤ src := by exact_mod_cast hs
  have hdr : (0 : ℝ) < dst := by exact_mod_cast (by omega : 0 < dst)
  have hd1 : (d : ℝ) + 1 ≤ dst := by exact_mod_cast hd
  have hd0 : (0 : ℝ) ≤ d := Nat.cast_nonneg d
  have hs0 : (0 : ℝ) < src := by linarith
  have a1 : Apx 1 (fl ((d : ℝ) + 0.5)) (d + 0.5) (d + 0.5) := Apx.const hfl (by linarith)
  have a2 : Apx 1 (fl ((dst : ℝ) / src)) (dst / src) (dst / src) := Apx.const hfl (by positivity)
  have a3 : Apx 3 (fl (1 / fl ((dst : ℝ) / src))) (1 / ((dst : ℝ) / src)) (1 / ((dst : ℝ) / src)) :=
    (((Apx.of (x := 1) (m := 1) (by norm_num)).quot a2 (by positivity) le_rfl (by norm_num) (by norm_num)).round hfl
      (by norm_num)).mono (by norm_num)
  have a4 := (a1.mul a3 (by norm_num) (by norm_num)).round hfl (by norm_num)
  rw [one_div_div] at a4
  have e0 : (0 : ℝ) ≤ ((d : ℝ) + 0.5) * (src / dst) := by positivity
  have e1 : ((d : ℝ) + 0.5) * (src / dst) ≤ src := by
    rw [mul_div_assoc', div_le_iff₀ hdr]
    nlinarith
  have a5 := a4.1
  unfold resizePositionD exactPosition
  generalize fl (fl ((d : ℝ) + 0.5) * fl (1 / fl ((dst : ℝ) / src))) = q' at *
  generalize ((d : ℝ) + 0.5) * (src / dst) = q at *
  have b1 : |q' - q| ≤ 6e-15 * src := a5.trans (by nlinarith)
  have b2 : |q' - 0.5| ≤ 1.001 * src := by
    rw [abs_le] at b1 ⊢
    constructor <;> linarith
  have b3 := fl_close hfl b2
  generalize fl (q' - 0.5) = p at *
  have b4 : |p| ≤ 1.002 * src := by
    rw [abs_le] at b2 b3 ⊢
    constructor <;> linarith
  have b5 := (hfs.accurate p).trans (mul_le_mul_of_nonneg_left b4 (by norm_num))
  rw [abs_le] at b1 b3 b5 ⊢
  constructor <;> linarith

/-- Base index and fraction of a position among `src` samples, held at the first and the last one. -/
def coordAt (src : ℕ) (p : ℝ) : ℕ × ℝ :=
  if ⌊p⌋ < 0 then (0, 0) else if (src : ℤ) - 1 ≤ ⌊p⌋ then (src - 1, 0) else (⌊p⌋.toNat, p - ⌊p⌋)

theorem resizeCoord_eq (src dst d : ℕ) : resizeCoord src dst d = coordAt src (exactPosition src dst d) := rfl

theorem coordAt_bounds {src : ℕ} (hs : 0 < src) (p : ℝ) :
    (coordAt src p).1 < src ∧ 0 ≤ (coordAt src p).2 ∧ (coordAt src p).2 ≤ 1 := by
  unfold coordAt
  split_ifs with h1 h2
  · exact ⟨hs, le_rfl, zero_le_one⟩
  · exact ⟨by simp only; omega, le_rfl, zero_le_one⟩
  · refine ⟨by simp only; omega, sub_nonneg.mpr (Int.floor_le _), ?_⟩
    have := Int.lt_floor_add_one p
    simp only
    linarith

theorem resizeCoordD_eq (hfs : SinglePrecision fs) (src dst d : ℕ) : resizeCoordD fl fs src dst d =
    ((coordAt src (resizePositionD fl fs src dst d)).1, fs (1 - fs (coordAt src (resizePositionD fl fs src dst d)).2),
      fs (coordAt src (resizePositionD fl fs src dst d)).2) := by
  unfold resizeCoordD coordAt
  dsimp only
  split_ifs <;> simp [single_zero hfs]

/-- The samples, continued by the last one. -/
def heldAt (src : ℕ) (S : ℕ → ℝ) (k : ℕ) : ℝ := S (min k (src - 1))

/-- Linear interpolation in one direction is a broken line. -/
theorem coordAt_broken {src : ℕ} (hs : 0 < src) (S : ℕ → ℝ) (p : ℝ) :
    (1 - (coordAt src p).2) * S (coordAt src p).1 + (coordAt src p).2 * S (min ((coordAt src p).1 + 1) (src - 1))
      = broken (heldAt src S) (max p 0) := by
  unfold coordAt
  split_ifs with h1 h2
  · have : p ≤ 0 := by
      rw [Int.floor_lt] at h1
      exact_mod_cast h1.le
    rw [max_eq_right this]
    simp [broken, heldAt]
  · have h0 : 0 ≤ p := by
      have : (0 : ℤ) ≤ ⌊p⌋ := by omega
      exact Int.floor_nonneg.mp this
    rw [max_eq_left h0]
    have e : ((⌊p⌋₊ : ℕ) : ℤ) = ⌊p⌋ := Int.natCast_floor_eq_floor h0
    have g : src - 1 ≤ ⌊p⌋₊ := by omega
    simp [broken, heldAt, min_eq_right g, min_eq_right (show src - 1 ≤ ⌊p⌋₊ + 1 by omega)]
  · have h0 : 0 ≤ p := by
      have : (0 : ℤ) ≤ ⌊p⌋ := by omega
      exact Int.floor_nonneg.mp this
    rw [max_eq_left h0]
    have e : ((⌊p⌋₊ : ℕ) : ℤ) = ⌊p⌋ := Int.natCast_floor_eq_floor h0
    have e' : ((⌊p⌋₊ : ℕ) : ℝ) = (⌊p⌋ : ℝ) := by exact_mod_cast congrArg (Int.cast : ℤ → ℝ) e
    have t : ⌊p⌋.toNat = ⌊p⌋₊ := by omega
    have g : ⌊p⌋₊ ≤ src - 1 := by omega
    simp only [broken, heldAt, t, min_eq_left g, ← e']
    ring

/-- A broken line between `-M` and `M` has slopes of at most `2 M`. -/
theorem broken_slope {S : ℕ → ℝ} {M : ℝ} (h : ∀ k, |S k| ≤ M) {t t' : ℝ} (h0 : 0 ≤ t) (h0' : 0 ≤ t') :
    |broken S t' - broken S t| ≤ 2 * M * |t' - t| := by
  have hM : 0 ≤ M := (abs_nonneg _).trans (h 0)
  have hb : ∀ k, -M ≤ S k ∧ S k ≤ M := fun k => abs_le.mp (h k)
  have key : ∀ {t t' : ℝ}, 0 ≤ t → t ≤ t' → |broken S t' - broken S t| ≤ 2 * M * (t' - t) := by
    intro t t' h0 ht
    have e2 := Nat.floor_le h0
    have e3 := Nat.lt_floor_add_one t
    have f2 := Nat.floor_le (h0.trans ht)
    have f3 := Nat.lt_floor_add_one t'
    rcases le_or_gt 1 (t' - t) with c | c
    · have a := broken_mem hb h0
      have b := broken_mem hb (h0.trans ht)
      rw [abs_le]; constructor <;> nlinarith
    · have hd : ∀ k, |S (k + 1) - S k| ≤ 2 * M := by
        intro k
        have s2 := hb k
        have s3 := hb (k + 1)
        rw [abs_le]; constructor <;> linarith
      have hf := Nat.floor_le_floor ht
      rcases Nat.eq_or_lt_of_le hf with e | e
      · unfold broken
        rw [← e, show S ⌊t⌋₊ + (t' - ⌊t⌋₊) * (S (⌊t⌋₊ + 1) - S ⌊t⌋₊) - (S ⌊t⌋₊ + (t - ⌊t⌋₊) * (S (⌊t⌋₊ + 1) - S ⌊t⌋₊))
          = (S (⌊t⌋₊ + 1) - S ⌊t⌋₊) * (t' - t) by ring, abs_mul, abs_of_nonneg (show 0 ≤ t' - t by linarith)]
        exact mul_le_mul_of_nonneg_right (hd _) (by linarith)
      · have e' : ⌊t'⌋₊ = ⌊t⌋₊ + 1 := by
          have : (⌊t'⌋₊ : ℝ) < ⌊t⌋₊ + 2 := by linarith
          have : ⌊t'⌋₊ < ⌊t⌋₊ + 2 := by exact_mod_cast this
          omega
        unfold broken
        rw [e'] at f2 f3 ⊢
        have s1 := hd ⌊t⌋₊
        have s2 := hd (⌊t⌋₊ + 1)
        push_cast at f2 f3 ⊢
        generalize S ⌊t⌋₊ = a at *
        generalize S (⌊t⌋₊ + 1) = b at *
        generalize S (⌊t⌋₊ + 1 + 1) = c at *
        generalize (⌊t⌋₊ : ℝ) = k at *
        rw [show b + (t' - (k + 1)) * (c - b) - (a + (t - k) * (b - a)) = (b - a) * (k + 1 - t) + (c - b) * (t' - (k + 1)) by ring]
        have m1 : |(b - a) * (k + 1 - t)| ≤ 2 * M * (k + 1 - t) := by
          rw [abs_mul, abs_of_nonneg (show 0 ≤ k + 1 - t by linarith)]
          exact mul_le_mul_of_nonneg_right s1 (by linarith)
        have m2 : |(c - b) * (t' - (k + 1))| ≤ 2 * M * (t' - (k + 1)) := by
          rw [abs_mul, abs_of_nonneg (show 0 ≤ t' - (k + 1) by linarith)]
          exact mul_le_mul_of_nonneg_right s2 (by linarith)
        have := abs_add_le ((b - a) * (k + 1 - t)) ((c - b) * (t' - (k + 1)))
        linarith
  rcases le_total t t' with c | c
  · rw [abs_of_nonneg (sub_nonneg.mpr c)]; exact key h0 c
  · rw [abs_sub_comm, abs_sub_comm t', abs_of_nonneg (sub_nonneg.mpr c)]; exact key h0' c

/-! ## One direction -/

theorem mixD_close (hfl : RoundsToNearest fl) (hfs : SinglePrecision fs) {f x y M : ℝ} (h0 : 0 ≤ f) (h1 : f ≤ 1) (hx : |x| ≤ M)
    (hy : |y| ≤ M) :
    |mixD fl (fs (1 - fs f)) (fs f) x y - ((1 - f) * x + f * y)| ≤ 2e-7 * M := by
  have hM : 0 ≤ M := (abs_nonneg _).trans hx
  obtain ⟨g0, g1⟩ := single_unit hfs h0 h1
  have c1 : |fs f - f| ≤ 6e-8 := by
    refine (hfs.accurate f).trans ?_
    rw [abs_of_nonneg h0]
    nlinarith
  obtain ⟨d0, d1⟩ := single_unit hfs (show 0 ≤ 1 - fs f by linarith) (by linarith)
  have c2 : |fs (1 - fs f) - (1 - fs f)| ≤ 6e-8 := by
    refine (hfs.accurate _).trans ?_
    rw [abs_of_nonneg (by linarith)]
    nlinarith
  generalize fs (1 - fs f) = a at *
  generalize fs f = b at *
  have c3 : |a - (1 - f)| ≤ 1.2e-7 := by
    rw [abs_le] at *
    constructor <;> linarith
  have p1 : |x * a| ≤ M := by
    rw [abs_mul, abs_of_nonneg d0]
    nlinarith [abs_nonneg x]
  have p2 : |y * b| ≤ M := by
    rw [abs_mul, abs_of_nonneg g0]
    nlinarith [abs_nonneg y]
  have q1 := fl_close hfl p1
  have q2 := fl_close hfl p2
  have e1 : |x * a - (1 - f) * x| ≤ 1.2e-7 * M := by
    rw [show x * a - (1 - f) * x = (a - (1 - f)) * x by ring, abs_mul]
    exact mul_le_mul c3 hx (abs_nonneg _) (by norm_num)
  have e2 : |y * b - f * y| ≤ 6e-8 * M := by
    rw [show y * b - f * y = (b - f) * y by ring, abs_mul]
    exact mul_le_mul c1 hy (abs_nonneg _) (by norm_num)
  unfold mixD
  have p3 : |fl (x * a) + fl (y * b)| ≤ 2.01 * M := by
    rw [abs_le] at *
    constructor <;> linarith
  have q3 := fl_close hfl p3
  rw [abs_le] at *
  constructor <;> linarith

theorem mixD_size (hfl : RoundsToNearest fl) (hfs : SinglePrecision fs) {f x y M : ℝ} (h0 : 0 ≤ f) (h1 : f ≤ 1) (hx : |x| ≤ M)
    (hy : |y| ≤ M) : |mixD fl (fs (1 - fs f)) (fs f) x y| ≤ 1.001 * M := by
  have hM : 0 ≤ M := (abs_nonneg _).trans hx
  have h := mixD_close hfl hfs h0 h1 hx hy
  have g : |(1 - f) * x + f * y| ≤ M := by
    rw [abs_le] at *
    constructor <;> nlinarith
  rw [abs_le] at *
  constructor <;> linarith

theorem mixD_nonneg (hfl : RoundsToNearest fl) (hfs : SinglePrecision fs) {f x y : ℝ} (h0 : 0 ≤ f) (h1 : f ≤ 1) (hx : 0 ≤ x)
    (hy : 0 ≤ y) : 0 ≤ mixD fl (fs (1 - fs f)) (fs f) x y := by
  obtain ⟨g0, g1⟩ := single_unit hfs h0 h1
  obtain ⟨d0, -⟩ := single_unit hfs (show 0 ≤ 1 - fs f by linarith) (by linarith)
  exact fl_nonneg hfl (add_nonneg (fl_nonneg hfl (mul_nonneg hx d0)) (fl_nonneg hfl (mul_nonneg hy g0)))

/-- Interpolation in one direction: the error of the position, of the weights and of the samples. -/
theorem direction_close (hfl : RoundsToNearest fl) (hfs : SinglePrecision fs) {src : ℕ} (hs : 0 < src) {S S' : ℕ → ℝ} {M M' e p' p : ℝ}
    (hS : ∀ k < src, |S k| ≤ M) (hS' : ∀ k < src, |S' k| ≤ M') (he : ∀ k < src, |S' k - S k| ≤ e) :
    |mixD fl (fs (1 - fs (coordAt src p').2)) (fs (coordAt src p').2) (S' (coordAt src p').1) (S' (min ((coordAt src p').1 + 1) (src - 1)))
      - ((1 - (coordAt src p).2) * S (coordAt src p).1 + (coordAt src p).2 * S (min ((coordAt src p).1 + 1) (src - 1)))|
      ≤ 2e-7 * M' + e + 2 * M * |p' - p| := by
  have hM : 0 ≤ M := (abs_nonneg _).trans (hS 0 hs)
  obtain ⟨b1, b2, b3⟩ := coordAt_bounds hs p'
  have h1 := mixD_close hfl hfs b2 b3 (hS' _ b1) (hS' (min ((coordAt src p').1 + 1) (src - 1)) (by omega))
  rw [coordAt_broken hs S' p'] at h1
  rw [coordAt_broken hs S p]
  have h2 : |broken (heldAt src S') (max p' 0) - broken (heldAt src S) (max p' 0)| ≤ e :=
    broken_near (fun k => he _ (by omega)) (le_max_right _ _)
  have h3 : |broken (heldAt src S) (max p' 0) - broken (heldAt src S) (max p 0)| ≤ 2 * M * |max p' 0 - max p 0| :=
    broken_slope (fun k => hS _ (by omega)) (le_max_right _ _) (le_max_right _ _)
  have h4 : |max p' 0 - max p 0| ≤ |p' - p| := abs_max_sub_max_le_abs p' p 0
  have h5 : 2 * M * |max p' 0 - max p 0| ≤ 2 * M * |p' - p| := mul_le_mul_of_nonneg_left h4 (by linarith)
  have t1 := abs_sub_le (mixD fl (fs (1 - fs (coordAt src p').2)) (fs (coordAt src p').2) (S' (coordAt src p').1)
    (S' (min ((coordAt src p').1 + 1) (src - 1)))) (broken (heldAt src S') (max p' 0)) (broken (heldAt src S) (max p 0))
  have t2 := abs_sub_le (broken (heldAt src S') (max p' 0)) (broken (heldAt src S) (max p' 0)) (broken (heldAt src S) (max p 0))
  linarith

theorem direction_size {src : ℕ} (hs : 0 < src) {S : ℕ → ℝ} {M p : ℝ} (hS : ∀ k < src, |S k| ≤ M) :
    |(1 - (coordAt src p).2) * S (coordAt src p).1 + (coordAt src p).2 * S (min ((coordAt src p).1 + 1) (src - 1))| ≤ M := by
  obtain ⟨b1, b2, b3⟩ := coordAt_bounds hs p
  have x := abs_le.mp (hS _ b1)
  have y := abs_le.mp (hS (min ((coordAt src p).1 + 1) (src - 1)) (by omega))
  rw [abs_le]
  constructor <;> nlinarith

/-! ## Resampling -/

/-- **C144** (any blur): however the image was computed (OpenCV blurs with large kernels by Fourier transforms), an error of at
most `e` in its pixels is not amplified by resampling. -/
theorem C144_after (hfl : RoundsToNearest fl) (hfs : SinglePrecision fs) {x x' y : Img} {nw nh : ℕ} {M e : ℝ} (hM : Bounded x M)
    (hx : CloseImg x' x e) (he : e ≤ 0.2 * M) (h : cvResize x nw nh = .ok y) :
    ∃ y', cvResizeD fl fs x' nw nh = .ok y' ∧ CloseImg y' y (e + (1.4e-7 * (x.h + x.w) + 5e-7) * M) := by
  unfold cvResize at h
  split_ifs at h with hz
  push Not at hz
  obtain ⟨z1, z2, z3, z4⟩ := hz
  rw [Except.ok.injEq] at h
  subst h
  have p1 : 0 < x.h := by omega
  have p2 : 0 < x.w := by omega
  have hM0 : 0 ≤ M := (abs_nonneg _).trans (hM 0 p1 0 p2)
  refine ⟨_, if_neg (by rw [hx.h, hx.w]; tauto), ⟨rfl, rfl, ?_⟩⟩
  intro i hi j hj
  dsimp only at hi hj ⊢
  rw [resizeCoordD_eq hfs, resizeCoordD_eq hfs, resizeCoord_eq, resizeCoord_eq, hx.h, hx.w]
  have q1 := position_close hfl hfs p1 hi
  have q2 := position_close hfl hfs p2 hj
  have hM' : ∀ i < x.h, ∀ j < x.w, |x'.px i j| ≤ 1.2 * M := by
    intro i hi j hj
    have a := hM i hi j hj
    have b := hx.px i hi j hj
    rw [abs_le] at *
    constructor <;> linarith
  dsimp only
  generalize resizePositionD fl fs x.h nh i = p' at *
  generalize exactPosition x.h nh i = p at *
  generalize resizePositionD fl fs x.w nw j = t' at *
  generalize exactPosition x.w nw j = t at *
  have row : ∀ r < x.h, |mixD fl (fs (1 - fs (coordAt x.w t').2)) (fs (coordAt x.w t').2) (x'.px r (coordAt x.w t').1)
        (x'.px r (min ((coordAt x.w t').1 + 1) (x.w - 1)))
      - ((1 - (coordAt x.w t).2) * x.px r (coordAt x.w t).1 + (coordAt x.w t).2 * x.px r (min ((coordAt x.w t).1 + 1) (x.w - 1)))|
      ≤ 2e-7 * (1.2 * M) + e + 2 * M * |t' - t| := fun r hr =>
    direction_close hfl hfs p2 (S := x.px r) (S' := x'.px r) (hM r hr) (hM' r hr) (hx.px r hr)
  have size : ∀ r < x.h, |mixD fl (fs (1 - fs (coordAt x.w t').2)) (fs (coordAt x.w t').2) (x'.px r (coordAt x.w t').1)
        (x'.px r (min ((coordAt x.w t').1 + 1) (x.w - 1)))| ≤ 1.001 * (1.2 * M) := by
    intro r hr
    obtain ⟨b1, b2, b3⟩ := coordAt_bounds p2 t'
    exact mixD_size hfl hfs b2 b3 (hM' r hr _ b1) (hM' r hr _ (by omega))
  have size' : ∀ r < x.h, |(1 - (coordAt x.w t).2) * x.px r (coordAt x.w t).1
      + (coordAt x.w t).2 * x.px r (min ((coordAt x.w t).1 + 1) (x.w - 1))| ≤ M := fun r hr =>
    direction_size p2 (S := x.px r) (hM r hr)
  have col := direction_close hfl hfs p1 (p' := p') (p := p)
    (S := fun r => (1 - (coordAt x.w t).2) * x.px r (coordAt x.w t).1
      + (coordAt x.w t).2 * x.px r (min ((coordAt x.w t).1 + 1) (x.w - 1)))
    (S' := fun r => mixD fl (fs (1 - fs (coordAt x.w t').2)) (fs (coordAt x.w t').2) (x'.px r (coordAt x.w t').1)
        (x'.px r (min ((coordAt x.w t').1 + 1) (x.w - 1)))) size' size row
  refine col.trans ?_
  have r1 : 2 * M * |p' - p| ≤ 2 * M * (7e-8 * x.h) := mul_le_mul_of_nonneg_left q1 (by linarith)
  have r2 : 2 * M * |t' - t| ≤ 2 * M * (7e-8 * x.w) := mul_le_mul_of_nonneg_left q2 (by linarith)
  nlinarith

theorem CloseImg.refl (x : Img) : CloseImg x x 0 := ⟨rfl, rfl, fun _ _ _ _ => by simp⟩

/-- **C144** (resampling): resampling computed by OpenCV succeeds when it does exactly and has the same number of pixels, and
with single-precision positions no pixel of an image of `h × w` pixels up to `M` in size is off by more than
`(1.4e-7 (h + w) + 5e-7) M`. -/
theorem C144_resample (hfl : RoundsToNearest fl) (hfs : SinglePrecision fs) {x y : Img} {nw nh : ℕ} {M : ℝ} (hM : Bounded x M)
    (h : cvResize x nw nh = .ok y) :
    ∃ y', cvResizeD fl fs x nw nh = .ok y' ∧ CloseImg y' y ((1.4e-7 * (x.h + x.w) + 5e-7) * M) := by
  have p : 0 < x.h ∧ 0 < x.w := by
    unfold cvResize at h
    split_ifs at h with hz
    omega
  have hM0 : 0 ≤ M := (abs_nonneg _).trans (hM 0 p.1 0 p.2)
  obtain ⟨y', e, c⟩ := C144_after hfl hfs hM (CloseImg.refl x) (by linarith) h
  exact ⟨y', e, by simpa using c⟩

/-- **C144** (unchanged size): resampling to the number of pixels the image has returns the same doubles. -/
theorem C144_same (hfl : RoundsToNearest fl) (hfs : SinglePrecision fs) {x : Img} (h0 : 0 < x.h) (w0 : 0 < x.w) (h1 : x.h ≤ 2 ^ 24)
    (w1 : x.w ≤ 2 ^ 24) (hd : ∀ i < x.h, ∀ j < x.w, IsDouble (x.px i j)) :
    ∃ y, cvResizeD fl fs x x.w x.h = .ok y ∧ SameImg y x := by
  have one : ∀ n d : ℕ, d < n → n ≤ 2 ^ 24 → resizeCoordD fl fs n n d = (d, 1, 0) := by
    intro n d hdn hn
    have hnr : (n : ℝ) ≠ 0 := by
      have : 0 < n := by omega
      positivity
    have f1 : fl 1 = 1 := hfl.self ⟨1, 0, by norm_num, by norm_num⟩
    have half : fl ((d : ℝ) + 0.5) = d + 0.5 := by
      apply hfl.self
      refine ⟨2 * d + 1, -1, ?_, ?_⟩
      · rw [abs_of_nonneg (by positivity)]; omega
      · push_cast; rw [zpow_neg_one]; ring
    have whole : fl (d : ℝ) = d := hfl.self ⟨d, 0, by rw [abs_of_nonneg (by positivity)]; omega, by simp⟩
    have p : resizePositionD fl fs n n d = d := by
      unfold resizePositionD
      rw [div_self hnr, f1, div_one, f1, half, mul_one, half, add_sub_cancel_right, whole]
      exact hfs.whole d (by omega)
    rw [resizeCoordD_eq hfs, p]
    have c : coordAt n (d : ℝ) = (d, 0) := by
      unfold coordAt
      rw [Int.floor_natCast, if_neg (by omega)]
      split_ifs with hh
      · rw [Prod.mk.injEq]; exact ⟨by omega, rfl⟩
      · simp
    rw [c]
    simp [single_zero hfs, single_one hfs]
  refine ⟨_, if_neg (by omega), ⟨rfl, rfl, ?_⟩⟩
  intro i hi j hj
  dsimp only at hi hj ⊢
  rw [one _ _ hi h1, one _ _ hj w1]
  have m : ∀ a b : ℝ, IsDouble a → mixD fl 1 0 a b = a := by
    intro a b ha
    unfold mixD
    rw [mul_one, mul_zero, hfl.zero, add_zero, hfl.self ha, hfl.self ha]
  dsimp only
  rw [m _ _ (by rw [m _ _ (hd i hi j hj)]; exact hd i hi j hj), m _ _ (hd i hi j hj)]

/-! ## Blurring -/

theorem sum_flat (g : ℕ → ℕ → ℝ) (h w : ℕ) (hw : 0 < w) :
    ∑ n ∈ Finset.range (h * w), g (n / w) (n % w) = ∑ i ∈ Finset.range h, ∑ j ∈ Finset.range w, g i j := by
  induction h with
  | zero => simp
  | succ h ih =>
    rw [Nat.add_one_mul, Finset.sum_range_add, ih, Finset.sum_range_succ]
    congr 1
    apply Finset.sum_congr rfl
    intro j hj
    rw [Finset.mem_range] at hj
    rw [Nat.mul_comm h w, Nat.mul_add_div hw, Nat.div_eq_of_lt hj, Nat.mul_add_mod, Nat.mod_eq_of_lt hj, add_zero]

theorem list_flat {order : SumTree} (g : ℕ → ℕ → ℝ) {h w : ℕ} (hw : 0 < w) (ho : order.leaves.Perm (List.range (h * w))) :
    (order.leaves.map fun n => g (n / w) (n % w)).sum = ∑ i ∈ Finset.range h, ∑ j ∈ Finset.range w, g i j := by
  rw [(ho.map _).sum_eq, ← sum_flat g h w hw]
  rfl

/-- A sum of products of either sign. -/
theorem sumD_signed (hfl : RoundsToNearest fl) {f g : ℕ → ℝ} (t : SumTree) (hf : ∀ i, |f i - g i| ≤ 1.5e-16 * |g i|)
    (ht : t.depth ≤ 10 ^ 9) :
    |t.sumD fl f - (t.leaves.map g).sum| ≤ (t.depth + 1) * 1.5e-16 * (t.leaves.map fun i => |g i|).sum
    ∧ |(t.leaves.map g).sum| ≤ (t.leaves.map fun i => |g i|).sum := by
  induction t with
  | zero => simp [SumTree.leaves, SumTree.sumD]
  | leaf i =>
    have := hf i
    simp [SumTree.leaves, SumTree.sumD, SumTree.depth]
    linarith
  | node a b iha ihb =>
    simp only [SumTree.depth] at ht
    obtain ⟨a1, a0⟩ := iha (by omega)
    obtain ⟨b1, b0⟩ := ihb (by omega)
    simp only [SumTree.leaves, SumTree.sumD, SumTree.depth, List.map_append, List.sum_append]
    have ha : (a.depth : ℝ) ≤ max a.depth b.depth := by exact_mod_cast le_max_left _ _
    have hb : (b.depth : ℝ) ≤ max a.depth b.depth := by exact_mod_cast le_max_right _ _
    have hm : ((max a.depth b.depth : ℕ) : ℝ) ≤ 10 ^ 9 := by
      have : max a.depth b.depth ≤ 10 ^ 9 := by omega
      exact_mod_cast this
    push_cast at hm ha hb ⊢
    have hA := (abs_nonneg _).trans a0
    have hB := (abs_nonneg _).trans b0
    have d0 : (0 : ℝ) ≤ a.depth := Nat.cast_nonneg _
    generalize (a.leaves.map fun i => |g i|).sum = A at *
    generalize (b.leaves.map fun i => |g i|).sum = B at *
    generalize (a.leaves.map g).sum = a' at *
    generalize (b.leaves.map g).sum = b' at *
    generalize a.sumD fl f = A' at *
    generalize b.sumD fl f = B' at *
    generalize max (a.depth : ℝ) b.depth = m at *
    have hm0 : 0 ≤ m := d0.trans ha
    have a2 : |A' - a'| ≤ (m + 1) * 1.5e-16 * A := a1.trans (by gcongr)
    have b2 : |B' - b'| ≤ (m + 1) * 1.5e-16 * B := b1.trans (by gcongr)
    refine ⟨?_, (abs_add_le _ _).trans (by linarith)⟩
    have e : |A' + B' - (a' + b')| ≤ (m + 1) * 1.5e-16 * (A + B) := by
      rw [show A' + B' - (a' + b') = (A' - a') + (B' - b') by ring]
      exact (abs_add_le _ _).trans (by linarith)
    have hs : |a' + b'| ≤ A + B := (abs_add_le _ _).trans (by linarith)
    have hS : 0 ≤ A + B := add_nonneg hA hB
    generalize A + B = S at *
    have k : (m + 1) * 1.5e-16 * S ≤ 0.25 * S := mul_le_mul_of_nonneg_right (by linarith) hS
    have h : |A' + B'| ≤ 1.25 * S := by
      have := abs_sub_abs_le_abs_sub (A' + B') (a' + b')
      linarith
    have h' := fl_close hfl h
    have := abs_sub_le (fl (A' + B')) (A' + B') (a' + b')
    linarith

theorem sumD_nonneg (hfl : RoundsToNearest fl) {f : ℕ → ℝ} (t : SumTree) (hf : ∀ i ∈ t.leaves, 0 ≤ f i) : 0 ≤ t.sumD fl f := by
  induction t with
  | zero => simp [SumTree.sumD]
  | leaf i => exact hf i (by simp [SumTree.leaves])
  | node a b iha ihb =>
    exact fl_nonneg hfl (add_nonneg (iha fun i hi => hf i (by simp [SumTree.leaves, hi]))
      (ihb fun i hi => hf i (by simp [SumTree.leaves, hi])))

theorem mirror_lt {n : ℕ} (hn : 0 < n) (p : ℤ) : reflect101 n p < n := by
  unfold reflect101
  split_ifs with h
  · exact hn
  · dsimp only
    have h2 : (0 : ℤ) < 2 * ((n : ℤ) - 1) := by omega
    have a := Int.emod_nonneg p h2.ne'
    have b := Int.emod_lt_of_pos p h2
    split_ifs with g
    · exact g
    · omega

/-- **C144** (blurring): adding up the products in any order, no pixel of a blurred image is off by more than
`(depth + 1) * 1.5e-16` of the sum of the sizes of the kernel's entries times the largest pixel. -/
theorem C144_blur (hfl : RoundsToNearest fl) {x k b : Img} {order : SumTree} (ho : order.leaves.Perm (List.range (k.h * k.w)))
    (hdep : order.depth ≤ 10 ^ 9) {M : ℝ} (hM : Bounded x M) (h : filter2D x k = .ok b) :
    ∃ b', filter2DD fl order x k = .ok b' ∧ CloseImg b' b ((order.depth + 1) * 1.5e-16 * (grossSum k * M)) := by
  unfold filter2D at h
  split_ifs at h with hz
  push Not at hz
  obtain ⟨z1, z2, z3, z4⟩ := hz
  rw [Except.ok.injEq] at h
  subst h
  refine ⟨_, if_neg (by tauto), ⟨rfl, rfl, ?_⟩⟩
  intro y hy c hc
  dsimp only at hy hc ⊢
  have s := sumD_signed hfl (f := fun n =>
      fl (k.px (n / k.w) (n % k.w) * x.px (reflect101 x.h ((y : ℤ) + (n / k.w : ℕ) - (k.h / 2 : ℕ)))
        (reflect101 x.w ((c : ℤ) + (n % k.w : ℕ) - (k.w / 2 : ℕ))))) (g := fun n =>
      k.px (n / k.w) (n % k.w) * x.px (reflect101 x.h ((y : ℤ) + (n / k.w : ℕ) - (k.h / 2 : ℕ)))
        (reflect101 x.w ((c : ℤ) + (n % k.w : ℕ) - (k.w / 2 : ℕ)))) order
    (fun i => (hfl.error _).trans (mul_le_mul_of_nonneg_right (by norm_num) (abs_nonneg _))) hdep
  have e1 := list_flat (order := order) (fun i j => k.px i j * x.px (reflect101 x.h ((y : ℤ) + i - (k.h / 2 : ℕ)))
        (reflect101 x.w ((c : ℤ) + j - (k.w / 2 : ℕ)))) (by omega) ho
  have e2 := list_flat (order := order) (fun i j => |k.px i j * x.px (reflect101 x.h ((y : ℤ) + i - (k.h / 2 : ℕ)))
        (reflect101 x.w ((c : ℤ) + j - (k.w / 2 : ℕ)))|) (by omega) ho
  rw [e1, e2] at s
  refine s.1.trans (mul_le_mul_of_nonneg_left ?_ (by positivity))
  unfold grossSum
  rw [Finset.sum_mul]
  apply Finset.sum_le_sum
  intro i _
  rw [Finset.sum_mul]
  apply Finset.sum_le_sum
  intro j _
  rw [abs_mul]
  exact mul_le_mul_of_nonneg_left (hM _ (mirror_lt (by omega) _) _ (mirror_lt (by omega) _)) (abs_nonneg _)

/-- **C144** (no negative pixels): if no entry of the kernel and no pixel is negative, no computed pixel of the blurred and
resampled image is negative. -/
theorem C144_nonneg (hfl : RoundsToNearest fl) (hfs : SinglePrecision fs) {x k y : Img} {order : SumTree}
    (ho : order.leaves.Perm (List.range (k.h * k.w))) {nw nh : ℕ} (hk : ∀ i < k.h, ∀ j < k.w, 0 ≤ k.px i j)
    (hx : ∀ i < x.h, ∀ j < x.w, 0 ≤ x.px i j) (h : blurResampleD fl fs order x k nw nh = .ok y) :
    ∀ i < y.h, ∀ j < y.w, 0 ≤ y.px i j := by
  unfold blurResampleD filter2DD at h
  split_ifs at h with hz
  · simp [bind, Except.bind] at h
  simp only [bind, Except.bind] at h
  unfold cvResizeD at h
  split_ifs at h with hz'
  push Not at hz
  obtain ⟨z1, z2, z3, z4⟩ := hz
  rw [Except.ok.injEq] at h
  subst h
  intro i _ j _
  dsimp only
  rw [resizeCoordD_eq hfs, resizeCoordD_eq hfs]
  obtain ⟨-, b2, b3⟩ := coordAt_bounds (show 0 < x.h by omega) (resizePositionD fl fs x.h nh i)
  obtain ⟨-, c2, c3⟩ := coordAt_bounds (show 0 < x.w by omega) (resizePositionD fl fs x.w nw j)
  have n : ∀ y c : ℕ, 0 ≤ order.sumD fl fun n =>
      fl (k.px (n / k.w) (n % k.w) * x.px (reflect101 x.h ((y : ℤ) + (n / k.w : ℕ) - (k.h / 2 : ℕ)))
        (reflect101 x.w ((c : ℤ) + (n % k.w : ℕ) - (k.w / 2 : ℕ)))) := by
    intro y c
    apply sumD_nonneg hfl
    intro n hn
    have hn' : n < k.h * k.w := List.mem_range.mp (ho.subset hn)
    have k1 : n / k.w < k.h := Nat.div_lt_of_lt_mul (by rwa [Nat.mul_comm])
    have k2 : n % k.w < k.w := Nat.mod_lt _ (by omega)
    exact fl_nonneg hfl (mul_nonneg (hk _ k1 _ k2) (hx _ (mirror_lt (by omega) _) _ (mirror_lt (by omega) _)))
  dsimp only
  exact mixD_nonneg hfl hfs b2 b3 (mixD_nonneg hfl hfs c2 c3 (n _ _) (n _ _)) (mixD_nonneg hfl hfs c2 c3 (n _ _) (n _ _))

/-- **C144** (both steps): blurring with a kernel whose entries have sizes adding up to `G` and resampling to `nw × nh` pixels. -/
theorem C144_image (hfl : RoundsToNearest fl) (hfs : SinglePrecision fs) {x k b y : Img} {order : SumTree}
    (ho : order.leaves.Perm (List.range (k.h * k.w))) (hdep : order.depth ≤ 10 ^ 9) {nw nh : ℕ} {M : ℝ} (hM : Bounded x M)
    (hb : filter2D x k = .ok b) (hy : cvResize b nw nh = .ok y) :
    ∃ y', blurResampleD fl fs order x k nw nh = .ok y'
      ∧ CloseImg y' y (((order.depth + 1) * 1.5e-16 + 1.4e-7 * (x.h + x.w) + 5e-7) * (grossSum k * M)) := by
  obtain ⟨b', e1, c1⟩ := C144_blur hfl ho hdep hM hb
  have sz : b.h = x.h ∧ b.w = x.w ∧ 0 < x.h ∧ 0 < x.w ∧ Bounded b (grossSum k * M) := by
    unfold filter2D at hb
    split_ifs at hb with hz
    push Not at hz
    obtain ⟨z1, z2, z3, z4⟩ := hz
    rw [Except.ok.injEq] at hb
    subst hb
    refine ⟨rfl, rfl, by omega, by omega, ?_⟩
    intro y _ c _
    dsimp only
    unfold grossSum
    rw [Finset.sum_mul]
    refine (Finset.abs_sum_le_sum_abs _ _).trans (Finset.sum_le_sum fun i _ => ?_)
    rw [Finset.sum_mul]
    refine (Finset.abs_sum_le_sum_abs _ _).trans (Finset.sum_le_sum fun j _ => ?_)
    rw [abs_mul]
    exact mul_le_mul_of_nonneg_left (hM _ (mirror_lt (by omega) _) _ (mirror_lt (by omega) _)) (abs_nonneg _)
  obtain ⟨s1, s2, s3, s4, s5⟩ := sz
  have hM0 : 0 ≤ grossSum k * M := (abs_nonneg _).trans (s5 0 (by omega) 0 (by omega))
  have hd : (order.depth : ℝ) ≤ 10 ^ 9 := by exact_mod_cast hdep
  obtain ⟨y', e2, c2⟩ := C144_after hfl hfs s5 c1 (mul_le_mul_of_nonneg_right (by linarith) hM0) hy
  refine ⟨y', by unfold blurResampleD; rw [e1]; exact e2, ⟨c2.h, c2.w, fun i hi j hj => (c2.px i hi j hj).trans (le_of_eq ?_)⟩⟩
  rw [s1, s2]
  ring

end PyBSM
