import Verif.Model.DoubleStretch
import Verif.Lemmas.Percentile
import Verif.Lemmas.DoubleOtfRound
import Verif.Props.Calibration

/-!
# C142: contrast stretching in double precision
-/

noncomputable section

open Classical

namespace PyBSM

open Spec

variable {fl : ℝ → ℝ}

/-! ## Broken lines -/

/-- The broken line through `S 0, S 1, …` at position `t`. -/
def broken (S : ℕ → ℝ) (t : ℝ) : ℝ := S ⌊t⌋₊ + (t - ⌊t⌋₊) * (S (⌊t⌋₊ + 1) - S ⌊t⌋₊)

/-- Entry `k` of a list, the last one beyond its end. -/
def entry (s : List ℝ) (k : ℕ) : ℝ := s.getD (min k (s.length - 1)) 0

theorem broken_mem {S : ℕ → ℝ} {lo hi : ℝ} (h : ∀ k, lo ≤ S k ∧ S k ≤ hi) {t : ℝ} (h0 : 0 ≤ t) : lo ≤ broken S t ∧ broken S t ≤ hi := by
  have a := h ⌊t⌋₊
  have b := h (⌊t⌋₊ + 1)
  have e2 := Nat.floor_le h0
  have e3 := Nat.lt_floor_add_one t
  unfold broken
  constructor <;> nlinarith

/-- A rising broken line between `-M` and `M` has slopes of at most `2 M`. -/
theorem broken_lip {S : ℕ → ℝ} {M : ℝ} (hS : Monotone S) (h : ∀ k, |S k| ≤ M) {t t' : ℝ} (h0 : 0 ≤ t) (h0' : 0 ≤ t') :
    |broken S t' - broken S t| ≤ 2 * M * |t' - t| := by
  have hM : 0 ≤ M := (abs_nonneg _).trans (h 0)
  have hb : ∀ k, -M ≤ S k ∧ S k ≤ M := fun k => abs_le.mp (h k)
  have key : ∀ {t t' : ℝ}, 0 ≤ t → t ≤ t' → |broken S t' - broken S t| ≤ 2 * M * (t' - t) := by
    intro t t' h0 ht
    have e2 := Nat.floor_le h0
    have e3 := Nat.lt_floor_add_one t
    have f2 := Nat.floor_le (h0.trans ht)
    have f3 := Nat.lt_floor_add_one t'
    rcases le_or_gt 1 (t' - t) with c | c
    · have a := broken_mem hb h0
      have b := broken_mem hb (h0.trans ht)
      rw [abs_le]; constructor <;> nlinarith
    · have hf := Nat.floor_le_floor ht
      rcases Nat.eq_or_lt_of_le hf with e | e
      · unfold broken
        rw [← e]
        have s1 := hS (Nat.le_succ ⌊t⌋₊)
        have s2 := hb ⌊t⌋₊
        have s3 := hb (⌊t⌋₊ + 1)
        rw [Nat.succ_eq_add_one] at s1
        rw [show S ⌊t⌋₊ + (t' - ⌊t⌋₊) * (S (⌊t⌋₊ + 1) - S ⌊t⌋₊) - (S ⌊t⌋₊ + (t - ⌊t⌋₊) * (S (⌊t⌋₊ + 1) - S ⌊t⌋₊))
          = (t' - t) * (S (⌊t⌋₊ + 1) - S ⌊t⌋₊) by ring, abs_of_nonneg (mul_nonneg (by linarith) (by linarith))]
        nlinarith
      · have e' : ⌊t'⌋₊ = ⌊t⌋₊ + 1 := by
          have : (⌊t'⌋₊ : ℝ) < ⌊t⌋₊ + 2 := by linarith
          have : ⌊t'⌋₊ < ⌊t⌋₊ + 2 := by exact_mod_cast this
          omega
        unfold broken
        rw [e'] at f2 f3 ⊢
        have s1 := hS (Nat.le_succ ⌊t⌋₊)
        have s1' := hS (Nat.le_succ (⌊t⌋₊ + 1))
        have s2 := hb ⌊t⌋₊
        have s3 := hb (⌊t⌋₊ + 1)
        have s4 := hb (⌊t⌋₊ + 1 + 1)
        rw [Nat.succ_eq_add_one] at s1 s1'
        push_cast at f2 f3 ⊢
        generalize S ⌊t⌋₊ = a at *
        generalize S (⌊t⌋₊ + 1) = b at *
        generalize S (⌊t⌋₊ + 1 + 1) = c at *
        generalize (⌊t⌋₊ : ℝ) = k at *
        rw [show b + (t' - (k + 1)) * (c - b) - (a + (t - k) * (b - a)) = (k + 1 - t) * (b - a) + (t' - (k + 1)) * (c - b) by ring]
        have m1 : 0 ≤ (k + 1 - t) * (b - a) := mul_nonneg (by linarith) (by linarith)
        have m2 : 0 ≤ (t' - (k + 1)) * (c - b) := mul_nonneg (by linarith) (by linarith)
        rw [abs_of_nonneg (by linarith)]
        have m3 : (k + 1 - t) * (b - a) ≤ (k + 1 - t) * (2 * M) := mul_le_mul_of_nonneg_left (by linarith) (by linarith)
        have m4 : (t' - (k + 1)) * (c - b) ≤ (t' - (k + 1)) * (2 * M) := mul_le_mul_of_nonneg_left (by linarith) (by linarith)
        linarith
  rcases le_total t t' with c | c
  · rw [abs_of_nonneg (sub_nonneg.mpr c)]; exact key h0 c
  · rw [abs_sub_comm, abs_sub_comm t', abs_of_nonneg (sub_nonneg.mpr c)]; exact key h0' c

theorem broken_near {S S' : ℕ → ℝ} {e : ℝ} (h : ∀ k, |S' k - S k| ≤ e) {t : ℝ} (h0 : 0 ≤ t) : |broken S' t - broken S t| ≤ e := by
  have a := abs_le.mp (h ⌊t⌋₊)
  have b := abs_le.mp (h (⌊t⌋₊ + 1))
  have e2 := Nat.floor_le h0
  have e3 := Nat.lt_floor_add_one t
  unfold broken
  generalize S ⌊t⌋₊ = x at *
  generalize S' ⌊t⌋₊ = x' at *
  generalize S (⌊t⌋₊ + 1) = y at *
  generalize S' (⌊t⌋₊ + 1) = y' at *
  have g0 : 0 ≤ t - ⌊t⌋₊ := by linarith
  have g1 : t - ⌊t⌋₊ ≤ 1 := by linarith
  generalize t - ⌊t⌋₊ = g at *
  rw [show x' + g * (y' - x') - (x + g * (y - x)) = (1 - g) * (x' - x) + g * (y' - y) by ring, abs_le]
  constructor <;> nlinarith

theorem lerpAt_broken {s : List ℝ} (hs : s ≠ []) {t : ℝ} (h0 : 0 ≤ t) (h1 : t ≤ (s.length : ℝ) - 1) :
    lerpAt s t = broken (entry s) t := by
  have hl := floor_lt_length hs h0 h1
  unfold lerpAt broken entry
  rw [min_eq_left (show ⌊t⌋₊ ≤ s.length - 1 by omega)]

theorem sort_ne {a : List ℝ} (ha : a ≠ []) : a.insertionSort (· ≤ ·) ≠ [] := by
  intro e
  apply ha
  rw [← List.length_eq_zero_iff, ← List.length_insertionSort (r := (· ≤ ·)), e]; rfl

theorem percentile_broken {a : List ℝ} (ha : a ≠ []) {q : ℝ} (h0 : 0 ≤ q) (h1 : q ≤ 100) :
    percentile a q = broken (entry (a.insertionSort (· ≤ ·))) (q / 100 * ((a.length : ℝ) - 1)) := by
  have b := position_bounds (List.length_pos_iff.mpr ha) h0 h1
  rw [percentile_eq]
  exact lerpAt_broken (sort_ne ha) b.1 (by rw [List.length_insertionSort]; exact b.2)

theorem entry_mem {s : List ℝ} (hs : s ≠ []) (k : ℕ) : entry s k ∈ s := by
  have hl := List.length_pos_iff.mpr hs
  unfold entry
  rw [List.getD_eq_getElem _ _ (by omega)]
  exact List.getElem_mem _

theorem entry_mono {s : List ℝ} (hs : s ≠ []) (h : s.Pairwise (· ≤ ·)) : Monotone (entry s) := by
  intro i j hij
  have hl := List.length_pos_iff.mpr hs
  exact getD_sorted h (by omega) (by omega)

theorem sort_map {a : List ℝ} {f : ℝ → ℝ} (hf : Monotone f) :
    (a.map f).insertionSort (· ≤ ·) = (a.insertionSort (· ≤ ·)).map f := by
  have p : ((a.map f).insertionSort (· ≤ ·)).Perm ((a.insertionSort (· ≤ ·)).map f) :=
    (List.perm_insertionSort _ _).trans ((List.perm_insertionSort _ _).symm.map f)
  refine p.eq_of_pairwise (fun _ _ _ _ => le_antisymm) (List.pairwise_insertionSort _ _) ?_
  exact (List.pairwise_insertionSort (· ≤ ·) a).map f fun _ _ h => hf h

theorem entry_map {s : List ℝ} (hs : s ≠ []) (f : ℝ → ℝ) (k : ℕ) : entry (s.map f) k = f (entry s k) := by
  have hl := List.length_pos_iff.mpr hs
  unfold entry
  rw [List.length_map, List.getD_eq_getElem _ _ (by rw [List.length_map]; omega), List.getD_eq_getElem _ _ (by omega), List.getElem_map]

/-- Percentiles of two images that are the same image seen through similar rising curves. -/
theorem percentile_curves {a : List ℝ} (ha : a ≠ []) {q : ℝ} (h0 : 0 ≤ q) (h1 : q ≤ 100) {f g : ℝ → ℝ} (hf : Monotone f) (hg : Monotone g)
    {e : ℝ} (h : ∀ v ∈ a, |f v - g v| ≤ e) : |percentile (a.map f) q - percentile (a.map g) q| ≤ e := by
  have b := position_bounds (List.length_pos_iff.mpr ha) h0 h1
  rw [percentile_broken (by simpa using ha) h0 h1, percentile_broken (by simpa using ha) h0 h1, List.length_map, List.length_map,
    sort_map hf, sort_map hg]
  refine broken_near (fun k => ?_) b.1
  rw [entry_map (sort_ne ha), entry_map (sort_ne ha)]
  exact h _ ((List.mem_insertionSort _).mp (entry_mem (sort_ne ha) k))

/-! ## Percentiles -/

/-- Interpolation between two neighbours, in double precision. -/
theorem lerp_close (hfl : RoundsToNearest fl) {lo hi x M : ℝ} (hlo : |lo| ≤ M) (hhi : |hi| ≤ M) (h0 : 0 ≤ x) (h1 : x ≤ 1) :
    |(if fl x < 1 / 2 then fl (lo + fl (fl (hi - lo) * fl x)) else fl (hi - fl (fl (hi - lo) * fl (1 - fl x))))
      - (lo + x * (hi - lo))| ≤ 2e-15 * M := by
  have hM : 0 ≤ M := (abs_nonneg _).trans hlo
  have d1 : |hi - lo| ≤ 2 * M := (abs_sub _ _).trans (by linarith)
  have d2 := fl_close hfl d1
  have x1 : |x| ≤ 1 := by rw [abs_of_nonneg h0]; exact h1
  have x2 := fl_close hfl x1
  generalize fl x = g at *
  generalize hd : hi - lo = d at *
  generalize fl d = d' at *
  have d3 : |d'| ≤ 2.1 * M := by
    have := abs_sub_abs_le_abs_sub d' d
    linarith
  split_ifs with c
  · have p : |d' * g - x * d| ≤ 6e-16 * M := by
      rw [show d' * g - x * d = d' * (g - x) + (d' - d) * x by ring]
      have a := abs_add_le (d' * (g - x)) ((d' - d) * x)
      rw [abs_mul, abs_mul] at a
      have b := mul_le_mul d3 x2 (abs_nonneg _) (by linarith)
      have e := mul_le_mul d2 x1 (abs_nonneg _) (by linarith)
      linarith
    have xd : |x * d| ≤ 2 * M := by
      rw [abs_mul]
      have := mul_le_mul x1 d1 (abs_nonneg _) (by norm_num)
      linarith
    have p1 : |d' * g| ≤ 2.1 * M := by
      have := abs_sub_abs_le_abs_sub (d' * g) (x * d)
      linarith
    have p2 := fl_close hfl p1
    generalize fl (d' * g) = w at *
    have p3 : |w - x * d| ≤ 9e-16 * M := by
      have := abs_sub_le w (d' * g) (x * d)
      linarith
    have m : |lo + x * d| ≤ M := by
      have hh : hi = lo + d := by linarith
      subst hh
      rw [abs_le] at *
      constructor <;> nlinarith
    have p4 : |lo + w| ≤ 1.1 * M := by
      have := abs_sub_abs_le_abs_sub (lo + w) (lo + x * d)
      rw [show lo + w - (lo + x * d) = w - x * d by ring] at this
      linarith
    have p5 := fl_close hfl p4
    have := abs_sub_le (fl (lo + w)) (lo + w) (lo + x * d)
    rw [show lo + w - (lo + x * d) = w - x * d by ring] at this
    linarith
  · have y1 : |1 - g| ≤ 1.1 := by
      have a := abs_le.mp x2
      rw [abs_le]; constructor <;> linarith
    have y2 := fl_close hfl y1
    generalize fl (1 - g) = y at *
    have y3 : |y - (1 - x)| ≤ 3e-16 := by
      have a := abs_sub_le y (1 - g) (1 - x)
      rw [show 1 - g - (1 - x) = -(g - x) by ring, abs_neg] at a
      linarith
    have z1 : |1 - x| ≤ 1 := by rw [abs_of_nonneg (by linarith)]; linarith
    have p : |d' * y - (1 - x) * d| ≤ 1e-15 * M := by
      rw [show d' * y - (1 - x) * d = d' * (y - (1 - x)) + (d' - d) * (1 - x) by ring]
      have a := abs_add_le (d' * (y - (1 - x))) ((d' - d) * (1 - x))
      rw [abs_mul, abs_mul] at a
      have b := mul_le_mul d3 y3 (abs_nonneg _) (by linarith)
      have e := mul_le_mul d2 z1 (abs_nonneg _) (by linarith)
      linarith
    have xd : |(1 - x) * d| ≤ 2 * M := by
      rw [abs_mul]
      have := mul_le_mul z1 d1 (abs_nonneg _) (by norm_num)
      linarith
    have p1 : |d' * y| ≤ 2.1 * M := by
      have := abs_sub_abs_le_abs_sub (d' * y) ((1 - x) * d)
      linarith
    have p2 := fl_close hfl p1
    generalize fl (d' * y) = w at *
    have p3 : |w - (1 - x) * d| ≤ 1.4e-15 * M := by
      have := abs_sub_le w (d' * y) ((1 - x) * d)
      linarith
    have m : |lo + x * d| ≤ M := by
      have hh : hi = lo + d := by linarith
      subst hh
      rw [abs_le] at *
      constructor <;> nlinarith
    have q : hi - w - (lo + x * d) = -(w - (1 - x) * d) := by
      have hh : hi = lo + d := by linarith
      rw [hh]; ring
    have p4 : |hi - w| ≤ 1.1 * M := by
      have := abs_sub_abs_le_abs_sub (hi - w) (lo + x * d)
      rw [q, abs_neg] at this
      linarith
    have p5 := fl_close hfl p4
    have := abs_sub_le (fl (hi - w)) (hi - w) (lo + x * d)
    rw [q, abs_neg] at this
    linarith

theorem percentile_close (hfl : RoundsToNearest fl) {a : List ℝ} (ha : a ≠ []) {M : ℝ} (hM : ∀ v ∈ a, |v| ≤ M) {q : ℝ} (h0 : 0 ≤ q) (h1 : q ≤ 100) :
    |percentileD fl a q - percentile a q| ≤ 3e-15 * a.length * M := by
  have hl : (1 : ℝ) ≤ a.length := by exact_mod_cast List.length_pos_iff.mpr ha
  have b := position_bounds (List.length_pos_iff.mpr ha) h0 h1
  have hE : ∀ k, |entry (a.insertionSort (· ≤ ·)) k| ≤ M := fun k =>
    hM _ ((List.mem_insertionSort _).mp (entry_mem (sort_ne ha) k))
  have hM0 : 0 ≤ M := (abs_nonneg _).trans (hE 0)
  rw [percentile_broken ha h0 h1]
  have t1 : |q / 100| ≤ 1 := by rw [abs_of_nonneg (by positivity)]; linarith
  have t2 := fl_close hfl t1
  have t0 : 0 ≤ fl (q / 100) := by
    have := hfl.mono (show 0 ≤ q / 100 by positivity)
    rwa [hfl.zero] at this
  have t3 : |fl (q / 100) * ((a.length : ℝ) - 1) - q / 100 * ((a.length : ℝ) - 1)| ≤ 1.2e-16 * ((a.length : ℝ) - 1) := by
    rw [← sub_mul, abs_mul, abs_of_nonneg (show 0 ≤ (a.length : ℝ) - 1 by linarith)]
    exact mul_le_mul_of_nonneg_right (by linarith) (by linarith)
  have t4 : |fl (q / 100) * ((a.length : ℝ) - 1)| ≤ 1.1 * a.length := by
    have := abs_sub_abs_le_abs_sub (fl (q / 100) * ((a.length : ℝ) - 1)) (q / 100 * ((a.length : ℝ) - 1))
    rw [abs_of_nonneg b.1] at this
    linarith [b.2]
  have t5 := fl_close hfl t4
  have t6 : 0 ≤ fl (fl (q / 100) * ((a.length : ℝ) - 1)) := by
    have := hfl.mono (show 0 ≤ fl (q / 100) * ((a.length : ℝ) - 1) from mul_nonneg t0 (by linarith))
    rwa [hfl.zero] at this
  unfold percentileD
  dsimp only
  generalize hT : fl (fl (q / 100) * ((a.length : ℝ) - 1)) = T at *
  have t7 : |T - q / 100 * ((a.length : ℝ) - 1)| ≤ 2.6e-16 * a.length := by
    have := abs_sub_le T (fl (q / 100) * ((a.length : ℝ) - 1)) (q / 100 * ((a.length : ℝ) - 1))
    linarith
  have L := broken_lip (entry_mono (sort_ne ha) (List.pairwise_insertionSort _ _)) hE b.1 t6
  have e2 := Nat.floor_le t6
  have e3 := Nat.lt_floor_add_one T
  have C := lerp_close hfl (hE ⌊T⌋₊) (hE (⌊T⌋₊ + 1)) (x := T - ⌊T⌋₊) (by linarith) (by linarith)
  unfold entry at C
  rw [List.length_insertionSort] at C
  generalize (if fl (T - ⌊T⌋₊) < 1 / 2 then _ else _ : ℝ) = R at *
  have C' : |R - broken (entry (a.insertionSort (· ≤ ·))) T| ≤ 2e-15 * M := by
    unfold broken entry
    rw [List.length_insertionSort]
    exact C
  have F := abs_sub_le R (broken (entry (a.insertionSort (· ≤ ·))) T) (broken (entry (a.insertionSort (· ≤ ·))) (q / 100 * ((a.length : ℝ) - 1)))
  have G : 2 * M * |T - q / 100 * ((a.length : ℝ) - 1)| ≤ 2 * M * (2.6e-16 * a.length) := mul_le_mul_of_nonneg_left t7 (by linarith)
  have H : M ≤ a.length * M := by nlinarith
  nlinarith

/-- **C142** (percentiles). A percentile computed in double precision differs from the exact one by at most `3 * 10^-15` times
the number of pixels times the largest magnitude of a pixel. -/
theorem C142_percentile (hfl : RoundsToNearest fl) {img : List ℝ} (ha : img ≠ []) {M : ℝ} (hM : ∀ v ∈ img, |v| ≤ M) {q p : ℝ}
    (h0 : 0 ≤ q) (h1 : q ≤ 100) (hp : IsPercentile img q p) : |percentileD fl img q - p| ≤ 3e-15 * img.length * M := by
  rw [percentile_iff ha h0 h1] at hp
  rw [hp]
  exact percentile_close hfl ha hM h0 h1

/-! ## Pixels -/

/-- The clipped value of a pixel whose position `r` and whose scale `b` are slightly off. -/
theorem clip_close (hfl : RoundsToNearest fl) {r r' b e : ℝ} (he : 1 / 2 ≤ e) (he' : e ≤ 1e12) (hr : |r' - r| ≤ 3.3e-15 * e)
    (hb : |b - 1| ≤ 9.9e-15 * e) : |min (max (fl (255 * (r' / b))) 0) 255 - 255 * unit r| ≤ 4e-12 * e := by
  obtain ⟨r1, r2⟩ := abs_le.mp hr
  obtain ⟨b1, b2⟩ := abs_le.mp hb
  have hb0 : 0 < b := by norm_num at *; linarith
  obtain ⟨u0, u1⟩ := unit_mem r
  have hu : r < 1 → r ≤ unit r := fun h => by
    unfold unit
    rw [min_eq_right h.le]; exact le_max_right _ _
  have hu' : 0 < r → unit r ≤ r := fun h => by
    unfold unit
    rw [max_eq_right (le_min (by norm_num) h.le)]; exact min_le_right _ _
  have hu1 : 1 ≤ r → unit r = 1 := fun h => by
    unfold unit
    rw [min_eq_left h, max_eq_right zero_le_one]
  have hu0 : r ≤ 0 → unit r = 0 := fun h => by
    unfold unit
    rw [min_eq_right (by linarith), max_eq_left h]
  generalize unit r = u at *
  have c0 : 0 ≤ min (max (fl (255 * (r' / b))) 0) 255 := le_min (le_max_right _ _) (by norm_num)
  have c1 : min (max (fl (255 * (r' / b))) 0) 255 ≤ 255 := min_le_right _ _
  rw [abs_le]
  constructor
  · rcases le_or_gt r 0 with c | c
    · rw [hu0 c]; linarith
    rcases le_or_gt (u - 1.4e-14 * e) 0 with w | w
    · linarith
    have k : u - 1.4e-14 * e ≤ r' / b := by
      rw [le_div_iff₀ hb0]
      have k1 : (u - 1.4e-14 * e) * b ≤ (u - 1.4e-14 * e) * (1 + 9.9e-15 * e) := mul_le_mul_of_nonneg_left (by linarith) w.le
      have k2 : (u - 1.4e-14 * e) * (9.9e-15 * e) ≤ 1 * (9.9e-15 * e) := mul_le_mul_of_nonneg_right (by linarith) (by linarith)
      have := hu' c
      linarith
    have m := hfl.mono (show 255 * (u - 1.4e-14 * e) ≤ 255 * (r' / b) by linarith)
    have z : |255 * (u - 1.4e-14 * e)| ≤ 255 := by rw [abs_of_pos (by linarith)]; linarith
    have z' := (abs_le.mp (fl_close hfl z)).1
    have : 255 * u - 4e-12 * e ≤ fl (255 * (r' / b)) := by linarith
    have : 255 * u - 4e-12 * e ≤ min (max (fl (255 * (r' / b))) 0) 255 := le_min (this.trans (le_max_left _ _)) (by linarith)
    linarith
  · rcases le_or_gt 1 r with c | c
    · rw [hu1 c]; linarith
    have k : r' / b ≤ u + 1.4e-14 * e := by
      rw [div_le_iff₀ hb0]
      have k1 : (u + 1.4e-14 * e) * (1 - 9.9e-15 * e) ≤ (u + 1.4e-14 * e) * b := mul_le_mul_of_nonneg_left (by linarith) (by linarith)
      have k2 : (u + 1.4e-14 * e) * (9.9e-15 * e) ≤ (1 + 1.4e-2) * (9.9e-15 * e) := mul_le_mul_of_nonneg_right (by linarith) (by linarith)
      have := hu c
      linarith
    have m := hfl.mono (show 255 * (r' / b) ≤ 255 * (u + 1.4e-14 * e) by linarith)
    have z : |255 * (u + 1.4e-14 * e)| ≤ 260 := by rw [abs_of_nonneg (by linarith)]; linarith
    have z' := (abs_le.mp (fl_close hfl z)).2
    have : fl (255 * (r' / b)) ≤ 255 * u + 4e-12 * e := by linarith
    have : min (max (fl (255 * (r' / b))) 0) 255 ≤ 255 * u + 4e-12 * e := (min_le_left _ _).trans (max_le this (by linarith))
    linarith

theorem quot_value {x d : ℝ} (hd : 0 < d) :
    toUint8 (clip255 (stretchQuotD fl x d)) = some (roundHalfEven (min (max (fl (x / d)) 0) 255)).toNat := by
  unfold stretchQuotD clip255
  rw [if_neg hd.ne']
  have z : (0 : XR) = .fin 0 := rfl
  have t : (255 : XR) = .fin 255 := rfl
  rw [z, t, XR.fin_max, XR.fin_min]
  rfl

theorem round_clip_range (x : ℝ) : 0 ≤ roundHalfEven (min (max x 0) 255) ∧ roundHalfEven (min (max x 0) 255) ≤ 255 := by
  have a := roundHalfEven_mono (show (0 : ℝ) ≤ min (max x 0) 255 from le_min (le_max_right _ _) (by norm_num))
  have b := roundHalfEven_mono (show min (max x 0) 255 ≤ (255 : ℝ) from min_le_right _ _)
  have e0 : roundHalfEven 0 = 0 := by
    apply round_unique (roundHalfEven_spec _)
    refine ⟨by norm_num, fun h => by norm_num at h⟩
  have e1 : roundHalfEven 255 = 255 := by
    apply round_unique (roundHalfEven_spec _)
    refine ⟨by norm_num, fun h => by norm_num at h⟩
  rw [e0] at a; rw [e1] at b
  exact ⟨a, b⟩

theorem fl_nonneg (hfl : RoundsToNearest fl) {x : ℝ} (h : 0 ≤ x) : 0 ≤ fl x := by
  have := hfl.mono h
  rwa [hfl.zero] at this

theorem fl_pos (hfl : RoundsToNearest fl) {x : ℝ} (h : 0 < x) : 0 < fl x :=
  lt_of_le_of_ne (fl_nonneg hfl h.le) fun e => h.ne' (hfl.eq_zero e.symm)

/-- The two percentiles and the shifted pixels. -/
theorem stretch_steps (hfl : RoundsToNearest fl) {img : List ℝ} (ha : img ≠ []) {M : ℝ} (hM : ∀ v ∈ img, |v| ≤ M) {p0 p1 lo hi : ℝ}
    (h0 : 0 ≤ p0) (h : p0 ≤ p1) (h1 : p1 ≤ 100) (hlo : IsPercentile img p0 lo) (hhi : IsPercentile img p1 hi) (hlt : lo < hi)
    (hd : 1e-12 * img.length * M ≤ hi - lo) :
    (∀ v ∈ img, |fl (v - percentileD fl img p0) - (v - lo)| ≤ 3.3e-15 * (img.length * M))
      ∧ |percentileD fl (img.map fun v => fl (v - percentileD fl img p0)) p1 - (hi - lo)| ≤ 9.6e-15 * (img.length * M)
      ∧ hi - lo ≤ 2 * M ∧ M ≤ img.length * M := by
  have P := C142_percentile hfl ha hM h0 (h.trans h1) hlo
  rw [percentile_iff ha h0 (h.trans h1)] at hlo
  rw [percentile_iff ha (h0.trans h) h1] at hhi
  have B0 := percentile_mem ha h0 (h.trans h1) fun v hv => abs_le.mp (hM v hv)
  have B1 := percentile_mem ha (h0.trans h) h1 fun v hv => abs_le.mp (hM v hv)
  rw [← hlo] at B0
  rw [← hhi] at B1
  have hl : (1 : ℝ) ≤ img.length := by exact_mod_cast List.length_pos_iff.mpr ha
  have hM0 : 0 ≤ M := by linarith
  have hN : M ≤ img.length * M := by nlinarith
  have hS : hi - lo ≤ 2 * M := by linarith
  generalize hp : percentileD fl img p0 = p at *
  have P1 : |p - lo| ≤ 3e-15 * (img.length * M) := by rw [← mul_assoc]; exact P
  have hd' : 1e-12 * (img.length * M) ≤ hi - lo := by rw [← mul_assoc]; exact hd
  have P2 : |p| ≤ 1.01 * M := by
    have := abs_sub_abs_le_abs_sub p lo
    have : |lo| ≤ M := abs_le.mpr B0
    linarith
  have V : ∀ v ∈ img, |v - p| ≤ 2.01 * M := fun v hv => (abs_sub _ _).trans (by have := hM v hv; linarith)
  have F : ∀ v ∈ img, |fl (v - p) - (v - lo)| ≤ 3.3e-15 * (img.length * M) := by
    intro v hv
    have a := fl_close hfl (V v hv)
    have b := abs_sub_le (fl (v - p)) (v - p) (v - lo)
    rw [show v - p - (v - lo) = -(p - lo) by ring, abs_neg] at b
    linarith
  refine ⟨F, ?_, hS, hN⟩
  have hm : Monotone fun v => fl (v - p) := fun x y hxy => hfl.mono (by linarith)
  have hm' : Monotone fun v : ℝ => v - lo := fun x y hxy => by show x - lo ≤ y - lo; linarith
  have Q := percentile_close hfl (a := img.map fun v => fl (v - p)) (by simpa using ha) (M := 2.1 * M) (by
    intro x hx
    obtain ⟨v, hv, rfl⟩ := List.mem_map.mp hx
    have a := fl_close hfl (V v hv)
    have b := abs_sub_abs_le_abs_sub (fl (v - p)) (v - p)
    have := V v hv
    linarith) (h0.trans h) h1
  rw [List.length_map] at Q
  have C := percentile_curves ha (h0.trans h) h1 hm hm' F
  have S := percentile_shift ha (h0.trans h) h1 lo
  rw [S, ← hhi] at C
  have T := abs_sub_le (percentileD fl (img.map fun v => fl (v - p)) p1) (percentile (img.map fun v => fl (v - p)) p1) (hi - lo)
  have e : 3e-15 * (img.length : ℝ) * (2.1 * M) = 6.3e-15 * (img.length * M) := by ring
  rw [e] at Q
  linarith

/-- **C142** (pixels). If the two percentiles are not too close, every pixel of the stretched image is the integer from 0 to
255 nearest to its exact position between the exact percentiles, up to an error of `4 * 10^-12` times the number of pixels
times the largest magnitude over the distance of the percentiles. -/
theorem C142_pixels (hfl : RoundsToNearest fl) {img : List ℝ} (ha : img ≠ []) {M : ℝ} (hM : ∀ v ∈ img, |v| ≤ M) {p0 p1 lo hi : ℝ}
    (h0 : 0 ≤ p0) (h : p0 ≤ p1) (h1 : p1 ≤ 100) (hlo : IsPercentile img p0 lo) (hhi : IsPercentile img p1 hi) (hlt : lo < hi)
    (hd : 1e-12 * img.length * M ≤ hi - lo) {i : ℕ} {v : ℝ} (hv : img[i]? = some v) :
    ∃ k : ℕ, (stretchContrastD fl img p0 p1)[i]? = some (some k) ∧ k ≤ 255
      ∧ |(k : ℝ) - 255 * unit ((v - lo) / (hi - lo))| ≤ 1 / 2 + 4e-12 * (img.length * M / (hi - lo)) := by
  obtain ⟨F, Q, hS, hN⟩ := stretch_steps hfl ha hM h0 h h1 hlo hhi hlt hd
  have hD : 0 < hi - lo := by linarith
  have hd' : 1e-12 * (img.length * M) ≤ hi - lo := by rw [← mul_assoc]; exact hd
  have Fv := F v (List.mem_of_getElem? hv)
  unfold stretchContrastD
  dsimp only
  rw [List.getElem?_map, List.getElem?_map, hv]
  simp only [Option.map_some]
  generalize percentileD fl (img.map fun v => fl (v - percentileD fl img p0)) p1 = q at *
  generalize fl (v - percentileD fl img p0) = x at *
  generalize (img.length : ℝ) * M = N at *
  generalize v - lo = y at *
  generalize hi - lo = d at *
  obtain ⟨q1, q2⟩ := abs_le.mp Q
  have hq : 0 < q := by norm_num at *; linarith
  have hq' : q ≤ 1.1 * d := by norm_num at *; linarith
  have hden : 0 < fl (q / 255) := fl_pos hfl (by positivity)
  have D := hfl.error (q / 255)
  rw [abs_of_pos (show 0 < q / 255 by positivity)] at D
  generalize fl (q / 255) = den at *
  rw [quot_value hden]
  have B : |255 * den / d - 1| ≤ 9.9e-15 * (N / d) := by
    rw [show 255 * den / d - 1 = (255 * (den - q / 255) + (q - d)) / d by field_simp; ring, abs_div, abs_of_pos hD, ← mul_div_assoc,
      div_le_div_iff_of_pos_right hD]
    have a := abs_add_le (255 * (den - q / 255)) (q - d)
    rw [abs_mul, abs_of_pos (by norm_num : (0 : ℝ) < 255)] at a
    norm_num at *
    linarith
  have R : |x / d - y / d| ≤ 3.3e-15 * (N / d) := by
    rw [← sub_div, abs_div, abs_of_pos hD, ← mul_div_assoc, div_le_div_iff_of_pos_right hD]
    exact Fv
  have e1 : 1 / 2 ≤ N / d := by rw [le_div_iff₀ hD]; linarith
  have e2 : N / d ≤ 1e12 := by
    rw [div_le_iff₀ hD]
    norm_num at *
    linarith
  have K := clip_close hfl e1 e2 R B
  rw [show 255 * (x / d / (255 * den / d)) = x / den by field_simp] at K
  have rr := round_clip_range (fl (x / den))
  have sp := (roundHalfEven_spec (min (max (fl (x / den)) 0) 255)).1
  have hc : ((roundHalfEven (min (max (fl (x / den)) 0) 255)).toNat : ℤ) = roundHalfEven (min (max (fl (x / den)) 0) 255) := Int.toNat_of_nonneg rr.1
  refine ⟨_, rfl, by omega, ?_⟩
  have hc' : ((roundHalfEven (min (max (fl (x / den)) 0) 255)).toNat : ℝ) = roundHalfEven (min (max (fl (x / den)) 0) 255) := by exact_mod_cast hc
  rw [hc']
  have T := abs_sub_le (roundHalfEven (min (max (fl (x / den)) 0) 255) : ℝ) (min (max (fl (x / den)) 0) 255) (255 * unit (y / d))
  rw [abs_sub_comm] at sp
  linarith

/-- **C142** (order). Rounding never exchanges pixels: a brighter pixel is never darker in the stretched image. -/
theorem C142_order (hfl : RoundsToNearest fl) {img : List ℝ} (ha : img ≠ []) {M : ℝ} (hM : ∀ v ∈ img, |v| ≤ M) {p0 p1 lo hi : ℝ}
    (h0 : 0 ≤ p0) (h : p0 ≤ p1) (h1 : p1 ≤ 100) (hlo : IsPercentile img p0 lo) (hhi : IsPercentile img p1 hi) (hlt : lo < hi)
    (hd : 1e-12 * img.length * M ≤ hi - lo) {i j : ℕ} {v w : ℝ} (hv : img[i]? = some v) (hw : img[j]? = some w) (hvw : v ≤ w) :
    ∃ k l : ℕ, (stretchContrastD fl img p0 p1)[i]? = some (some k) ∧ (stretchContrastD fl img p0 p1)[j]? = some (some l) ∧ k ≤ l := by
  obtain ⟨-, Q, hS, hN⟩ := stretch_steps hfl ha hM h0 h h1 hlo hhi hlt hd
  have hD : 0 < hi - lo := by linarith
  have hd' : 1e-12 * (img.length * M) ≤ hi - lo := by rw [← mul_assoc]; exact hd
  unfold stretchContrastD
  dsimp only
  rw [List.getElem?_map, List.getElem?_map, hv, List.getElem?_map, List.getElem?_map, hw]
  have X := hfl.mono (show v - percentileD fl img p0 ≤ w - percentileD fl img p0 by linarith)
  generalize percentileD fl (img.map fun v => fl (v - percentileD fl img p0)) p1 = q at *
  have hq : 0 < q := by
    have := (abs_le.mp Q).1
    norm_num at *
    linarith
  have hden : 0 < fl (q / 255) := fl_pos hfl (by positivity)
  generalize fl (q / 255) = den at *
  simp only [Option.map_some]
  rw [quot_value hden, quot_value hden]
  refine ⟨_, _, rfl, rfl, Int.toNat_le_toNat (roundHalfEven_mono ?_)⟩
  have := hfl.mono (div_le_div_of_nonneg_right X hden.le)
  exact min_le_min (max_le_max this le_rfl) le_rfl

/-! ## The hypotheses can be met -/

theorem ramp_percentiles : IsPercentile [0, 10, 20] 0 0 ∧ IsPercentile [0, 10, 20] 100 20 := by
  refine ⟨⟨[0, 10, 20], List.Perm.refl _, by norm_num, 0, 0, rfl, Or.inl ⟨by norm_num, rfl⟩⟩,
    ⟨[0, 10, 20], List.Perm.refl _, by norm_num, 2, 20, rfl, Or.inl ⟨by norm_num, rfl⟩⟩⟩

theorem ramp_size : ∀ v ∈ ([0, 10, 20] : List ℝ), |v| ≤ 20 := by
  intro v hv
  simp only [List.mem_cons, List.not_mem_nil, or_false] at hv
  rcases hv with rfl | rfl | rfl <;> norm_num

example (hfl : RoundsToNearest fl) : |percentileD fl [0, 10, 20] 100 - 20| ≤ 1e-12 :=
  (C142_percentile hfl (by simp) ramp_size (by norm_num) le_rfl ramp_percentiles.2).trans (by norm_num)

/-- The middle pixel of three lies at 127.5 and becomes 127 or 128, the others 0 and 255. -/
example (hfl : RoundsToNearest fl) : ∃ a b c : ℕ, (stretchContrastD fl [0, 10, 20] 0 100)[0]? = some (some a)
    ∧ (stretchContrastD fl [0, 10, 20] 0 100)[1]? = some (some b) ∧ (stretchContrastD fl [0, 10, 20] 0 100)[2]? = some (some c)
    ∧ |(a : ℝ)| ≤ 0.6 ∧ |(b : ℝ) - 127.5| ≤ 0.6 ∧ |(c : ℝ) - 255| ≤ 0.6 := by
  have P := fun {i : ℕ} {v : ℝ} (hv : ([0, 10, 20] : List ℝ)[i]? = some v) =>
    C142_pixels hfl (by simp) ramp_size le_rfl (by norm_num) le_rfl ramp_percentiles.1 ramp_percentiles.2 (by norm_num) (by norm_num) hv
  obtain ⟨a, a1, -, a3⟩ := P (i := 0) rfl
  obtain ⟨b, b1, -, b3⟩ := P (i := 1) rfl
  obtain ⟨c, c1, -, c3⟩ := P (i := 2) rfl
  refine ⟨a, b, c, a1, b1, c1, ?_, ?_, ?_⟩
  · norm_num [unit] at a3 ⊢; linarith
  · norm_num [unit] at b3 ⊢; exact b3.trans (by norm_num)
  · norm_num [unit] at c3 ⊢; exact c3.trans (by norm_num)

example (hfl : RoundsToNearest fl) : ∃ k l : ℕ, (stretchContrastD fl [0, 10, 20] 0 100)[1]? = some (some k)
    ∧ (stretchContrastD fl [0, 10, 20] 0 100)[2]? = some (some l) ∧ k ≤ l :=
  C142_order hfl (by simp) ramp_size le_rfl (by norm_num) le_rfl ramp_percentiles.1 ramp_percentiles.2 (by norm_num) (by norm_num) rfl rfl
    (by norm_num)

end PyBSM
