import Verif.Model.DoubleTrueImage
import Verif.Lemmas.DoubleOtfRound
import Verif.Props.Simulate

/-!
# C143: the true image in double precision
-/

noncomputable section

open Classical

namespace PyBSM

open Spec

variable {fl : ℝ → ℝ}

/-! ## One segment -/

theorem segmentD_error (hfl : RoundsToNearest fl) {a ya b yb : ℝ} (hab : a < b) (x : ℝ) :
    |segmentD fl a ya b yb x - line a ya b yb x| ≤ 8 * 1e-15 * (|line a ya b yb x - ya| + |ya|) := by
  have hd : 0 < b - a := by linarith
  have one : ∀ z : ℝ, Apx 1 (fl z) z |z| := fun z => ((Apx.of (le_refl |z|)).round hfl (by norm_num)).mono (by norm_num)
  have s2 : Apx 1 (fl (b - a)) (b - a) (b - a) := by
    have := one (b - a)
    rwa [abs_of_pos hd] at this
  have q : Apx 4 (fl (fl (yb - ya) / fl (b - a))) ((yb - ya) / (b - a)) (|yb - ya| / (b - a)) :=
    (((one (yb - ya)).quot s2 hd (by norm_num) (by norm_num) (by norm_num)).round hfl (by norm_num)).mono (by norm_num)
  have p : Apx 7 (fl (fl (fl (yb - ya) / fl (b - a)) * fl (x - a))) ((yb - ya) / (b - a) * (x - a))
      (|yb - ya| / (b - a) * |x - a|) :=
    ((q.mul (one (x - a)) (by norm_num) (by norm_num)).round hfl (by norm_num)).mono (by norm_num)
  have r := ((p.add ((Apx.of (le_refl |ya|)).mono (show (0 : ℝ) ≤ 7 by norm_num))).round hfl (by norm_num)).1
  have e1 : line a ya b yb x = (yb - ya) / (b - a) * (x - a) + ya := by unfold line; ring
  have e2 : |line a ya b yb x - ya| = |yb - ya| / (b - a) * |x - a| := by
    rw [e1, add_sub_cancel_right, abs_mul, abs_div, abs_of_pos hd]
  rw [e2, e1]
  norm_num at r ⊢
  exact r

theorem segmentD_mono (hfl : RoundsToNearest fl) {a ya b yb x x' : ℝ} (hab : a < b) (hy : ya ≤ yb) (h : x ≤ x') :
    segmentD fl a ya b yb x ≤ segmentD fl a ya b yb x' := by
  have z : ∀ {t : ℝ}, 0 ≤ t → 0 ≤ fl t := fun ht => hfl.zero.symm.le.trans (hfl.mono ht)
  unfold segmentD
  refine hfl.mono (add_le_add_left (hfl.mono (mul_le_mul_of_nonneg_left (hfl.mono (by linarith)) ?_)) _)
  exact z (div_nonneg (z (by linarith)) (z (by linarith)))

/-- Truncation to `[0, 1]` keeps errors small however far the value is outside. -/
theorem unit_error {y y' : ℝ} (h : |y' - y| ≤ 8 * 1e-15 * (|y| + 2)) : |unit y' - unit y| ≤ 3e-14 := by
  have h1 := abs_le.mp h
  rcases le_or_gt |y| 1.5 with c | c
  · have : |unit y' - unit y| ≤ |y' - y| := by
      unfold unit
      refine (abs_max_sub_max_le_max _ _ _ _).trans ?_
      rw [sub_self, abs_zero]
      refine max_le (abs_nonneg _) ((abs_min_sub_min_le_max _ _ _ _).trans ?_)
      rw [sub_self, abs_zero]
      exact max_le (abs_nonneg _) le_rfl
    refine this.trans (h.trans ?_)
    nlinarith
  · rcases le_total 0 y with s | s
    · rw [abs_of_nonneg s] at c h1
      have e1 : unit y = 1 := by unfold unit; rw [min_eq_left (by linarith), max_eq_right zero_le_one]
      have e2 : unit y' = 1 := by unfold unit; rw [min_eq_left (by nlinarith), max_eq_right zero_le_one]
      rw [e1, e2]; norm_num
    · rw [abs_of_nonpos s] at c h1
      have y0 : y' ≤ 0 := by nlinarith
      have e1 : unit y = 0 := by unfold unit; rw [min_eq_right (by linarith), max_eq_left s]
      have e2 : unit y' = 0 := by unfold unit; rw [min_eq_right (by linarith), max_eq_left y0]
      rw [e1, e2]; norm_num

theorem clip01D_unit (y : ℝ) : clip01D y = unit y := by
  unfold clip01D unit
  dsimp only
  rcases lt_or_ge 1 y with c | c
  · rw [if_pos c, if_neg (by norm_num), min_eq_left c.le, max_eq_right zero_le_one]
  · rw [if_neg (not_lt.mpr c), min_eq_right c]
    rcases lt_or_ge y 0 with d | d
    · rw [if_pos d, max_eq_left d.le]
    · rw [if_neg (not_lt.mpr d), max_eq_right d]

/-! ## The calibration -/

theorem insertionSort_rsort : ∀ cal : List (ℝ × ℝ), cal.insertionSort (fun p q => p.1 ≤ q.1) = rsort cal
  | [] => rfl
  | p :: t => by
    rw [List.insertionSort_cons, insertionSort_rsort t]
    show _ = rinsert p (rsort t)
    induction rsort t with
    | nil => rfl
    | cons q u ih =>
      rw [List.orderedInsert_cons]
      unfold rinsert
      by_cases c : p.1 ≤ q.1
      · rw [if_pos c, if_neg (not_lt.mpr c)]
      · rw [if_neg c, if_pos (not_le.mp c), ih]

theorem seg_both (fl : ℝ → ℝ) (x : ℝ) : ∀ t : List (ℝ × ℝ), Increasing t → 2 ≤ t.length →
    ∃ p ∈ t, ∃ q ∈ t, p.1 < q.1 ∧ interp1dSegD fl x t = segmentD fl p.1 p.2 q.1 q.2 x
      ∧ interp1dSeg (.fin x) (t.map finP) = .fin (line p.1 p.2 q.1 q.2 x)
  | [], _, h => by simp at h
  | [p], _, h => by simp at h
  | [(a, ya), (b, yb)], hinc, _ => by
    have hab : a < b := (List.pairwise_cons.mp hinc).1 (b, yb) (by simp)
    refine ⟨(a, ya), by simp, (b, yb), by simp, hab, rfl, ?_⟩
    show segment _ _ _ _ _ = _
    exact segment_fin hab.ne
  | (a, ya) :: (b, yb) :: (c, yc) :: t, hinc, _ => by
    have hab : a < b := (List.pairwise_cons.mp hinc).1 (b, yb) (by simp)
    have e : interp1dSeg (.fin x) (((a, ya) :: (b, yb) :: (c, yc) :: t).map finP)
        = if XR.le (.fin x) (.fin b) then segment (.fin a) (.fin ya) (.fin b) (.fin yb) (.fin x)
          else interp1dSeg (.fin x) (((b, yb) :: (c, yc) :: t).map finP) := rfl
    have e' : interp1dSegD fl x ((a, ya) :: (b, yb) :: (c, yc) :: t)
        = if x ≤ b then segmentD fl a ya b yb x else interp1dSegD fl x ((b, yb) :: (c, yc) :: t) := rfl
    rw [e, e']
    by_cases h : x ≤ b
    · rw [if_pos ((XR.fin_le _ _).mpr h), if_pos h, segment_fin hab.ne]
      exact ⟨(a, ya), by simp, (b, yb), by simp, hab, rfl, rfl⟩
    · rw [if_neg (fun a => h ((XR.fin_le _ _).mp a)), if_neg h]
      obtain ⟨p, hp, q, hq, h1, h2, h3⟩ := seg_both fl x ((b, yb) :: (c, yc) :: t) (List.pairwise_cons.mp hinc).2 (by simp)
      exact ⟨p, List.mem_cons_of_mem _ hp, q, List.mem_cons_of_mem _ hq, h1, h2, h3⟩

/-- One pixel of the reflectance image. -/
theorem pixel_reflectance (hfl : RoundsToNearest fl) {cal : List (ℝ × ℝ)} (h : Calibration cal) (hu : ∀ p ∈ cal, |p.2| ≤ 1) (x : ℝ) :
    |clip01D (interp1dSegD fl x (cal.insertionSort fun p q => p.1 ≤ q.1)) - unit (calAt cal x)| ≤ 3e-14 := by
  rw [insertionSort_rsort, clip01D_unit]
  obtain ⟨p, hp, q, hq, h1, h2, h3⟩ := seg_both fl x (rsort cal) (rsort_increasing cal h.distinct)
    (by rw [(rsort_perm cal).length_eq]; exact h.two)
  have hz : (cal.map fun p => XR.fin p.1).zip (cal.map fun p => XR.fin p.2) = cal.map finP := by
    rw [List.zip_map']; rfl
  have e := (calAt_spec h x).2
  rw [hz, sortKey_finP, h3, XR.fin.injEq] at e
  rw [h2, ← e]
  apply unit_error
  have u := hu p ((rsort_perm cal).mem_iff.mp hp)
  refine (segmentD_error hfl h1 x).trans ?_
  have := abs_sub (line p.1 p.2 q.1 q.2 x) p.2
  apply mul_le_mul_of_nonneg_left _ (by norm_num)
  linarith

/-- **C143**: with a calibration by reflectances between -1 and 1, every pixel of the reflectance image is within 3e-14 of its
exact value, however far the pixel value is outside the calibrated range. -/
theorem C143_reflectance (hfl : RoundsToNearest fl) {cal : List (ℝ × ℝ)} (h : Calibration cal) (hu : ∀ p ∈ cal, |p.2| ≤ 1)
    (img : List ℝ) :
    ∃ ys : List ℝ, imgToReflectance (img.map .fin) (cal.map fun p => .fin p.1) (cal.map fun p => .fin p.2) = .ok (ys.map .fin)
      ∧ List.Forall₂ (fun y' y => |y' - y| ≤ 3e-14 ∧ 0 ≤ y' ∧ y' ≤ 1) (imgToReflectanceD fl img cal) ys := by
  refine ⟨img.map fun x => unit (calAt cal x), ?_, ?_⟩
  · rw [imgToReflectance_value h, List.map_map]; rfl
  · unfold imgToReflectanceD
    rw [List.forall₂_map_left_iff, List.forall₂_map_right_iff]
    refine List.forall₂_same.mpr fun x _ => ⟨pixel_reflectance hfl h hu x, ?_⟩
    rw [clip01D_unit]
    exact unit_mem _

/-- **C143**: with a calibration of two points, as `RefImage` makes it by default, a brighter pixel never gets a smaller
reflectance, rounding or not. -/
theorem C143_two_points (hfl : RoundsToNearest fl) {p q u v : ℝ} (hpq : p < q) (huv : u ≤ v) (img : List ℝ) {i j : ℕ} {x x' : ℝ}
    (hi : img[i]? = some x) (hj : img[j]? = some x') (hx : x ≤ x') :
    ∃ y y', (imgToReflectanceD fl img [(p, u), (q, v)])[i]? = some y ∧ (imgToReflectanceD fl img [(p, u), (q, v)])[j]? = some y'
      ∧ y ≤ y' := by
  have hs : ([(p, u), (q, v)] : List (ℝ × ℝ)).insertionSort (fun p q => p.1 ≤ q.1) = [(p, u), (q, v)] := by
    simp [hpq.le]
  unfold imgToReflectanceD
  rw [hs]
  refine ⟨_, _, by rw [List.getElem?_map, hi]; rfl, by rw [List.getElem?_map, hj]; rfl, ?_⟩
  beta_reduce
  rw [clip01D_unit, clip01D_unit]
  exact unit_mono (segmentD_mono hfl hpq huv hx)

/-- **C143**: with any brightening calibration a brighter pixel gets at most 6e-14 less reflectance. -/
theorem C143_order (hfl : RoundsToNearest fl) {cal : List (ℝ × ℝ)} (h : Calibration cal) (hm : Brightening cal)
    (hu : ∀ p ∈ cal, |p.2| ≤ 1) (img : List ℝ) {i j : ℕ} {x x' : ℝ}
    (hi : img[i]? = some x) (hj : img[j]? = some x') (hx : x ≤ x') :
    ∃ y y', (imgToReflectanceD fl img cal)[i]? = some y ∧ (imgToReflectanceD fl img cal)[j]? = some y' ∧ y ≤ y' + 6e-14 := by
  unfold imgToReflectanceD
  refine ⟨_, _, by rw [List.getElem?_map, hi]; rfl, by rw [List.getElem?_map, hj]; rfl, ?_⟩
  have a := abs_le.mp (pixel_reflectance hfl h hu x)
  have b := abs_le.mp (pixel_reflectance hfl h hu x')
  have m : unit (calAt cal x) ≤ unit (calAt cal x') := by
    apply unit_mono
    refine (calAt_spec h x).1.mono (rsort_increasing cal h.distinct) ?_ (calAt_spec h x').1 hx
    intro r hr t ht
    exact hm r ((rsort_perm cal).mem_iff.mp hr) t ((rsort_perm cal).mem_iff.mp ht)
  linarith [a.1, a.2, b.1, b.2]

/-! ## Photoelectrons -/

theorem refl_grid (hfl : RoundsToNearest fl) {k : ℕ} (hk : k < 100) : |linspaceD fl 0 1 100 k - k / 99| ≤ 3e-15 := by
  have h1 : fl 1 = 1 := hfl.self ⟨1, 0, by norm_num, by norm_num⟩
  unfold linspaceD
  by_cases c : k + 1 = 100
  · rw [if_pos c]
    have : k = 99 := by omega
    subst this
    norm_num
  · rw [if_neg c, sub_zero, h1, add_zero]
    have hk0 : (0 : ℝ) ≤ k := Nat.cast_nonneg k
    have hk1 : (k : ℝ) ≤ 99 := by exact_mod_cast (by omega : k ≤ 99)
    have one : Apx 1 (fl (1 / ((100 : ℕ) - 1 : ℝ))) (1 / 99) (1 / 99) := by
      have : (1 / (((100 : ℕ) : ℝ) - 1)) = 1 / 99 := by norm_num
      rw [this]
      exact Apx.const hfl (by norm_num)
    have m := ((((Apx.of (show |(k : ℝ)| ≤ k by rw [abs_of_nonneg hk0])).mul one (by norm_num) (by norm_num)).round hfl
      (by norm_num))).1
    have self : ∀ x, fl (fl x) = fl x := fun x => hfl.self (hfl x).1
    rw [self]
    have e : (k : ℝ) * (1 / 99) = k / 99 := by ring
    rw [e] at m
    refine m.trans ?_
    have : (k : ℝ) / 99 ≤ 1 := by rw [div_le_one (by norm_num)]; exact hk1
    norm_num at m ⊢
    linarith

theorem refl_increasing (hfl : RoundsToNearest fl) (pe : ℕ → ℝ) :
    Increasing ((List.range 100).map fun k => (linspaceD fl 0 1 100 k, pe k)) := by
  unfold Increasing
  rw [List.pairwise_map]
  refine (List.pairwise_lt_range).imp_of_mem ?_
  intro i j hi hj hij
  have a := abs_le.mp (refl_grid hfl (List.mem_range.mp hi))
  have b := abs_le.mp (refl_grid hfl (List.mem_range.mp hj))
  have : (i : ℝ) + 1 ≤ j := by exact_mod_cast hij
  have : (i : ℝ) / 99 + 1 / 99 ≤ j / 99 := by rw [← add_div]; exact div_le_div_of_nonneg_right this (by norm_num)
  dsimp only
  norm_num at *
  linarith

/-- Interpolation in a table whose entries are close to a straight line. -/
theorem interpFromD_close (hfl : RoundsToNearest fl) {A B e M x : ℝ} (he : 0 ≤ e) (hM : 0 ≤ M) : ∀ t : List (ℝ × ℝ), Increasing t →
    (∀ p ∈ t, |p.2 - (A + B * p.1)| ≤ e ∧ |p.2| ≤ M) → (∀ p, t.head? = some p → p.1 ≤ x) → (∀ p, t.getLast? = some p → x ≤ p.1) →
    t ≠ [] → |interpFromD fl x t - (A + B * x)| ≤ e + 24 * 1e-15 * M
  | [], _, _, _, _, h => by exact absurd rfl h
  | [(a, ya)], _, ht, h0, h1, _ => by
    have x0 := h0 _ rfl
    have x1 := h1 _ rfl
    have : x = a := le_antisymm x1 x0
    subst this
    have := (ht (x, ya) (by simp)).1
    show |ya - _| ≤ _
    have : 0 ≤ 24 * 1e-15 * M := by positivity
    simp only at *
    linarith
  | (a, ya) :: (b, yb) :: t, hinc, ht, h0, h1, _ => by
    have hab : a < b := (List.pairwise_cons.mp hinc).1 (b, yb) (by simp)
    have x0 : a ≤ x := h0 _ rfl
    have hA := ht (a, ya) (by simp)
    have hB := ht (b, yb) (by simp)
    simp only at hA hB
    have pos : 0 ≤ 24 * 1e-15 * M := by positivity
    have e' : interpFromD fl x ((a, ya) :: (b, yb) :: t)
        = if x < b then (if x = a then ya else segmentD fl a ya b yb x) else interpFromD fl x ((b, yb) :: t) := rfl
    rw [e']
    by_cases c : x < b
    · rw [if_pos c]
      by_cases d : x = a
      · rw [if_pos d, d]
        linarith [hA.1]
      · rw [if_neg d]
        have hd : 0 < b - a := by linarith
        have w0 : 0 ≤ (x - a) / (b - a) := div_nonneg (by linarith) hd.le
        have w1 : (x - a) / (b - a) ≤ 1 := by rw [div_le_one hd]; linarith
        have ex : x = a + (x - a) / (b - a) * (b - a) := by rw [div_mul_cancel₀ _ hd.ne']; ring
        have s := segmentD_error hfl (ya := ya) (yb := yb) hab x
        have a2 := abs_le.mp hA.2
        have b2 := abs_le.mp hB.2
        have l1 : |line a ya b yb x - ya| ≤ 2 * M := by
          unfold line
          rw [add_sub_cancel_left, abs_mul, abs_of_nonneg w0]
          have : |yb - ya| ≤ 2 * M := by rw [abs_le]; constructor <;> linarith
          nlinarith [abs_nonneg (yb - ya)]
        have l2 : |line a ya b yb x - (A + B * x)| ≤ e := by
          have k1 := abs_le.mp hA.1
          have k2 := abs_le.mp hB.1
          have : line a ya b yb x - (A + B * x) = (1 - (x - a) / (b - a)) * (ya - (A + B * a))
              + (x - a) / (b - a) * (yb - (A + B * b)) := by
            unfold line
            generalize hw : (x - a) / (b - a) = w at *
            rw [ex]; ring
          rw [this, abs_le]
          constructor <;> nlinarith
        have tri : segmentD fl a ya b yb x - (A + B * x)
            = (segmentD fl a ya b yb x - line a ya b yb x) + (line a ya b yb x - (A + B * x)) := by ring
        rw [tri]
        refine (abs_add_le _ _).trans ?_
        have : 8 * 1e-15 * (|line a ya b yb x - ya| + |ya|) ≤ 24 * 1e-15 * M := by nlinarith [hA.2]
        linarith
    · rw [if_neg c]
      refine interpFromD_close hfl he hM ((b, yb) :: t) (List.pairwise_cons.mp hinc).2
        (fun p hp => ht p (List.mem_cons_of_mem _ hp)) ?_ ?_ (by simp)
      · intro p hp
        cases hp
        exact not_lt.mp c
      · intro p hp
        exact h1 p (by rw [List.getLast?_cons_cons]; exact hp)

/-- **C143**: the true image is computed without an error, and if the photoelectrons of the table are within `δ P` of their exact
values, every pixel is within `(δ + 2e-13) P` of its exact value, where no exact pixel value exceeds `P`. -/
theorem C143_electrons (hfl : RoundsToNearest fl) {r : RefImage} {cal : List (ℝ × ℝ)} (hr : RefOf r cal) (hu : ∀ p ∈ cal, |p.2| ≤ 1)
    {s : RealSensor} {B : List (Fin 6 → ℝ)} {P δ : ℝ} (h0 : |s.pixel B 0| ≤ P) (h1 : |s.pixel B 1| ≤ P) (hδ : 0 ≤ δ) (hδ1 : δ ≤ 1)
    {pe : ℕ → ℝ} (hpe : ∀ k < 100, |pe k - s.pixel B (k / 99)| ≤ δ * P) :
    ∃ out ys : List ℝ, trueImageD fl r.img.ravel cal pe = .ok out
      ∧ trueImage r (vec 100 fun i => i / 99) (vec 100 fun i => s.pixel B (i / 99)) = .ok (ys.map .fin)
      ∧ List.Forall₂ (fun y' y => |y' - y| ≤ (δ + 2e-13) * P) out ys := by
  have hP : 0 ≤ P := (abs_nonneg _).trans h0
  have q0 := abs_le.mp h0
  have q1 := abs_le.mp h1
  have slope : |s.pixel B 1 - s.pixel B 0| ≤ 2 * P := by rw [abs_le]; constructor <;> linarith
  have first : linspaceD fl 0 1 100 0 = 0 := by
    unfold linspaceD
    rw [if_neg (by norm_num), Nat.cast_zero, zero_mul, hfl.zero, add_zero, hfl.zero]
  have last : linspaceD fl 0 1 100 99 = 1 := by unfold linspaceD; rw [if_pos (by norm_num)]
  have hl : ((List.range 100).map fun k => (linspaceD fl 0 1 100 k, pe k)).getLast? = some (1, pe 99) := by
    rw [List.getLast?_map, show (List.range 100).getLast? = some 99 by rfl]
    simp [last]
  have hh : ((List.range 100).map fun k => (linspaceD fl 0 1 100 k, pe k)).head? = some (0, pe 0) := by
    rw [List.head?_map, show (List.range 100).head? = some 0 by rfl]
    simp [first]
  have key : ∀ x : ℝ, ∃ y', interp1dStrictD fl ((List.range 100).map fun k => (linspaceD fl 0 1 100 k, pe k))
      (clip01D (interp1dSegD fl x (cal.insertionSort fun p q => p.1 ≤ q.1))) = .ok y'
      ∧ |y' - s.pixel B (unit (calAt cal x))| ≤ (δ + 2e-13) * P := by
    intro x
    have pr := pixel_reflectance hfl hr.valid hu x
    have um : 0 ≤ clip01D (interp1dSegD fl x (cal.insertionSort fun p q => p.1 ≤ q.1))
        ∧ clip01D (interp1dSegD fl x (cal.insertionSort fun p q => p.1 ≤ q.1)) ≤ 1 := by
      rw [clip01D_unit]; exact unit_mem _
    generalize clip01D (interp1dSegD fl x (cal.insertionSort fun p q => p.1 ≤ q.1)) = ρ at pr um ⊢
    refine ⟨interpFromD fl ρ ((List.range 100).map fun k => (linspaceD fl 0 1 100 k, pe k)), ?_, ?_⟩
    · unfold interp1dStrictD
      rw [hh, hl]
      dsimp only
      rw [if_neg (by push Not; exact um)]
    · have close := interpFromD_close hfl (A := s.pixel B 0) (B := s.pixel B 1 - s.pixel B 0) (e := (δ + 6e-15) * P) (M := 3 * P)
        (x := ρ) (by positivity) (by positivity) _ (refl_increasing hfl pe) ?_ ?_ ?_ (by simp)
      · rw [pixel_affine s B (unit _)]
        have tri : ∀ y' u : ℝ, y' - (s.pixel B 0 + (s.pixel B 1 - s.pixel B 0) * u)
            = (y' - (s.pixel B 0 + (s.pixel B 1 - s.pixel B 0) * ρ)) + (s.pixel B 1 - s.pixel B 0) * (ρ - u) := by intros; ring
        rw [tri]
        refine (abs_add_le _ _).trans ?_
        rw [abs_mul]
        have : |s.pixel B 1 - s.pixel B 0| * |ρ - unit (calAt cal x)| ≤ 2 * P * 3e-14 :=
          mul_le_mul slope pr (abs_nonneg _) (by positivity)
        norm_num at *
        linarith
      · intro p hp
        obtain ⟨k, hk, rfl⟩ := List.mem_map.mp hp
        rw [List.mem_range] at hk
        have g := refl_grid hfl hk
        have t := hpe k hk
        have k0 : (0 : ℝ) ≤ k / 99 := by positivity
        have k1 : (k : ℝ) / 99 ≤ 1 := by
          rw [div_le_one (by norm_num)]
          exact_mod_cast (by omega : k ≤ 99)
        dsimp only
        constructor
        · have e : pe k - (s.pixel B 0 + (s.pixel B 1 - s.pixel B 0) * linspaceD fl 0 1 100 k)
              = (pe k - s.pixel B (k / 99)) - (s.pixel B 1 - s.pixel B 0) * (linspaceD fl 0 1 100 k - k / 99) := by
            rw [pixel_affine s B (k / 99)]; ring
          rw [e]
          refine (abs_sub _ _).trans ?_
          rw [abs_mul]
          have : |s.pixel B 1 - s.pixel B 0| * |linspaceD fl 0 1 100 k - k / 99| ≤ 2 * P * 3e-15 :=
            mul_le_mul slope g (abs_nonneg _) (by positivity)
          norm_num at *
          linarith
        · have a : |s.pixel B (k / 99)| ≤ P := by
            rw [pixel_affine, abs_le]
            constructor <;> nlinarith
          have : pe k = (pe k - s.pixel B (k / 99)) + s.pixel B (k / 99) := by ring
          rw [this]
          refine (abs_add_le _ _).trans ?_
          nlinarith
      · intro p hp
        rw [hh] at hp
        cases hp
        exact um.1
      · intro p hp
        rw [hl] at hp
        cases hp
        exact um.2
  choose f hf1 hf2 using key
  refine ⟨r.img.ravel.map f, r.img.ravel.map fun x => s.pixel B (unit (calAt cal x)), ?_, trueImage_pixel hr s B, ?_⟩
  · unfold trueImageD imgToReflectanceD
    induction r.img.ravel with
    | nil => rfl
    | cons x t ih => rw [List.map_cons, List.mapM_cons, hf1, ih]; rfl
  · rw [List.forall₂_map_left_iff, List.forall₂_map_right_iff]
    exact List.forall₂_same.mpr fun x _ => hf2 x

end PyBSM
