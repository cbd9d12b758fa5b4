import Verif.Model.Simulation
import Verif.Spec.Calibration

noncomputable section

open Classical

namespace PyBSM

theorem getD_sorted {s : List ℝ} (h : s.Pairwise (· ≤ ·)) {i j : ℕ} (hij : i ≤ j) (hj : j < s.length) :
    s.getD i 0 ≤ s.getD j 0 := by
  rcases Nat.eq_or_lt_of_le hij with rfl | hij
  · exact le_rfl
  · rw [List.getD_eq_getElem _ _ (by omega), List.getD_eq_getElem _ _ hj]
    exact (List.pairwise_iff_getElem.mp h) i j _ hj hij

/-- The broken line through the entries of a list, at position `t`. -/
def lerpAt (s : List ℝ) (t : ℝ) : ℝ :=
  s.getD ⌊t⌋₊ 0 + (t - ⌊t⌋₊) * (s.getD (min (⌊t⌋₊ + 1) (s.length - 1)) 0 - s.getD ⌊t⌋₊ 0)

theorem percentile_eq (a : List ℝ) (q : ℝ) :
    percentile a q = lerpAt (a.insertionSort (· ≤ ·)) (q / 100 * ((a.length : ℝ) - 1)) := by
  unfold percentile lerpAt
  rw [List.length_insertionSort]

theorem floor_lt_length {s : List ℝ} (hs : s ≠ []) {t : ℝ} (h0 : 0 ≤ t) (h1 : t ≤ (s.length : ℝ) - 1) :
    ⌊t⌋₊ < s.length := by
  have hl := List.length_pos_iff.mpr hs
  rw [Nat.floor_lt h0]
  linarith

theorem lerpAt_bounds {s : List ℝ} (h : s.Pairwise (· ≤ ·)) (hs : s ≠ []) {t : ℝ} (h0 : 0 ≤ t)
    (h1 : t ≤ (s.length : ℝ) - 1) :
    s.getD ⌊t⌋₊ 0 ≤ lerpAt s t ∧ lerpAt s t ≤ s.getD (min (⌊t⌋₊ + 1) (s.length - 1)) 0 := by
  have hl := floor_lt_length hs h0 h1
  have e1 : s.getD ⌊t⌋₊ 0 ≤ s.getD (min (⌊t⌋₊ + 1) (s.length - 1)) 0 := getD_sorted h (by omega) (by omega)
  have e2 := Nat.floor_le h0
  have e3 := Nat.lt_floor_add_one t
  unfold lerpAt
  constructor <;> nlinarith

theorem lerpAt_mono {s : List ℝ} (h : s.Pairwise (· ≤ ·)) (hs : s ≠ []) {t t' : ℝ} (h0 : 0 ≤ t) (ht : t ≤ t')
    (h1 : t' ≤ (s.length : ℝ) - 1) : lerpAt s t ≤ lerpAt s t' := by
  have b1 := lerpAt_bounds h hs h0 (ht.trans h1)
  have b2 := lerpAt_bounds h hs (h0.trans ht) h1
  have hf := Nat.floor_le_floor ht
  have hl := floor_lt_length hs (h0.trans ht) h1
  rcases Nat.eq_or_lt_of_le hf with e | e
  · unfold lerpAt
    rw [e]
    have e1 : s.getD ⌊t'⌋₊ 0 ≤ s.getD (min (⌊t'⌋₊ + 1) (s.length - 1)) 0 := getD_sorted h (by omega) (by omega)
    nlinarith
  · have : s.getD (min (⌊t⌋₊ + 1) (s.length - 1)) 0 ≤ s.getD ⌊t'⌋₊ 0 := getD_sorted h (by omega) (by omega)
    linarith [b1.2, b2.1]

theorem lerpAt_mem {s : List ℝ} (hs : s ≠ []) {t lo hi : ℝ} (h0 : 0 ≤ t) (h1 : t ≤ (s.length : ℝ) - 1)
    (hb : ∀ x ∈ s, lo ≤ x ∧ x ≤ hi) : lo ≤ lerpAt s t ∧ lerpAt s t ≤ hi := by
  have hl := floor_lt_length hs h0 h1
  have hm : ∀ i < s.length, lo ≤ s.getD i 0 ∧ s.getD i 0 ≤ hi := by
    intro i hi'
    rw [List.getD_eq_getElem _ _ hi']
    exact hb _ (List.getElem_mem _)
  have a := hm _ hl
  have b := hm (min (⌊t⌋₊ + 1) (s.length - 1)) (by omega)
  have e2 := Nat.floor_le h0
  have e3 := Nat.lt_floor_add_one t
  unfold lerpAt
  constructor <;> nlinarith

theorem position_bounds {n : ℕ} (hn : 0 < n) {q : ℝ} (h0 : 0 ≤ q) (h1 : q ≤ 100) :
    0 ≤ q / 100 * ((n : ℝ) - 1) ∧ q / 100 * ((n : ℝ) - 1) ≤ (n : ℝ) - 1 := by
  have : (1 : ℝ) ≤ n := by exact_mod_cast hn
  have hq : q / 100 ≤ 1 := by linarith
  have hq0 : 0 ≤ q / 100 := by linarith
  constructor <;> nlinarith

theorem percentile_mono {a : List ℝ} (ha : a ≠ []) {q q' : ℝ} (h0 : 0 ≤ q) (h : q ≤ q') (h1 : q' ≤ 100) :
    percentile a q ≤ percentile a q' := by
  rw [percentile_eq, percentile_eq]
  have hl := List.length_pos_iff.mpr ha
  have b := position_bounds hl h0 (h.trans h1)
  have b' := position_bounds hl (h0.trans h) h1
  have hn : (1 : ℝ) ≤ a.length := by exact_mod_cast hl
  refine lerpAt_mono (List.pairwise_insertionSort _ _) ?_ b.1 ?_ ?_
  · intro e
    apply ha
    rw [← List.length_eq_zero_iff, ← List.length_insertionSort (r := (· ≤ ·)), e]; rfl
  · have : q / 100 ≤ q' / 100 := by linarith
    nlinarith
  · rw [List.length_insertionSort]; exact b'.2

theorem percentile_mem {a : List ℝ} (ha : a ≠ []) {q lo hi : ℝ} (h0 : 0 ≤ q) (h1 : q ≤ 100)
    (hb : ∀ x ∈ a, lo ≤ x ∧ x ≤ hi) : lo ≤ percentile a q ∧ percentile a q ≤ hi := by
  rw [percentile_eq]
  have hl := List.length_pos_iff.mpr ha
  have b := position_bounds hl h0 h1
  refine lerpAt_mem ?_ b.1 ?_ ?_
  · intro e
    apply ha
    rw [← List.length_eq_zero_iff, ← List.length_insertionSort (r := (· ≤ ·)), e]; rfl
  · rw [List.length_insertionSort]; exact b.2
  · intro x hx
    exact hb x ((List.mem_insertionSort _).mp hx)

theorem percentile_affine {a : List ℝ} (ha : a ≠ []) {q : ℝ} (h0 : 0 ≤ q) (h1 : q ≤ 100) {c : ℝ} (hc : 0 < c)
    (d : ℝ) : percentile (a.map fun x => c * x + d) q = c * percentile a q + d := by
  rw [percentile_eq, percentile_eq]
  have hl := List.length_pos_iff.mpr ha
  have b := position_bounds hl h0 h1
  have hs : (a.map fun x => c * x + d).insertionSort (· ≤ ·) = (a.insertionSort (· ≤ ·)).map fun x => c * x + d := by
    rw [List.map_insertionSort (s := (· ≤ ·))]
    intro x _ y _
    constructor
    · intro h; nlinarith
    · intro h
      have h : c * x + d ≤ c * y + d := h
      exact le_of_mul_le_mul_left (by linarith) hc
  rw [hs, List.length_map]
  set s := a.insertionSort (· ≤ ·) with hsdef
  have hsl : s.length = a.length := List.length_insertionSort _ _
  have hsne : s ≠ [] := by
    intro e; rw [e] at hsl; simp at hsl; omega
  have hf := floor_lt_length hsne b.1 (by rw [hsl]; exact b.2)
  have hg : ∀ i < s.length, (s.map fun x => c * x + d).getD i 0 = c * s.getD i 0 + d := by
    intro i hi
    rw [List.getD_eq_getElem _ _ (by rw [List.length_map]; exact hi), List.getD_eq_getElem _ _ hi, List.getElem_map]
  unfold lerpAt
  rw [List.length_map, hg _ hf, hg _ (by omega)]
  ring

theorem percentile_iff {a : List ℝ} (ha : a ≠ []) {q : ℝ} (h0 : 0 ≤ q) (h1 : q ≤ 100) (v : ℝ) :
    Spec.IsPercentile a q v ↔ v = percentile a q := by
  rw [percentile_eq]
  have hl := List.length_pos_iff.mpr ha
  have b := position_bounds hl h0 h1
  have hb2 : q / 100 * ((a.length : ℝ) - 1) < a.length := by linarith [b.2]
  unfold Spec.IsPercentile
  obtain ⟨t, ht⟩ : ∃ t, q / 100 * ((a.length : ℝ) - 1) = t := ⟨_, rfl⟩
  rw [ht] at b hb2 ⊢
  have hlen : (a.insertionSort (· ≤ ·)).length = a.length := List.length_insertionSort _ _
  constructor
  · rintro ⟨srt, hp, hs, k, x, hk, h⟩
    have e : srt = a.insertionSort (· ≤ ·) :=
      (hp.trans (List.perm_insertionSort _ _).symm).eq_of_pairwise (fun _ _ _ _ => le_antisymm) hs (List.pairwise_insertionSort _ _)
    rw [← e]
    have hsl : srt.length = a.length := hp.length_eq
    have gk : srt.getD k 0 = x := by rw [List.getD_eq_getElem?_getD, hk]; rfl
    rcases h with ⟨rfl, rfl⟩ | ⟨h2, h3, y, hy, rfl⟩
    · unfold lerpAt
      rw [Nat.floor_natCast, gk, sub_self, zero_mul, add_zero]
    · have hf : ⌊t⌋₊ = k := by
        rw [Nat.floor_eq_iff b.1]
        exact ⟨h2.le, h3⟩
      have gy : srt.getD (k + 1) 0 = y := by rw [List.getD_eq_getElem?_getD, hy]; rfl
      have hk1 : k + 1 < srt.length := by
        by_contra hlt
        rw [List.getElem?_eq_none (not_lt.mp hlt)] at hy
        cases hy
      unfold lerpAt Spec.line
      rw [hf, min_eq_left (by omega), gk, gy]
      ring
  · rintro rfl
    refine ⟨a.insertionSort (· ≤ ·), List.perm_insertionSort _ _, List.pairwise_insertionSort _ _, ⌊t⌋₊,
      (a.insertionSort (· ≤ ·)).getD ⌊t⌋₊ 0, ?_, ?_⟩
    · have : ⌊t⌋₊ < (a.insertionSort (· ≤ ·)).length := by
        rw [hlen, Nat.floor_lt b.1]
        exact hb2
      rw [List.getD_eq_getElem _ _ this, List.getElem?_eq_getElem this]
    · rcases (Nat.floor_le b.1).eq_or_lt with he | hlt
      · left
        refine ⟨he.symm, ?_⟩
        unfold lerpAt
        rw [he, sub_self, zero_mul, add_zero]
      · right
        refine ⟨hlt, Nat.lt_floor_add_one t, (a.insertionSort (· ≤ ·)).getD (⌊t⌋₊ + 1) 0, ?_, ?_⟩
        · have : ⌊t⌋₊ + 1 < (a.insertionSort (· ≤ ·)).length := by
            rw [hlen]
            have : (⌊t⌋₊ : ℝ) < (a.length : ℝ) - 1 := lt_of_lt_of_le hlt b.2
            have : (⌊t⌋₊ : ℝ) + 1 < a.length := by linarith
            exact_mod_cast this
          rw [List.getD_eq_getElem _ _ this, List.getElem?_eq_getElem this]
        · have : ⌊t⌋₊ + 1 ≤ (a.insertionSort (· ≤ ·)).length - 1 := by
            rw [hlen]
            have : (⌊t⌋₊ : ℝ) < (a.length : ℝ) - 1 := lt_of_lt_of_le hlt b.2
            have : (⌊t⌋₊ : ℝ) + 1 < a.length := by linarith
            have : ⌊t⌋₊ + 1 < a.length := by exact_mod_cast this
            omega
          unfold lerpAt Spec.line
          rw [min_eq_left this]
          ring

end PyBSM
