import Verif.Lemmas.Table
import Verif.Lemmas.Sensor
import Verif.Model.Metrics

/-!
# The frequency at which a decreasing MTF slice crosses a threshold
-/

noncomputable section

open Classical

namespace PyBSM

open Spec

/-- the reversed table handed to `np.interp` -/
def grdTable (n : ℕ) (m : ℕ → ℝ) (df : ℝ) : List (ℝ × ℝ) :=
  ((List.range n).map fun i : ℕ => (m i, df * i)).reverse

theorem grdTable_succ (n : ℕ) (m : ℕ → ℝ) (df : ℝ) : grdTable (n + 1) m df = (m n, df * n) :: grdTable n m df := by
  unfold grdTable
  rw [List.range_succ, List.map_append, List.reverse_append]
  rfl

/-- The crossing frequency `u` of the threshold `t`. -/
structure Crossing (n : ℕ) (m : ℕ → ℝ) (df t u : ℝ) : Prop where
  node : ∀ k < n, t = m k → (∀ i < k, t < m i) → u = df * k
  between : ∀ k, k + 1 < n → m (k + 1) < t → t < m k → u = df * (k + (m k - t) / (m k - m (k + 1)))
  above : m 0 < t → u = 0
  below : t < m (n - 1) → u = df * (n - 1)

/-- The frequency found among the samples `0 .. n`, if the last of them is not above the threshold. -/
def grdFreq (m : ℕ → ℝ) (df t : ℝ) : ℕ → ℝ
  | 0 => 0
  | n + 1 => if t < m n then df * (n + (m n - t) / (m n - m (n + 1))) else grdFreq m df t n

theorem grdFreq_interp {m : ℕ → ℝ} {df t : ℝ} : ∀ {n : ℕ}, m n ≤ t →
    interpFrom (.fin t) (.fin 0) ((grdTable (n + 1) m df).map finP) = .fin (grdFreq m df t n)
  | 0, h => by
    rw [grdTable_succ]
    change (if XR.lt (.fin (m 0)) (.fin t) then XR.fin 0 else XR.fin (df * (0 : ℕ))) = _
    unfold grdFreq
    split_ifs <;> simp
  | n + 1, h => by
    have ih := grdFreq_interp (m := m) (df := df) (t := t) (n := n)
    rw [grdTable_succ] at ih
    rw [grdTable_succ, grdTable_succ]
    change (if XR.lt (.fin t) (.fin (m n)) then (if XR.eq (.fin t) (.fin (m (n + 1))) then XR.fin (df * (n + 1 : ℕ))
      else segment (.fin (m (n + 1))) (.fin (df * (n + 1 : ℕ))) (.fin (m n)) (.fin (df * n)) (.fin t))
      else interpFrom (.fin t) (.fin 0) (((m n, df * n) :: grdTable n m df).map finP)) = _
    unfold grdFreq
    by_cases hlt : t < m n
    · rw [if_pos (show XR.lt (.fin t) (.fin (m n)) from hlt), if_pos hlt]
      have hd : m n - m (n + 1) ≠ 0 := by linarith
      by_cases he : t = m (n + 1)
      · rw [if_pos (show XR.eq (.fin t) (.fin (m (n + 1))) from he), he, div_self hd]
        push_cast
        rfl
      · rw [if_neg (show ¬ XR.eq (.fin t) (.fin (m (n + 1))) from he)]
        unfold segment
        xr_simp
        rw [XR.fin_div _ hd]
        xr_simp
        congr 1
        push_cast
        field_simp
        ring
    · rw [if_neg (show ¬ XR.lt (.fin t) (.fin (m n)) from hlt), if_neg hlt]
      exact ih (not_lt.mp hlt)

theorem grdFreq_range {m : ℕ → ℝ} {df t : ℝ} (hdf : 0 ≤ df) : ∀ {n : ℕ}, m n ≤ t →
    0 ≤ grdFreq m df t n ∧ grdFreq m df t n ≤ df * n
  | 0, _ => by simp [grdFreq]
  | n + 1, h => by
    unfold grdFreq
    split_ifs with hlt
    · have hd : 0 < m n - m (n + 1) := by linarith
      have h1 : (m n - t) / (m n - m (n + 1)) ≤ 1 := (div_le_one hd).mpr (by linarith)
      have h2 : 0 ≤ (m n - t) / (m n - m (n + 1)) := div_nonneg (by linarith) hd.le
      refine ⟨by positivity, mul_le_mul_of_nonneg_left ?_ hdf⟩
      push_cast
      linarith
    · obtain ⟨h1, h2⟩ := grdFreq_range (m := m) hdf (not_lt.mp hlt)
      refine ⟨h1, h2.trans (mul_le_mul_of_nonneg_left ?_ hdf)⟩
      push_cast
      linarith

theorem grdFreq_node {m : ℕ → ℝ} {df t : ℝ} : ∀ {n k : ℕ}, k ≤ n → t = m k → (∀ i < k, t < m i) → (∀ i ≤ n, k ≤ i → m i ≤ t) →
    grdFreq m df t n = df * k
  | 0, k, hk, _, _, _ => by
    obtain rfl : k = 0 := by omega
    simp [grdFreq]
  | n + 1, k, hk, e, h1, h2 => by
    unfold grdFreq
    rcases Nat.lt_or_ge n k with h | h
    · obtain rfl : k = n + 1 := by omega
      have hlt := h1 n (by omega)
      rw [if_pos hlt, ← e, div_self (by linarith)]
      push_cast
      rfl
    · rw [if_neg (not_lt.mpr (h2 n (by omega) h))]
      exact grdFreq_node h e h1 fun i hi => h2 i (by omega)

theorem grdFreq_between {m : ℕ → ℝ} {df t : ℝ} {k : ℕ} (hlt : t < m k) : ∀ {n : ℕ}, k + 1 ≤ n → (∀ i ≤ n, k + 1 ≤ i → m i ≤ t) →
    grdFreq m df t n = df * (k + (m k - t) / (m k - m (k + 1)))
  | 0, h, _ => by omega
  | n + 1, h, h2 => by
    unfold grdFreq
    rcases Nat.lt_or_ge n (k + 1) with c | c
    · obtain rfl : n = k := by omega
      rw [if_pos hlt]
    · rw [if_neg (not_lt.mpr (h2 n (by omega) c))]
      exact grdFreq_between hlt c fun i hi => h2 i (by omega)

/-- A higher threshold is crossed at a lower frequency. -/
theorem grdFreq_anti {m : ℕ → ℝ} {df t t' : ℝ} (hdf : 0 ≤ df) (ht : t ≤ t') : ∀ {n : ℕ}, m n ≤ t →
    grdFreq m df t' n ≤ grdFreq m df t n
  | 0, _ => le_rfl
  | n + 1, h => by
    unfold grdFreq
    split_ifs with c c' c'
    · refine mul_le_mul_of_nonneg_left ?_ hdf
      have hd : 0 ≤ m n - m (n + 1) := by linarith
      have := div_le_div_of_nonneg_right (show m n - t' ≤ m n - t by linarith) hd
      linarith
    · exact absurd (ht.trans_lt c) c'
    · refine (grdFreq_range hdf (not_lt.mp c)).2.trans (mul_le_mul_of_nonneg_left ?_ hdf)
      have := div_nonneg (show 0 ≤ m n - t by linarith) (show 0 ≤ m n - m (n + 1) by linarith)
      linarith
    · exact grdFreq_anti hdf ht (not_lt.mp c')

/-- What `np.interp` returns for the threshold `t`. -/
def grdCross (n : ℕ) (m : ℕ → ℝ) (df t : ℝ) : ℝ := if t < m (n - 1) then df * (n - 1) else grdFreq m df t (n - 1)

theorem grdCross_range {n : ℕ} (hn : 1 ≤ n) (m : ℕ → ℝ) {df : ℝ} (t : ℝ) (hdf : 0 ≤ df) :
    0 ≤ grdCross n m df t ∧ grdCross n m df t ≤ df * (n - 1) := by
  have hcast : ((n - 1 : ℕ) : ℝ) = n - 1 := by rw [Nat.cast_sub hn]; simp
  have hn1 : (0 : ℝ) ≤ n - 1 := by rw [← hcast]; positivity
  unfold grdCross
  split_ifs with h
  · exact ⟨mul_nonneg hdf hn1, le_rfl⟩
  · rw [← hcast]
    exact grdFreq_range hdf (not_lt.mp h)

theorem grdCross_anti {n : ℕ} (hn : 1 ≤ n) {m : ℕ → ℝ} {df t t' : ℝ} (hdf : 0 ≤ df) (ht : t ≤ t') :
    grdCross n m df t' ≤ grdCross n m df t := by
  by_cases h : t < m (n - 1)
  · have : grdCross n m df t = df * (n - 1) := if_pos h
    rw [this]
    exact (grdCross_range hn m t' hdf).2
  · unfold grdCross
    rw [if_neg h, if_neg (fun c => h (ht.trans_lt c))]
    exact grdFreq_anti hdf ht (not_lt.mp h)

theorem grdCross_crossing {n : ℕ} (hn : 1 ≤ n) {m : ℕ → ℝ} (df : ℝ) (hm : ∀ i j, i ≤ j → j < n → m j ≤ m i) (t : ℝ) :
    Crossing n m df t (grdCross n m df t) := by
  unfold grdCross
  refine ⟨fun k hk e h1 => ?_, fun k hk h1 h2 => ?_, fun h => ?_, fun h => if_pos h⟩
  · rw [if_neg (not_lt.mpr ((hm k (n - 1) (by omega) (by omega)).trans e.symm.le))]
    exact grdFreq_node (by omega) e h1 fun i hi hk => (hm k i hk (by omega)).trans e.symm.le
  · rw [if_neg (not_lt.mpr ((hm (k + 1) (n - 1) (by omega) (by omega)).trans h1.le))]
    exact grdFreq_between h2 (by omega) fun i hi hk => (hm (k + 1) i hk (by omega)).trans h1.le
  · rw [if_neg (not_lt.mpr ((hm 0 (n - 1) (by omega) (by omega)).trans h.le))]
    have : ∀ j, j < n → grdFreq m df t j = 0 := by
      intro j
      induction j with
      | zero => intro _; rfl
      | succ j ih =>
        intro hj
        unfold grdFreq
        rw [if_neg (not_lt.mpr ((hm 0 j (by omega) (by omega)).trans h.le))]
        exact ih (by omega)
    exact this _ (by omega)

theorem grd_interp {n : ℕ} (hn : 1 ≤ n) (m : ℕ → ℝ) (df t : ℝ) :
    interpTable (.fin t) (.fin (df * ((n - 1 : ℕ) : ℝ))) (.fin 0) ((grdTable n m df).map finP) = .fin (grdCross n m df t) := by
  obtain ⟨k, rfl⟩ : ∃ k, n = k + 1 := ⟨n - 1, by omega⟩
  have h0 : ((grdTable (k + 1) m df).map finP) = (.fin (m k), .fin (df * k)) :: (grdTable k m df).map finP := by
    rw [grdTable_succ]; rfl
  unfold grdCross interpTable
  rw [h0]
  simp only [Nat.add_sub_cancel, Nat.cast_add, Nat.cast_one, add_sub_cancel_right]
  rw [if_neg (show ¬ (XR.fin t).isNan from id)]
  by_cases h : t < m k
  · rw [if_pos (show XR.lt (.fin t) (.fin (m k)) from h), if_pos h]
  · rw [if_neg (show ¬ XR.lt (.fin t) (.fin (m k)) from h), if_neg h, ← h0]
    exact grdFreq_interp (not_lt.mp h)

theorem grd_value {n : ℕ} (hn : 1 ≤ n) {m : ℕ → ℝ} {df : ℝ} (hdf : 0 ≤ df)
    {snr : Scal} {s : ℝ} (hs : snr.val = .fin s) (s0 : s ≠ 0) (ifov slant : ℝ) :
    groundResolvedDistance (vec n m) (.fin df) snr (.fin ifov) (.fin slant)
      = .ok (.fin (max (slant / (grdCross n m df (3 / s) + 1e-12)) (slant * (2 * ifov)))) := by
  have hu := grd_interp hn m df (3 / s)
  have hrange := grdCross_range hn m (3 / s) hdf
  generalize grdCross n m df (3 / s) = u at hu hrange ⊢
  unfold groundResolvedDistance
  obtain ⟨q, h1, v1⟩ := Scal.div_fin (a := .py 3) (x := 3) rfl hs s0
  have hw : ((List.range (vec n m).length).map fun (i : ℕ) => XR.fin df * .fin i) = vec n fun i => df * i := by
    rw [vec_length]; rfl
  dsimp only
  rw [h1, ok_bind, v1, hw]
  have hz : (vec n m).reverse.zip (vec n fun i => df * i).reverse = (grdTable n m df).map finP := by
    unfold grdTable vec
    rw [← List.map_reverse, ← List.map_reverse, List.zip_map', ← List.map_reverse, List.map_map]
    rfl
  have hhead : (vec n fun i => df * i).reverse.headD .nan = .fin (df * ((n - 1 : ℕ) : ℝ)) := by
    obtain ⟨k, rfl⟩ : ∃ k, n = k + 1 := ⟨n - 1, by omega⟩
    unfold vec
    rw [List.range_succ]
    simp
  have hlast : (vec n fun i => df * i).reverse.getLastD .nan = .fin 0 := by
    obtain ⟨k, rfl⟩ : ∃ k, n = k + 1 := ⟨n - 1, by omega⟩
    unfold vec
    rw [List.range_succ_eq_map]
    simp
  unfold npInterp
  rw [if_neg (by
    rw [List.length_reverse, List.length_reverse, vec_length, vec_length]
    intro h
    rcases h with h | h
    · have := congrArg List.length h
      rw [List.length_reverse, vec_length] at this
      simp at this; omega
    · exact h rfl), ok_bind, hz, hhead, hlast]
  simp only [List.map_cons, List.map_nil, List.headD_cons]
  rw [hu]
  have hp : u + 1e-12 ≠ 0 := by have := hrange.1; positivity
  xr_simp
  rw [XR.fin_div _ hp]
  xr_simp
  show Except.ok (XR.max _ _) = _
  rw [XR.fin_max, mul_one_div]

end PyBSM
