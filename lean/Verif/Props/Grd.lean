import Verif.Lemmas.Grd

/-!
# C56: ground-resolved distance
-/

noncomputable section

open Classical

namespace PyBSM

open Spec

/-- **C56**: for every MTF slice that never rises and every SNR other than zero, the ground-resolved distance is the larger of
`slant / (u + 1e-12)` and two ground samples, where `u` is the frequency at which the slice crosses
`3 / snr`: the first sample there if there is one, linear between samples, zero if the threshold is above the first sample and the
last frequency if it is below the last one (as it is for every negative SNR and non-negative slice). -/
theorem C56_value {n : ℕ} (hn : 1 ≤ n) {m : ℕ → ℝ} {df : ℝ} (hdf : 0 ≤ df) (hm : ∀ i j, i ≤ j → j < n → m j ≤ m i)
    {snr : Scal} {s : ℝ} (hs : snr.val = .fin s) (s0 : s ≠ 0) (ifov slant : ℝ) :
    ∃ u : ℝ, 0 ≤ u ∧ u ≤ df * (n - 1)
      ∧ (∀ k < n, 3 / s = m k → (∀ i < k, 3 / s < m i) → u = df * k)
      ∧ (∀ k, k + 1 < n → m (k + 1) < 3 / s → 3 / s < m k → u = df * (k + (m k - 3 / s) / (m k - m (k + 1))))
      ∧ (m 0 < 3 / s → u = 0)
      ∧ (3 / s < m (n - 1) → u = df * (n - 1))
      ∧ groundResolvedDistance (vec n m) (.fin df) snr (.fin ifov) (.fin slant)
        = .ok (.fin (max (slant / (u + 1e-12)) (slant * (2 * ifov)))) := by
  have hc := grdCross_crossing hn df hm (3 / s)
  obtain ⟨h0, h1⟩ := grdCross_range hn m (3 / s) hdf
  exact ⟨_, h0, h1, hc.node, hc.between, hc.above, hc.below, grd_value hn hdf hs s0 ifov slant⟩

/-- **C56** (detector limit): whatever the slice, the step and the SNR, a result that is a number is never below two ground sample
distances; the others are `+inf` and `nan`. -/
theorem C56_at_least_two_samples (mtf : List XR) (df : XR) (snr : Scal) (ifov slant : ℝ) {d : XR}
    (h : groundResolvedDistance mtf df snr (.fin ifov) (.fin slant) = .ok d) :
    d = .nan ∨ d = .pinf ∨ ∃ x : ℝ, d = .fin x ∧ 2 * ifov * slant ≤ x := by
  unfold groundResolvedDistance at h
  dsimp only at h
  cases h1 : (Scal.py 3).div snr with
  | error e => rw [h1, error_bind] at h; cases h
  | ok q =>
    rw [h1, ok_bind] at h
    cases h2 : npInterp [q.val] mtf.reverse ((List.range mtf.length).map fun (i : ℕ) => df * .fin i).reverse
        (((List.range mtf.length).map fun (i : ℕ) => df * .fin i).reverse.headD .nan)
        (((List.range mtf.length).map fun (i : ℕ) => df * .fin i).reverse.getLastD .nan) with
    | error e => rw [h2, error_bind] at h; cases h
    | ok u =>
      rw [h2, ok_bind] at h
      have h3 : XR.max (.fin slant * (1 / (u.headD .nan + 1e-12))) (.fin slant * (2 * .fin ifov)) = d := Except.ok.inj h
      have h4 : (.fin slant * (2 * .fin ifov) : XR) = .fin (slant * (2 * ifov)) := by xr_simp
      rw [h4] at h3
      generalize (.fin slant * (1 / (u.headD .nan + 1e-12)) : XR) = a at h3
      cases a with
      | fin x =>
        rw [XR.fin_max] at h3
        refine Or.inr (Or.inr ⟨_, h3.symm, ?_⟩)
        have := le_max_right x (slant * (2 * ifov))
        linarith
      | pinf => exact Or.inr (Or.inl (h3.symm.trans (by simp [XR.max, XR.lt, XR.isNan])))
      | ninf =>
        have h5 : d = .fin (slant * (2 * ifov)) := h3.symm.trans (by simp [XR.max, XR.lt, XR.isNan])
        exact Or.inr (Or.inr ⟨_, h5, by linarith⟩)
      | nan => exact Or.inl (h3.symm.trans (by simp [XR.max, XR.isNan]))

/-- **C56** (success): the call succeeds with a number for every slice with at least one sample that never rises, and every SNR other
than zero. -/
theorem C56_total {n : ℕ} (hn : 1 ≤ n) {m : ℕ → ℝ} (_hm : ∀ i j, i ≤ j → j < n → m j ≤ m i) {df : ℝ} (hdf : 0 ≤ df) {snr : Scal} {s : ℝ} (hs : snr.val = .fin s) (s0 : s ≠ 0)
    (ifov slant : ℝ) : ∃ d : ℝ, groundResolvedDistance (vec n m) (.fin df) snr (.fin ifov) (.fin slant) = .ok (.fin d)
      ∧ 2 * ifov * slant ≤ d := by
  refine ⟨_, grd_value hn hdf hs s0 ifov slant, ?_⟩
  have := le_max_right (slant / (grdCross n m df (3 / s) + 1e-12)) (slant * (2 * ifov))
  linarith

/-- **C56** (zero SNR): a Python zero raises `ZeroDivisionError`. -/
theorem C56_zero_snr (mtf : List XR) (df ifov slant : XR) :
    groundResolvedDistance mtf df (.py 0) ifov slant = .error .zeroDivisionError := by
  unfold groundResolvedDistance
  dsimp only
  rw [(Scal.div_error_iff (.py 3) (.py 0) .zeroDivisionError).mpr ⟨rfl, trivial, trivial, rfl⟩, error_bind]

/-- **C56** (negative SNR): a negative SNR resolves up to the last frequency of a non-negative slice, as an
infinitely good signal would. -/
theorem C56_negative_snr {n : ℕ} (hn : 1 ≤ n) {m : ℕ → ℝ} {df : ℝ} (hdf : 0 ≤ df) (h0 : 0 ≤ m (n - 1)) {snr : Scal} {s : ℝ}
    (hs : snr.val = .fin s) (s0 : s < 0) (ifov slant : ℝ) :
    groundResolvedDistance (vec n m) (.fin df) snr (.fin ifov) (.fin slant)
        = .ok (.fin (max (slant / (df * (n - 1) + 1e-12)) (slant * (2 * ifov)))) := by
  rw [grd_value hn hdf hs s0.ne]
  have : grdCross n m df (3 / s) = df * (n - 1) := if_pos ((div_neg_of_pos_of_neg (by norm_num) s0).trans_le h0)
  rw [this]

/-- **C56** (monotonicity): a shorter slant range, a smaller field of view or a larger positive SNR never
makes the ground-resolved distance larger. -/
theorem C56_monotone {n : ℕ} (hn : 1 ≤ n) {m : ℕ → ℝ} {df : ℝ} (hdf : 0 ≤ df) (_hm : ∀ i j, i ≤ j → j < n → m j ≤ m i)
    {s s' ifov ifov' r r' : ℝ} (s0 : 0 < s) (hs : s ≤ s')
    (hi0 : 0 ≤ ifov') (hi : ifov' ≤ ifov) (hr0 : 0 ≤ r') (hr : r' ≤ r) :
    ∃ d d' : ℝ, groundResolvedDistance (vec n m) (.fin df) (.np (.fin s)) (.fin ifov) (.fin r) = .ok (.fin d)
      ∧ groundResolvedDistance (vec n m) (.fin df) (.np (.fin s')) (.fin ifov') (.fin r') = .ok (.fin d') ∧ d' ≤ d := by
  have hu := grdCross_anti hn (m := m) hdf (div_le_div_of_nonneg_left (by norm_num : (0 : ℝ) ≤ 3) s0 hs)
  have u0 := (grdCross_range hn m (3 / s) hdf).1
  refine ⟨_, _, grd_value (snr := .np (.fin s)) hn hdf rfl s0.ne' ifov r,
    grd_value (snr := .np (.fin s')) hn hdf rfl (s0.trans_le hs).ne' ifov' r', max_le_max ?_ ?_⟩
  · apply div_le_div₀ (hr0.trans hr) hr (by positivity) (by linarith)
  · exact mul_le_mul hr (by linarith) (by positivity) (hr0.trans hr)

/-- A slice that ends in zeros beyond the cutoff frequency, crossed between its second and third sample. -/
example : groundResolvedDistance (vec 101 fun i => if i < 4 then 1 - i / 4 else 0) (.fin 1000) (.np (.fin 8)) (.fin 5e-6) (.fin 9000)
    = .ok (.fin (max (9000 / (1000 * ((2 : ℕ) + (1 / 2 - 3 / 8) / (1 / 2 - 1 / 4)) + 1e-12)) (9000 * (2 * 5e-6)))) := by
  obtain ⟨u, -, -, -, h, -, -, e⟩ := C56_value (n := 101) (m := fun i => if i < 4 then 1 - (i : ℝ) / 4 else 0) (df := 1000) (by norm_num)
    (by norm_num) (fun i j hij _ => by
      have h : (i : ℝ) ≤ j := by exact_mod_cast hij
      split_ifs with c c' c'
      · linarith
      · omega
      · have : (i : ℝ) ≤ 3 := by exact_mod_cast (by omega : i ≤ 3)
        linarith
      · exact le_rfl) (snr := .np (.fin 8)) (s := 8) rfl (by norm_num) 5e-6 9000
  have h2 := h 2 (by norm_num) (by norm_num) (by norm_num)
  norm_num at h2
  rw [e, h2]
  norm_num

example : ∃ d : ℝ, groundResolvedDistance (vec 51 fun i => 1 - i / 50) (.fin 1000) (.np (.fin 10)) (.fin 5e-6) (.fin 9000)
    = .ok (.fin d) ∧ 2 * 5e-6 * 9000 ≤ d :=
  C56_total (by norm_num) (fun i j h _ => by
    have : (i : ℝ) ≤ j := by exact_mod_cast h
    linarith) (by norm_num) rfl (by norm_num) _ _

end PyBSM
