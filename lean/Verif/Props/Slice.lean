import Verif.Lemmas.Slice

/-!
# C48, C59: slices of a two-dimensional OTF and the edge terms computed from them
-/

noncomputable section

open Classical

namespace PyBSM

open Spec

/-! ## C48 -/

/-- **C48** (u axis): on every array of odd size `2m+1` the slice at angle 0 is the `m` samples from DC
(row `m`, column `m`) along increasing `u`. -/
theorem C48_u_axis {m : ℕ} (hm : 1 ≤ m) (g : ℕ → ℕ → ℝ) :
    sliceOtf (grid (2 * m + 1) g) 0 = .ok (vec m fun k => g m (m + k)) := slice_zero hm g

/-- **C48** (v axis): the slice at angle pi/2 is the `m` samples from DC along increasing `v`, i.e. towards row 0. -/
theorem C48_v_axis {m : ℕ} (hm : 1 ≤ m) (g : ℕ → ℕ → ℝ) :
    sliceOtf (grid (2 * m + 1) g) (Real.pi / 2) = .ok (vec m fun k => g (m - k) m) := slice_half_pi hm g

/-- **C48** (angle pi): the samples along negative `u`, but in reversed order: the last one is DC, and it is
first only if the array has size three. -/
theorem C48_pi_reversed {m : ℕ} (hm : 1 ≤ m) (g : ℕ → ℕ → ℝ) :
    sliceOtf (grid (2 * m + 1) g) Real.pi = .ok (vec m fun k => g m (m - (m - 1 - k))) := by
  rw [slice_pi hm g]
  congr 1
  apply vec_congr
  intro k hk
  congr 1; omega

/-- **C48** (not along the direction): an array whose slice at angle pi differs from the mirror image of
the slice at angle 0, although the array is symmetric. -/
theorem C48_pi_differs : ∃ g : ℕ → ℕ → ℝ, (∀ i ≤ 6, ∀ j ≤ 6, g i j = g (6 - i) (6 - j))
    ∧ ∃ a b : List XR, sliceOtf (grid 7 g) 0 = .ok a ∧ sliceOtf (grid 7 g) Real.pi = .ok b ∧ a ≠ b := by
  refine ⟨fun _ j => 1 - ((j : ℝ) - 3) ^ 2 / 10, ?_, _, _, slice_zero (m := 3) (by norm_num) _,
    slice_pi (m := 3) (by norm_num) _, ?_⟩
  · intro i _ j hj
    dsimp only
    rw [Nat.cast_sub hj]; push_cast; ring
  · intro h
    have := vec_inj h 0 (by norm_num)
    norm_num at this

/-- **C48** (errors): an array with at least two rows one of which has the wrong length raises `ValueError`;
fewer than two rows raise `IndexError`. -/
theorem C48_errors (g : List (List XR)) (ang : ℝ) :
    (2 ≤ g.length → (∃ r ∈ g, r.length ≠ g.length) → sliceOtf g ang = .error .valueError)
    ∧ (g.length < 2 → sliceOtf g ang = .error .indexError) := by
  constructor
  · intro h1 h2
    unfold sliceOtf
    dsimp only
    rw [if_neg (by omega), if_pos h2]
  · intro h
    unfold sliceOtf
    dsimp only
    rw [if_pos h]

/-- **C48** (range): in every direction the slice has `n/2` samples and stays within the bounds of the array. -/
theorem C48_range {n : ℕ} (hn : 2 ≤ n) {g : ℕ → ℕ → ℝ} {a b : ℝ} (hg : ∀ i < n, ∀ j < n, a ≤ g i j ∧ g i j ≤ b)
    (ang : ℝ) : ∃ o : ℕ → ℝ, sliceOtf (grid n g) ang = .ok (vec (n / 2) o) ∧ ∀ k < n / 2, a ≤ o k ∧ o k ≤ b := by
  refine ⟨_, slice_grid hn g ang, fun k hk => ?_⟩
  have hn' : (2 : ℝ) ≤ n := by exact_mod_cast hn
  have hpos : (0 : ℝ) < n - 1 := by linarith
  have key : ∀ (q : ℕ) (c : ℝ), q < n / 2 → -1 ≤ c → c ≤ 1 →
      0 ≤ ((q : ℝ) * (2 / (n - 1)) * c + 1) / 2 * (n - 1) ∧ ((q : ℝ) * (2 / (n - 1)) * c + 1) / 2 * (n - 1) ≤ n - 1 := by
    intro q c hq c0 c1
    have hq' : 2 * (q : ℝ) ≤ n - 1 := by
      have : 2 * q + 1 ≤ n := by omega
      have : (2 * (q : ℝ) + 1) ≤ n := by exact_mod_cast this
      linarith
    have e : ((q : ℝ) * (2 / (n - 1)) * c + 1) / 2 * (n - 1) = q * c + (n - 1) / 2 := by field_simp
    rw [e]
    have : (0 : ℝ) ≤ q := Nat.cast_nonneg q
    constructor <;> nlinarith
  have keyX : ∀ (q : ℕ) (c : ℝ), q < n / 2 → -1 ≤ c → c ≤ 1 →
      0 ≤ (1 - (q : ℝ) * (2 / (n - 1)) * c) / 2 * (n - 1) ∧ (1 - (q : ℝ) * (2 / (n - 1)) * c) / 2 * (n - 1) ≤ n - 1 := by
    intro q c hq c0 c1
    have := key q (-c) hq (by linarith) (by linarith)
    rwa [show (q : ℝ) * (2 / (n - 1)) * -c + 1 = 1 - (q : ℝ) * (2 / (n - 1)) * c by ring] at this
  have cx : ∃ q : ℕ, q < n / 2 ∧ (if 0 ≤ Real.cos ang then (k : ℝ) else ((n / 2 - 1 - k : ℕ) : ℝ)) = q := by
    split_ifs
    · exact ⟨k, hk, rfl⟩
    · exact ⟨n / 2 - 1 - k, by omega, rfl⟩
  have cy : ∃ q : ℕ, q < n / 2 ∧ (if 0 ≤ Real.sin ang then (k : ℝ) else ((n / 2 - 1 - k : ℕ) : ℝ)) = q := by
    split_ifs
    · exact ⟨k, hk, rfl⟩
    · exact ⟨n / 2 - 1 - k, by omega, rfl⟩
  obtain ⟨qx, hqx, ex⟩ := cx
  obtain ⟨qy, hqy, ey⟩ := cy
  rw [ex, ey]
  obtain ⟨x0, x1⟩ := key qx (Real.cos ang) hqx (Real.neg_one_le_cos _) (Real.cos_le_one _)
  obtain ⟨y0, y1⟩ := keyX qy (Real.sin ang) hqy (Real.neg_one_le_sin _) (Real.sin_le_one _)
  exact bilin_bounds hn hg x0 x1 y0 y1

example : sliceOtf (grid 101 fun i j => i + j) 0 = .ok (vec 50 fun k => 50 + ((50 + k : ℕ) : ℝ)) :=
  C48_u_axis (m := 50) (by norm_num) _

/-! ## C59 -/

/-- **C59** (geometric means): for every array of odd size the two results are the square roots of the
products of the terms of the two axis slices, with the x field of view for the u axis and the y field of
view for the v axis; a negative product gives `nan`. -/
theorem C59_value {m : ℕ} (hm : 1 ≤ m) (g : ℕ → ℕ → ℝ) {df : ℝ} (hdf : 0 ≤ df) (fx fy : ℝ) :
    ∃ ru rv eu ev : ℝ,
      relativeEdgeResponse (vec m fun k => g m (m + k)) (.fin df) (.fin fx) = .ok (.fin ru)
      ∧ relativeEdgeResponse (vec m fun k => g (m - k) m) (.fin df) (.fin fy) = .ok (.fin rv)
      ∧ edgeHeightOvershoot (vec m fun k => g m (m + k)) (.fin df) (.fin fx) = .ok (.fin eu)
      ∧ edgeHeightOvershoot (vec m fun k => g (m - k) m) (.fin df) (.fin fy) = .ok (.fin ev)
      ∧ giqeEdgeTerms (grid (2 * m + 1) g) (.fin df) (.fin fx) (.fin fy)
        = .ok (if 0 ≤ ru * rv then .fin (Real.sqrt (ru * rv)) else .nan,
               if 0 ≤ eu * ev then .fin (Real.sqrt (eu * ev)) else .nan)
      ∧ giqe5RER (grid (2 * m + 1) g) (.fin df) (.fin fx) (.fin fy) = .ok (.fin ru, .fin rv) := by
  obtain ⟨eu, heu, -⟩ := eho_value m (fun k => g m (m + k)) hdf fx
  obtain ⟨ev, hev, -⟩ := eho_value m (fun k => g (m - k) m) hdf fy
  have sq : ∀ x : ℝ, (XR.fin x).sqrt = if 0 ≤ x then .fin (Real.sqrt x) else .nan := by
    intro x
    by_cases h : 0 ≤ x
    · rw [XR.fin_sqrt h, if_pos h]
    · rw [if_neg h]; simp [XR.sqrt, h]
  refine ⟨_, _, eu, ev, rer_value m _ hdf fx, rer_value m _ hdf fy, heu, hev, ?_, ?_⟩
  · unfold giqeEdgeTerms
    rw [slice_zero hm, ok_bind, slice_half_pi hm, ok_bind, rer_value m _ hdf, ok_bind, rer_value m _ hdf, ok_bind,
      heu, ok_bind, hev, ok_bind, XR.fin_mul, XR.fin_mul, sq, sq]
  · unfold giqe5RER
    rw [slice_zero hm, ok_bind, slice_half_pi hm, ok_bind, rer_value m _ hdf, ok_bind, rer_value m _ hdf, ok_bind]

/-- **C59** (between): whenever the axis terms are not negative, both means lie between them. -/
theorem C59_between {m : ℕ} (hm : 1 ≤ m) (g : ℕ → ℕ → ℝ) {df : ℝ} (hdf : 0 ≤ df) {fx fy ru rv eu ev : ℝ}
    (h1 : relativeEdgeResponse (vec m fun k => g m (m + k)) (.fin df) (.fin fx) = .ok (.fin ru))
    (h2 : relativeEdgeResponse (vec m fun k => g (m - k) m) (.fin df) (.fin fy) = .ok (.fin rv))
    (h3 : edgeHeightOvershoot (vec m fun k => g m (m + k)) (.fin df) (.fin fx) = .ok (.fin eu))
    (h4 : edgeHeightOvershoot (vec m fun k => g (m - k) m) (.fin df) (.fin fy) = .ok (.fin ev))
    (p1 : 0 ≤ ru) (p2 : 0 ≤ rv) (p3 : 0 ≤ eu) (p4 : 0 ≤ ev) :
    ∃ r e : ℝ, giqeEdgeTerms (grid (2 * m + 1) g) (.fin df) (.fin fx) (.fin fy) = .ok (.fin r, .fin e)
      ∧ min ru rv ≤ r ∧ r ≤ max ru rv ∧ min eu ev ≤ e ∧ e ≤ max eu ev := by
  have key : ∀ {a b : ℝ}, 0 ≤ a → 0 ≤ b → min a b ≤ Real.sqrt (a * b) ∧ Real.sqrt (a * b) ≤ max a b := by
    intro a b ha hb
    constructor
    · apply Real.le_sqrt_of_sq_le
      rw [sq]
      exact mul_le_mul (min_le_left _ _) (min_le_right _ _) (le_min ha hb) ha
    · apply Real.sqrt_le_iff.mpr
      refine ⟨le_max_of_le_left ha, ?_⟩
      rw [sq]
      exact mul_le_mul (le_max_left _ _) (le_max_right _ _) hb (le_max_of_le_left ha)
  obtain ⟨ru', rv', eu', ev', k1, k2, k3, k4, k5, -⟩ := C59_value hm g hdf fx fy
  rw [h1] at k1; rw [h2] at k2; rw [h3] at k3; rw [h4] at k4
  injection k1 with k1; injection k2 with k2; injection k3 with k3; injection k4 with k4
  injection k1 with k1; injection k2 with k2; injection k3 with k3; injection k4 with k4
  rw [← k1, ← k2, ← k3, ← k4, if_pos (mul_nonneg p1 p2), if_pos (mul_nonneg p3 p4)] at k5
  exact ⟨_, _, k5, (key p1 p2).1, (key p1 p2).2, (key p3 p4).1, (key p3 p4).2⟩

/-- **C59** (symmetry): exchanging the axes of the array (reflection in the diagonal that maps the positive
u axis to the positive v axis) together with the two fields of view does not change the result. -/
theorem C59_symmetric {m : ℕ} (hm : 1 ≤ m) (g : ℕ → ℕ → ℝ) {df : ℝ} (hdf : 0 ≤ df) (fx fy : ℝ) :
    giqeEdgeTerms (grid (2 * m + 1) fun i j => g (2 * m - j) (2 * m - i)) (.fin df) (.fin fy) (.fin fx)
      = giqeEdgeTerms (grid (2 * m + 1) g) (.fin df) (.fin fx) (.fin fy) := by
  have e1 : (vec m fun k => g (2 * m - (m + k)) (2 * m - m)) = vec m fun k => g (m - k) m :=
    vec_congr fun k hk => by congr 1 <;> omega
  have e2 : (vec m fun k => g (2 * m - m) (2 * m - (m - k))) = vec m fun k => g m (m + k) :=
    vec_congr fun k hk => by congr 1 <;> omega
  obtain ⟨ru, rv, eu, ev, h1, h2, h3, h4, h5, -⟩ := C59_value hm g hdf fx fy
  obtain ⟨ru', rv', eu', ev', k1, k2, k3, k4, k5, -⟩ :=
    C59_value hm (fun i j => g (2 * m - j) (2 * m - i)) hdf fy fx
  rw [e1] at k1 k3
  rw [e2] at k2 k4
  rw [h2] at k1; rw [h1] at k2; rw [h4] at k3; rw [h3] at k4
  injection k1 with k1; injection k2 with k2; injection k3 with k3; injection k4 with k4
  injection k1 with k1; injection k2 with k2; injection k3 with k3; injection k4 with k4
  rw [k5, h5, ← k1, ← k2, ← k3, ← k4, mul_comm rv ru, mul_comm ev eu]

/-- **C59** (isotropic): with equal samples on both axes and equal fields of view the results are the absolute
values of the common terms, hence the common terms when these are not negative. -/
theorem C59_isotropic {m : ℕ} (hm : 1 ≤ m) (g : ℕ → ℕ → ℝ) (hg : ∀ k < m, g m (m + k) = g (m - k) m)
    {df : ℝ} (hdf : 0 ≤ df) (f : ℝ) :
    ∃ r e : ℝ, relativeEdgeResponse (vec m fun k => g m (m + k)) (.fin df) (.fin f) = .ok (.fin r)
      ∧ edgeHeightOvershoot (vec m fun k => g m (m + k)) (.fin df) (.fin f) = .ok (.fin e)
      ∧ giqeEdgeTerms (grid (2 * m + 1) g) (.fin df) (.fin f) (.fin f) = .ok (.fin |r|, .fin |e|) := by
  obtain ⟨ru, rv, eu, ev, h1, h2, h3, h4, h5, -⟩ := C59_value hm g hdf f f
  rw [vec_congr hg] at h1 h3
  rw [h1] at h2; rw [h3] at h4
  injection h2 with h2; injection h4 with h4
  injection h2 with h2; injection h4 with h4
  subst h2 h4
  refine ⟨ru, eu, by rw [vec_congr hg]; exact h1, by rw [vec_congr hg]; exact h3, ?_⟩
  rw [h5, if_pos (mul_self_nonneg ru), if_pos (mul_self_nonneg eu), Real.sqrt_mul_self_eq_abs, Real.sqrt_mul_self_eq_abs]

example : ∃ r e : ℝ, giqeEdgeTerms (grid 101 fun i j => Real.exp (-(((i : ℝ) - 50) ^ 2 + ((j : ℝ) - 50) ^ 2) / 500))
    (.fin 1000) (.fin 5e-6) (.fin 5e-6) = .ok (.fin r, .fin e) := by
  obtain ⟨r, e, -, -, h⟩ := C59_isotropic (m := 50) (by norm_num)
    (fun i j => Real.exp (-(((i : ℝ) - 50) ^ 2 + ((j : ℝ) - 50) ^ 2) / 500)) (fun k hk => by
      rw [Nat.cast_sub (by omega)]; push_cast; congr 1; ring) (df := 1000) (by norm_num) 5e-6
  exact ⟨_, _, h⟩

end PyBSM
