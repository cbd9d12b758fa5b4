import Verif.Spec.Edge
import Verif.Lemmas.Arr
import Verif.Lemmas.Sensor
import Verif.Model.Metrics

/-!
# Closed form of the edge response
-/

noncomputable section

open Classical

namespace PyBSM

open Spec

theorem edge_value (n : ℕ) (m : ℕ → ℝ) {df : ℝ} (hdf : 0 ≤ df) (ifov x : ℝ) :
    edgeResponse (.fin x) (vec n m) (.fin df) (.fin ifov) = .ok (.fin (edge n m df ifov x)) := by
  have hpi := Real.pi_pos.ne'
  unfold edgeResponse
  have hw : ((List.range (vec n m).length).map fun (i : ℕ) => XR.fin df * .fin i + 1e-6)
      = vec n fun i => df * i + 1e-6 := by
    rw [vec_length]; unfold vec
    apply List.map_congr_left
    intro i _
    xr_simp
  have hy : List.zipWith (fun m w => (m / w) * (2 * XR.fin Real.pi * w * .fin ifov * .fin x).sin) (vec n m)
      (vec n fun i => df * i + 1e-6)
      = vec n fun i => m i * Real.sin (2 * Real.pi * (df * i + 1e-6) * (ifov * x)) / (df * i + 1e-6) := by
    unfold vec
    rw [List.zipWith_map, zipWith_range]
    apply List.map_congr_left
    intro i _
    have : df * i + 1e-6 ≠ 0 := by positivity
    xr_simp
    rw [XR.fin_div _ this]
    xr_simp
    congr 1
    rw [show 2 * Real.pi * (df * ↑i + 1e-6) * ifov * x = 2 * Real.pi * (df * ↑i + 1e-6) * (ifov * x) by ring]
    ring
  dsimp only
  rw [hw, hy, trapz_vec, ok_bind]
  xr_simp
  rw [XR.fin_div _ hpi]
  xr_simp
  congr 2
  unfold edge
  norm_num
  ring

theorem trap_neg (n : ℕ) (x y : ℕ → ℝ) : trap n x (fun i => -y i) = -trap n x y := by
  have := trap_smul n (-1) x y
  simpa using this

theorem edge_neg (n : ℕ) (m : ℕ → ℝ) (df ifov x : ℝ) : edge n m df ifov (-x) = 1 - edge n m df ifov x := by
  unfold edge
  dsimp only
  have : (fun i : ℕ => m i * Real.sin (2 * Real.pi * (df * i + 1e-6) * (ifov * -x)) / (df * i + 1e-6))
      = fun i : ℕ => -(m i * Real.sin (2 * Real.pi * (df * i + 1e-6) * (ifov * x)) / (df * i + 1e-6)) := by
    funext i
    rw [show 2 * Real.pi * (df * i + 1e-6) * (ifov * -x) = -(2 * Real.pi * (df * i + 1e-6) * (ifov * x)) by ring,
      Real.sin_neg]
    ring
  rw [this, trap_neg]
  ring

theorem edge_affine (n : ℕ) (m m' : ℕ → ℝ) (c c' df ifov x : ℝ) :
    edge n (fun i => c * m i + c' * m' i) df ifov x - 1 / 2
      = c * (edge n m df ifov x - 1 / 2) + c' * (edge n m' df ifov x - 1 / 2) := by
  unfold edge
  dsimp only
  have : (fun i : ℕ => (c * m i + c' * m' i) * Real.sin (2 * Real.pi * (df * i + 1e-6) * (ifov * x)) / (df * i + 1e-6))
      = fun i : ℕ => c * (m i * Real.sin (2 * Real.pi * (df * i + 1e-6) * (ifov * x)) / (df * i + 1e-6))
        + c' * (m' i * Real.sin (2 * Real.pi * (df * i + 1e-6) * (ifov * x)) / (df * i + 1e-6)) := by
    funext i; ring
  rw [this, trap_add, trap_smul, trap_smul]
  ring

theorem rer_value (n : ℕ) (m : ℕ → ℝ) {df : ℝ} (hdf : 0 ≤ df) (ifov : ℝ) :
    relativeEdgeResponse (vec n m) (.fin df) (.fin ifov) = .ok (.fin (2 * edge n m df ifov 0.5 - 1)) := by
  unfold relativeEdgeResponse
  have h5 : (0.5 : XR) = .fin 0.5 := rfl
  rw [h5, XR.fin_neg, edge_value n m hdf, ok_bind, edge_value n m hdf, ok_bind, edge_neg, XR.fin_sub]
  congr 2; ring

theorem mapM_ok' {α β : Type} {f : α → Except PyErr β} {g : α → β} (l : List α) (h : ∀ a ∈ l, f a = .ok (g a)) :
    l.mapM f = .ok (l.map g) := by
  induction l with
  | nil => rfl
  | cons a l ih =>
    rw [List.mapM_cons, h a (by simp), ok_bind, ih (fun b hb => h b (by simp [hb])), ok_bind]
    rfl

theorem edge_samples (n : ℕ) (m : ℕ → ℝ) {df : ℝ} (hdf : 0 ≤ df) (ifov : ℝ) :
    ((List.range 9).map fun (i : ℕ) => XR.fin (1 + i * 0.25)).mapM (fun d => edgeResponse d (vec n m) (.fin df) (.fin ifov))
      = .ok (vec 9 fun i => edge n m df ifov (1 + i / 4)) := by
  rw [List.mapM_map]
  have := mapM_ok' (f := fun i : ℕ => edgeResponse (XR.fin (1 + i * 0.25)) (vec n m) (.fin df) (.fin ifov))
    (g := fun i : ℕ => XR.fin (edge n m df ifov (1 + i / 4))) (List.range 9) (fun i _ => by
      rw [edge_value n m hdf]; congr 3; ring)
  exact this

theorem diff_vec_pos (a : ℕ → ℝ) (n : ℕ) : (∀ d ∈ diff (vec n a), XR.lt 0 d) ↔ ∀ i, i + 1 < n → a i < a (i + 1) := by
  rw [vec_eq_map, diff_fin]
  constructor
  · intro h i hi
    have := h (.fin (a (i + 1) - a i)) (by
      apply List.mem_map.mpr
      refine ⟨a (i + 1) - a i, ?_, rfl⟩
      rw [List.mem_iff_getElem]
      refine ⟨i, by simp; omega, by simp⟩)
    rw [XR.zero_def, XR.fin_lt] at this
    linarith
  · intro h d hd
    obtain ⟨y, hy, rfl⟩ := List.mem_map.mp hd
    rw [List.mem_iff_getElem] at hy
    obtain ⟨i, hi, rfl⟩ := hy
    simp only [List.length_zipWith, List.length_tail, List.length_map, List.length_range] at hi
    simp only [List.getElem_zipWith, List.getElem_tail, List.getElem_map, List.getElem_range]
    rw [XR.zero_def, XR.fin_lt]
    have := h i (by omega)
    linarith

/-- Everything about the overshoot in one place. -/
theorem eho_value (n : ℕ) (m : ℕ → ℝ) {df : ℝ} (hdf : 0 ≤ df) (ifov : ℝ) :
    ∃ e, edgeHeightOvershoot (vec n m) (.fin df) (.fin ifov) = .ok (.fin e)
      ∧ ((∀ i : ℕ, i < 8 → edge n m df ifov (1 + i / 4) < edge n m df ifov (1 + (i + 1 : ℕ) / 4)) → e = edge n m df ifov 1.25)
      ∧ ((¬ ∀ i : ℕ, i < 8 → edge n m df ifov (1 + i / 4) < edge n m df ifov (1 + (i + 1 : ℕ) / 4)) →
          (∃ i : ℕ, i < 9 ∧ e = edge n m df ifov (1 + i / 4)) ∧ ∀ i : ℕ, i < 9 → edge n m df ifov (1 + i / 4) ≤ e) := by
  unfold edgeHeightOvershoot
  dsimp only
  rw [edge_samples n m hdf, ok_bind]
  have hd := diff_vec_pos (fun i => edge n m df ifov (1 + i / 4)) 9
  have hq : (∀ i : ℕ, i + 1 < 9 → edge n m df ifov (1 + i / 4) < edge n m df ifov (1 + ((i + 1 : ℕ) : ℝ) / 4))
      ↔ ∀ i : ℕ, i < 8 → edge n m df ifov (1 + i / 4) < edge n m df ifov (1 + (i + 1 : ℕ) / 4) := by
    constructor
    · intro h i hi; exact h i (by omega)
    · intro h i hi; exact h i (by omega)
  rw [hq] at hd
  by_cases h : ∀ i : ℕ, i < 8 → edge n m df ifov (1 + i / 4) < edge n m df ifov (1 + (i + 1 : ℕ) / 4)
  · rw [if_pos (hd.mpr h)]
    refine ⟨edge n m df ifov 1.25, ?_, fun _ => rfl, fun h' => absurd h h'⟩
    have : (vec 9 fun i => edge n m df ifov (1 + i / 4))[1]? = some (.fin (edge n m df ifov 1.25)) := by
      simp only [vec]
      rw [List.getElem?_map, List.getElem?_range (by norm_num)]
      simp only [Option.map_some, Nat.cast_one]
      norm_num
    rw [this]
  · rw [if_neg (fun h' => h (hd.mp h'))]
    rw [vec_eq_map]
    obtain ⟨e, he, hmem, hle⟩ := amax_fin (xs := (List.range 9).map fun i : ℕ => edge n m df ifov (1 + i / 4)) (by simp)
    refine ⟨e, he, fun h' => absurd h' h, fun _ => ⟨?_, ?_⟩⟩
    · obtain ⟨i, hi, rfl⟩ := List.mem_map.mp hmem
      exact ⟨i, List.mem_range.mp hi, rfl⟩
    · intro i hi
      exact hle _ (List.mem_map.mpr ⟨i, List.mem_range.mpr hi, rfl⟩)

end PyBSM
