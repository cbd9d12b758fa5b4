import Verif.Lemmas.Edge

/-!
# C51, C52: edge response, relative edge response and overshoot
-/

noncomputable section

open Classical

namespace PyBSM

open Spec

/-! ## C51 -/

/-- **C51** (value): the edge response is the sine transform of the MTF slice (`Spec.edge`), for every slice,
every non-negative frequency step and every position. -/
theorem C51_value (n : ℕ) (m : ℕ → ℝ) {df : ℝ} (hdf : 0 ≤ df) (ifov x : ℝ) :
    edgeResponse (.fin x) (vec n m) (.fin df) (.fin ifov) = .ok (.fin (edge n m df ifov x)) :=
  edge_value n m hdf ifov x

/-- **C51** (antisymmetry): one half on the edge, and the two sides add up to one. -/
theorem C51_antisymmetric (n : ℕ) (m : ℕ → ℝ) {df : ℝ} (hdf : 0 ≤ df) (ifov x : ℝ) :
    edgeResponse 0 (vec n m) (.fin df) (.fin ifov) = .ok (.fin (1 / 2))
    ∧ ∃ a b : ℝ, edgeResponse (.fin x) (vec n m) (.fin df) (.fin ifov) = .ok (.fin a)
      ∧ edgeResponse (.fin (-x)) (vec n m) (.fin df) (.fin ifov) = .ok (.fin b) ∧ a + b = 1 := by
  constructor
  · rw [XR.zero_def, edge_value n m hdf]
    have := edge_neg n m df ifov 0
    rw [neg_zero] at this
    congr 2; linarith
  · refine ⟨_, _, edge_value n m hdf ifov x, edge_value n m hdf ifov (-x), ?_⟩
    rw [edge_neg]; ring

example : edgeResponse (.fin 0) (vec 51 fun i => 1 - i / 50) (.fin 11000) (.fin 5e-6) = .ok (.fin (1 / 2)) :=
  (C51_antisymmetric 51 _ (by norm_num) _ 0).1

/-! ## C52 -/

/-- **C52** (RER): the difference of the responses half a pixel on either side of the edge, which is
`2 ER(1/2) - 1`. -/
theorem C52_rer (n : ℕ) (m : ℕ → ℝ) {df : ℝ} (hdf : 0 ≤ df) (ifov : ℝ) :
    ∃ a b r : ℝ, edgeResponse 0.5 (vec n m) (.fin df) (.fin ifov) = .ok (.fin a)
      ∧ edgeResponse (-0.5) (vec n m) (.fin df) (.fin ifov) = .ok (.fin b)
      ∧ relativeEdgeResponse (vec n m) (.fin df) (.fin ifov) = .ok (.fin r)
      ∧ r = a - b ∧ r = 2 * a - 1 := by
  have h5 : (0.5 : XR) = .fin 0.5 := rfl
  refine ⟨edge n m df ifov 0.5, edge n m df ifov (-0.5), _, ?_, ?_, rer_value n m hdf ifov, ?_, rfl⟩
  · rw [h5, edge_value n m hdf]
  · rw [h5, XR.fin_neg, edge_value n m hdf]
  · rw [edge_neg]; ring

/-- **C52** (linearity): the RER of a weighted sum of OTF slices is the weighted sum of the RERs. -/
theorem C52_rer_linear (n : ℕ) (m m' : ℕ → ℝ) (c c' : ℝ) {df : ℝ} (hdf : 0 ≤ df) (ifov : ℝ) :
    ∃ r r' : ℝ, relativeEdgeResponse (vec n m) (.fin df) (.fin ifov) = .ok (.fin r)
      ∧ relativeEdgeResponse (vec n m') (.fin df) (.fin ifov) = .ok (.fin r')
      ∧ relativeEdgeResponse (vec n fun i => c * m i + c' * m' i) (.fin df) (.fin ifov) = .ok (.fin (c * r + c' * r')) := by
  refine ⟨_, _, rer_value n m hdf ifov, rer_value n m' hdf ifov, ?_⟩
  rw [rer_value n _ hdf]
  have := edge_affine n m m' c c' df ifov 0.5
  congr 2; linarith

/-- **C52** (overshoot): with the responses `E i` at `1, 1.25, …, 3` pixels, the overshoot is `E 1` if they
strictly increase and otherwise the largest of them. -/
theorem C52_overshoot (n : ℕ) (m : ℕ → ℝ) {df : ℝ} (hdf : 0 ≤ df) (ifov : ℝ) :
    ∃ (E : ℕ → ℝ) (e : ℝ),
      (∀ i : ℕ, i < 9 → edgeResponse (.fin (1 + i / 4)) (vec n m) (.fin df) (.fin ifov) = .ok (.fin (E i)))
      ∧ edgeHeightOvershoot (vec n m) (.fin df) (.fin ifov) = .ok (.fin e)
      ∧ ((∀ i < 8, E i < E (i + 1)) → e = E 1)
      ∧ ((¬ ∀ i < 8, E i < E (i + 1)) → ∀ i < 9, E i ≤ e)
      ∧ (∃ i < 9, e = E i) ∧ E 1 ≤ e := by
  obtain ⟨e, he, h1, h2⟩ := eho_value n m hdf ifov
  have e1 : edge n m df ifov 1.25 = edge n m df ifov (1 + (1 : ℕ) / 4) := by congr 1; norm_num
  rw [e1] at h1
  refine ⟨fun i => edge n m df ifov (1 + i / 4), e, fun i _ => edge_value n m hdf ifov _, he, h1, fun h => (h2 h).2, ?_, ?_⟩
  · by_cases h : ∀ i : ℕ, i < 8 → edge n m df ifov (1 + i / 4) < edge n m df ifov (1 + (i + 1 : ℕ) / 4)
    · exact ⟨1, by norm_num, h1 h⟩
    · exact (h2 h).1
  · by_cases h : ∀ i : ℕ, i < 8 → edge n m df ifov (1 + i / 4) < edge n m df ifov (1 + (i + 1 : ℕ) / 4)
    · exact (h1 h).ge
    · exact (h2 h).2 1 (by norm_num)

example : ∃ r, relativeEdgeResponse (vec 50 fun i => 1 - i / 50) (.fin 11000) (.fin 5e-6) = .ok (.fin r) := by
  obtain ⟨_, _, r, _, _, h, _⟩ := C52_rer 50 (fun i => 1 - i / 50) (df := 11000) (by norm_num) 5e-6
  exact ⟨r, h⟩

end PyBSM
