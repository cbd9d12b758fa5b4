import Verif.Spec.Weighted
import Verif.Lemmas.Band
import Verif.Model.Otf

/-!
# Lemmas about `weighted_by_wavelength`
-/

noncomputable section

open Classical

namespace PyBSM

open Spec

theorem filter_nodup_fst : ∀ {pairs : List (ℝ × ℝ)} {p : ℝ × ℝ}, (pairs.map (·.1)).Nodup → p ∈ pairs →
    pairs.filter (fun q => decide (q.1 = p.1)) = [p]
  | [], _, _, h => by simp at h
  | q :: qs, p, hn, h => by
    rw [List.map_cons, List.nodup_cons] at hn
    rcases List.mem_cons.mp h with rfl | h
    · have : qs.filter (fun r => decide (r.1 = p.1)) = [] := by
        rw [List.filter_eq_nil_iff]
        intro r hr hd
        exact hn.1 (List.mem_map.mpr ⟨r, hr, of_decide_eq_true hd⟩)
      rw [List.filter_cons, if_pos (by simp), this]
    · have hne : q.1 ≠ p.1 := fun e => hn.1 (List.mem_map.mpr ⟨p, h, e.symm⟩)
      rw [List.filter_cons, if_neg (by simpa using hne)]
      exact filter_nodup_fst hn.2 h

theorem sel_eq {pairs : List (ℝ × ℝ)} (hn : (pairs.map (·.1)).Nodup) (S : ℝ) {p : ℝ × ℝ} (hp : p ∈ pairs) :
    (((pairs.map fun p => XR.fin p.1).zip (pairs.map fun p => XR.fin (p.2 / S))).filter
      (fun q => XR.eq q.1 (.fin p.1))).map (·.2) = [XR.fin (p.2 / S)] := by
  have e : (pairs.map fun p => XR.fin p.1).zip (pairs.map fun p => XR.fin (p.2 / S))
      = pairs.map fun p => (XR.fin p.1, XR.fin (p.2 / S)) := by
    rw [List.zip_map']
  rw [e, List.filter_map]
  have : ((fun q : XR × XR => decide (XR.eq q.1 (.fin p.1))) ∘ fun p : ℝ × ℝ => (XR.fin p.1, XR.fin (p.2 / S)))
      = fun q : ℝ × ℝ => decide (q.1 = p.1) := by
    funext q
    simp only [Function.comp, XR.fin_eq]
  rw [this, filter_nodup_fst hn hp]
  rfl

theorem bc2_scalar_mul (x : ℝ) (m : ℕ) (a : ℕ → ℝ) :
    bc2 (· * ·) [XR.fin x] (vec m a) = .ok (vec m fun j => x * a j) := by
  have hv := vec_map (f := fun y => XR.fin x * y) (g := fun y => x * y) (fun y => XR.fin_mul _ _) m a
  unfold bc2
  split
  · rename_i h
    have hm : m = 1 := by rw [vec_length] at h; simpa using h.symm
    subst hm
    simp only [vec, List.range_one, List.map_cons, List.map_nil, List.zipWith_cons_cons,
      List.zipWith_nil_right, XR.fin_mul]
  · exact congrArg Except.ok hv

theorem weighted_foldlM {g : XR → Except PyErr (List XR)} {m : ℕ} {G : ℝ → ℕ → ℝ} (S : ℝ)
    {pairs : List (ℝ × ℝ)} (hn : (pairs.map (·.1)).Nodup)
    (hG : ∀ p ∈ pairs, g (.fin p.1) = .ok (vec m (G p.1))) :
    ∀ (suf : List (ℝ × ℝ)) (acc : ℕ → ℝ), (∀ p ∈ suf, p ∈ pairs) →
    (suf.map fun p => XR.fin p.1).foldlM (fun acc l => do
      if (pairs.map fun p => XR.fin p.1).length ≠ (pairs.map fun p => XR.fin (p.2 / S)).length then
        .error .indexError
      else
        let sel := (((pairs.map fun p => XR.fin p.1).zip (pairs.map fun p => XR.fin (p.2 / S))).filter
          (fun q => XR.eq q.1 l)).map (·.2)
        let fl ← g l
        let t ← bc2 (· * ·) sel fl
        bc2 (· + ·) acc t) (vec m acc)
      = (.ok (vec m fun j => acc j + (suf.map fun p => p.2 / S * G p.1 j).sum) : Except PyErr (List XR))
  | [], acc, _ => by simp only [List.map_nil, List.foldlM_nil, List.sum_nil, add_zero]; rfl
  | p :: suf, acc, h => by
    have hp := h p List.mem_cons_self
    rw [List.map_cons, List.foldlM_cons]
    rw [if_neg (by simp)]
    dsimp only
    rw [hG p hp, ok_bind, sel_eq hn S hp, bc2_scalar_mul, ok_bind, bc2_vec_add, ok_bind,
      weighted_foldlM S hn hG suf _ fun q hq => h q (List.mem_cons_of_mem _ hq)]
    congr 2
    funext j
    rw [List.map_cons, List.sum_cons]
    ring

/-- Closed form of `weighted_by_wavelength` on finite data. -/
theorem weighted_vec {g : XR → Except PyErr (List XR)} {m : ℕ} {G : ℝ → ℕ → ℝ}
    {pairs : List (ℝ × ℝ)} (hne : pairs ≠ []) (hn : (pairs.map (·.1)).Nodup)
    (hS : (pairs.map (·.2)).sum ≠ 0) (hG : ∀ p ∈ pairs, g (.fin p.1) = .ok (vec m (G p.1))) :
    weightedByWavelength (pairs.map fun p => .fin p.1) (pairs.map fun p => .fin p.2) g
      = .ok (vec m fun j => wmean pairs fun l => G l j) := by
  set S := (pairs.map (·.2)).sum with hSdef
  have hs : asum (pairs.map fun p => XR.fin p.2) = .fin S := by
    rw [hSdef, ← asum_fin, List.map_map]; rfl
  have hw : (pairs.map fun p => XR.fin p.2).map (· / asum (pairs.map fun p => XR.fin p.2))
      = pairs.map fun p => XR.fin (p.2 / S) := by
    rw [hs, List.map_map]
    apply List.map_congr_left
    intro p _
    exact XR.fin_div _ hS
  have main := weighted_foldlM S hn hG
  unfold weightedByWavelength
  simp only [hw]
  cases pairs with
  | nil => exact absurd rfl hne
  | cons p ps =>
    have h0 := hG p List.mem_cons_self
    simp only [List.map_cons]
    rw [h0, ok_bind]
    have e0 : (vec m (G p.1)).map (XR.fin (p.2 / S) * ·) = vec m fun j => p.2 / S * G p.1 j :=
      vec_map (g := fun y => p.2 / S * y) (fun y => XR.fin_mul _ _) m _
    rw [e0]
    have := main ps (fun j => p.2 / S * G p.1 j) (fun q hq => List.mem_cons_of_mem _ hq)
    simp only [List.map_cons] at this
    rw [this]
    congr 2
    funext j
    unfold wmean
    rw [← hSdef, List.map_cons, List.sum_cons, add_div]
    have : ∀ l : List (ℝ × ℝ), (l.map fun p => p.2 / S * G p.1 j).sum
        = (l.map fun p => p.2 * G p.1 j).sum / S := by
      intro l
      induction l with
      | nil => simp
      | cons a t ih => simp only [List.map_cons, List.sum_cons, ih]; ring
    rw [this]
    ring

theorem wmean_const {pairs : List (ℝ × ℝ)} (hS : (pairs.map (·.2)).sum ≠ 0) {F : ℝ → ℝ} {c : ℝ}
    (h : ∀ p ∈ pairs, F p.1 = c) : wmean pairs F = c := by
  unfold wmean
  have : (pairs.map fun p => p.2 * F p.1) = pairs.map fun p => p.2 * c :=
    List.map_congr_left fun p hp => by rw [h p hp]
  rw [this, List.sum_map_mul_right, mul_div_assoc, mul_comm, div_mul_cancel₀ c hS]

theorem wmean_perm {pairs pairs' : List (ℝ × ℝ)} (h : pairs.Perm pairs') (F : ℝ → ℝ) :
    wmean pairs F = wmean pairs' F := by
  unfold wmean
  rw [(h.map _).sum_eq, (h.map (fun p : ℝ × ℝ => p.2)).sum_eq]

theorem wmean_scale {pairs : List (ℝ × ℝ)} {c : ℝ} (hc : c ≠ 0) (F : ℝ → ℝ) :
    wmean (pairs.map fun p => (p.1, c * p.2)) F = wmean pairs F := by
  unfold wmean
  rw [List.map_map, List.map_map]
  have e1 : (pairs.map ((fun p : ℝ × ℝ => p.2 * F p.1) ∘ fun p => (p.1, c * p.2)))
      = pairs.map fun p => c * (p.2 * F p.1) :=
    List.map_congr_left fun p _ => by simp only [Function.comp]; ring
  have e2 : (pairs.map ((fun p : ℝ × ℝ => p.2) ∘ fun p => (p.1, c * p.2)))
      = pairs.map fun p => c * p.2 := rfl
  rw [e1, e2, List.sum_map_mul_left, List.sum_map_mul_left, mul_div_mul_left _ _ hc]

theorem wmean_le {pairs : List (ℝ × ℝ)} (hw : ∀ p ∈ pairs, 0 ≤ p.2) (hS : 0 < (pairs.map (·.2)).sum)
    {F : ℝ → ℝ} {c : ℝ} (h : ∀ p ∈ pairs, F p.1 ≤ c) : wmean pairs F ≤ c := by
  unfold wmean
  rw [div_le_iff₀ hS, ← List.sum_map_mul_left]
  apply List.sum_le_sum
  intro p hp
  rw [mul_comm]
  exact mul_le_mul_of_nonneg_right (h p hp) (hw p hp)

theorem le_wmean {pairs : List (ℝ × ℝ)} (hw : ∀ p ∈ pairs, 0 ≤ p.2) (hS : 0 < (pairs.map (·.2)).sum)
    {F : ℝ → ℝ} {c : ℝ} (h : ∀ p ∈ pairs, c ≤ F p.1) : c ≤ wmean pairs F := by
  unfold wmean
  rw [le_div_iff₀ hS, ← List.sum_map_mul_left]
  apply List.sum_le_sum
  intro p hp
  rw [mul_comm p.2]
  exact mul_le_mul_of_nonneg_right (h p hp) (hw p hp)

end PyBSM
