import Verif.Lemmas.Weighted
import Verif.Lemmas.OtfElt

/-!
# Lemmas about `coherence_diameter`
-/

noncomputable section

open Classical

namespace PyBSM

open Spec

theorem weighted_congr {wl ws : List XR} {g g' : XR → Except PyErr (List XR)} (h : ∀ l ∈ wl, g l = g' l) :
    weightedByWavelength wl ws g = weightedByWavelength wl ws g' := by
  unfold weightedByWavelength
  dsimp only
  generalize List.map (fun x => x / asum ws) ws = w
  cases w with
  | nil => rfl
  | cons w0 w =>
    cases wl with
    | nil => rfl
    | cons l0 ls =>
      dsimp only
      rw [h l0 List.mem_cons_self]
      have : ∀ (suf : List XR) (acc : List XR), (∀ l ∈ suf, l ∈ l0 :: ls) →
          suf.foldlM (fun acc l => do
            if (l0 :: ls).length ≠ (w0 :: w).length then .error .indexError
            else
              let sel := (((l0 :: ls).zip (w0 :: w)).filter (fun p => XR.eq p.1 l)).map (·.2)
              let fl ← g l
              let t ← bc2 (· * ·) sel fl
              bc2 (· + ·) acc t) acc
          = (suf.foldlM (fun acc l => do
            if (l0 :: ls).length ≠ (w0 :: w).length then .error .indexError
            else
              let sel := (((l0 :: ls).zip (w0 :: w)).filter (fun p => XR.eq p.1 l)).map (·.2)
              let fl ← g' l
              let t ← bc2 (· * ·) sel fl
              bc2 (· + ·) acc t) acc : Except PyErr (List XR)) := by
        intro suf
        induction suf with
        | nil => intro acc _; rfl
        | cons a t ih =>
          intro acc hm
          rw [List.foldlM_cons, List.foldlM_cons, h a (hm a List.mem_cons_self)]
          congr 1
          funext b
          exact ih b fun l hl => hm l (List.mem_cons_of_mem _ hl)
      congr 1
      funext f0
      exact this ls _ fun l hl => List.mem_cons_of_mem _ hl

/-- The wavelength law of the coherence diameter at the level of one number, for every value of the
path integral (also infinite or undefined ones). -/
theorem fried_scale (sp : XR) {k c : ℝ} (hk : 0 < k) (hc : 0 < c) :
    (sp * 0.423 * (XR.fin (k / c)) ^ 2).rpow (-3 / 5)
      = .fin (c ^ ((6 : ℝ) / 5)) * (sp * 0.423 * (XR.fin k) ^ 2).rpow (-3 / 5) := by
  have hcp : 0 < c ^ ((6 : ℝ) / 5) := by positivity
  have hne : ((-3 : ℝ) / 5) ≠ 0 := by norm_num
  have hneg : ¬ (0 : ℝ) < (-3 : ℝ) / 5 := by norm_num
  have h423 : (0.423 : XR) = .fin 0.423 := rfl
  have hk2 : 0 < (k / c) ^ 2 := by positivity
  have hk2' : 0 < k ^ 2 := by positivity
  rw [h423, XR.fin_pow, XR.fin_pow]
  cases sp with
  | fin s =>
    rw [XR.fin_mul, XR.fin_mul, XR.fin_mul]
    rcases lt_trichotomy s 0 with hs | hs | hs
    · have h1 : s * 0.423 * (k / c) ^ 2 < 0 := mul_neg_of_neg_of_pos (by linarith) hk2
      have h2 : s * 0.423 * k ^ 2 < 0 := mul_neg_of_neg_of_pos (by linarith) hk2'
      simp only [XR.rpow, hne, if_false, h1, h2, if_true, XR.mul_nan]
    · subst hs
      simp only [zero_mul, XR.rpow, hne, if_false, lt_irrefl, if_true, hneg]
      show XR.pinf = XR.mulInf _
      unfold XR.mulInf
      rw [if_pos hcp]
    · rw [XR.fin_rpow _ (show 0 < s * 0.423 * (k / c) ^ 2 by positivity),
        XR.fin_rpow _ (show 0 < s * 0.423 * k ^ 2 by positivity), XR.fin_mul, XR.fin_inj]
      have : s * 0.423 * (k / c) ^ 2 = s * 0.423 * k ^ 2 * c ^ (-2 : ℝ) := by
        rw [Real.rpow_neg hc.le, div_pow]
        norm_num
        field_simp
      rw [this, Real.mul_rpow (by positivity) (by positivity), ← Real.rpow_mul hc.le, mul_comm]
      norm_num
  | pinf =>
    have e1 : (XR.pinf : XR) * .fin 0.423 = .pinf := by
      show XR.mulInf _ = _
      unfold XR.mulInf; rw [if_pos (by norm_num)]
    have e2 : ∀ x : ℝ, 0 < x → (XR.pinf : XR) * .fin x = .pinf := by
      intro x hx
      show XR.mulInf _ = _
      unfold XR.mulInf; rw [if_pos hx]
    rw [e1, e2 _ hk2, e2 _ hk2']
    simp only [XR.rpow, hne, if_false, hneg, XR.zero_def, XR.fin_mul, mul_zero]
  | ninf =>
    have e2 : ∀ x : ℝ, 0 < x → (XR.ninf : XR) * .fin x = .ninf := by
      intro x hx
      show XR.neg (XR.mulInf x) = _
      unfold XR.mulInf; rw [if_pos hx]; rfl
    rw [e2 _ (by norm_num), e2 _ hk2, e2 _ hk2']
    simp only [XR.rpow, hne, if_false, hneg, XR.zero_def, XR.fin_mul, mul_zero]
  | nan =>
    simp only [XR.nan_mul, XR.rpow, hne, if_false, XR.mul_nan]

theorem two_pi_div {sL : Scal} {lam : ℝ} (hL : sL.val = .fin lam) (h : lam ≠ 0) :
    ∃ k : Scal, Scal.div (.py (2 * .fin Real.pi)) sL = .ok k ∧ k.val = .fin (2 * Real.pi / lam) := by
  refine Scal.div_fin ?_ hL h
  show (2 : XR) * .fin Real.pi = _
  xr_simp

/-- `coherence_diameter` scales with the wavelength for every path and profile. -/
theorem coherence_scale {s s' : Scal} {lam c : ℝ} (hs : s.val = .fin lam) (hs' : s'.val = .fin (c * lam))
    (hl : 0 < lam) (hc : 0 < c) (z cn2 : List XR) :
    coherenceDiameter s' z cn2
      = (coherenceDiameter s z cn2).map fun r => .fin (c ^ ((6 : ℝ) / 5)) * r := by
  obtain ⟨k, e1, e2⟩ := two_pi_div hs hl.ne'
  obtain ⟨k', e1', e2'⟩ := two_pi_div hs' (mul_pos hc hl).ne'
  have hk : k'.val = .fin (2 * Real.pi / lam / c) := by
    rw [e2', XR.fin_inj]; field_simp
  unfold coherenceDiameter
  rw [e1, e1']
  cases amax z with
  | error e => rfl
  | ok zm =>
    rw [ok_bind, ok_bind]
    cases bc2 (· * ·) cn2 (z.map fun z => (z / zm).rpow (5 / 3)) with
    | error e => rfl
    | ok y =>
      rw [ok_bind, ok_bind]
      cases trapz y z with
      | error e => rfl
      | ok sp =>
        rw [ok_bind, ok_bind, ok_bind, ok_bind, hk, e2]
        show Except.ok _ = Except.ok _
        rw [fried_scale sp (by positivity) hc]

theorem strictMono_le {n : ℕ} {z : ℕ → ℝ} (hz : ∀ i, i + 1 < n → z i < z (i + 1)) :
    ∀ i j, i ≤ j → j < n → z i ≤ z j := by
  intro i j hij hj
  induction j, hij using Nat.le_induction with
  | base => exact le_rfl
  | succ j hij ih => exact (ih (by omega)).trans (hz j hj).le

theorem trap_strictMono {n : ℕ} {x y y' : ℕ → ℝ} (hn : 2 ≤ n) (hx : ∀ i, i + 1 < n → x i < x (i + 1))
    (hy : ∀ i < n, y i ≤ y' i) {k : ℕ} (hk : k < n) (hlt : y k < y' k) : trap n x y < trap n x y' := by
  unfold trap
  apply Finset.sum_lt_sum
  · intro i hi
    have hi' : i + 1 < n := by rw [Finset.mem_range] at hi; omega
    have h1 := hy i (by omega)
    have h2 := hy (i + 1) hi'
    have h3 := hx i hi'
    have := mul_le_mul_of_nonneg_left (add_le_add h1 h2) (sub_nonneg.mpr h3.le)
    nlinarith
  · by_cases hk1 : k + 1 < n
    · refine ⟨k, Finset.mem_range.mpr (by omega), ?_⟩
      have h2 := hy (k + 1) hk1
      have h3 := hx k hk1
      have := mul_lt_mul_of_pos_left (add_lt_add_of_lt_of_le hlt h2) (sub_pos.mpr h3)
      nlinarith
    · obtain ⟨j, rfl⟩ : ∃ j, k = j + 1 := ⟨k - 1, by omega⟩
      refine ⟨j, Finset.mem_range.mpr (by omega), ?_⟩
      have h2 := hy j (by omega)
      have h3 := hx j hk
      have := mul_lt_mul_of_pos_left (add_lt_add_of_le_of_lt h2 hlt) (sub_pos.mpr h3)
      nlinarith

/-- `amax` of an increasing path is its last point. -/
theorem amax_increasing {n : ℕ} (hn : 1 ≤ n) {z : ℕ → ℝ} (hz : ∀ i, i + 1 < n → z i < z (i + 1)) :
    amax (vec n z) = .ok (.fin (z (n - 1))) := by
  obtain ⟨m, h1, ⟨i, hi, e⟩, h3⟩ := amax_vec (show n ≠ 0 by omega) z
  rw [h1, ← e]
  congr 2
  apply le_antisymm
  · exact strictMono_le hz i (n - 1) (by omega) (by omega)
  · rw [e]; exact h3 (n - 1) (by omega)

theorem coherence_vec {s : Scal} {lam : ℝ} (hs : s.val = .fin lam) (hl : lam ≠ 0) {n : ℕ} (hn : 1 ≤ n)
    {z c : ℕ → ℝ} (hz : ∀ i, i + 1 < n → z i < z (i + 1)) (h0 : 0 ≤ z 0) (hpos : 0 < z (n - 1)) :
    coherenceDiameter s (vec n z) (vec n c)
      = .ok ((XR.fin (trap n z (fun i => c i * (z i / z (n - 1)) ^ ((5 : ℝ) / 3)) * 0.423
          * (2 * Real.pi / lam) ^ 2)).rpow (-3 / 5)) := by
  unfold coherenceDiameter
  obtain ⟨k, e1, e2⟩ := two_pi_div hs hl
  rw [amax_increasing hn hz, ok_bind, e1]
  have hm : (vec n z).map (fun y => (y / XR.fin (z (n - 1))).rpow (5 / 3))
      = vec n fun i => (z i / z (n - 1)) ^ ((5 : ℝ) / 3) := by
    unfold vec
    rw [List.map_map]
    apply List.map_congr_left
    intro i hi
    have hi' := List.mem_range.mp hi
    have : 0 ≤ z i := h0.trans (strictMono_le hz 0 i (by omega) hi')
    simp only [Function.comp]
    rw [XR.fin_div _ hpos.ne', XR.fin_rpow_nonneg (by positivity) (by norm_num)]
  rw [hm, bc2_vec_mul, ok_bind, trapz_vec, ok_bind, ok_bind, e2]
  xr_simp

end PyBSM
