import Verif.Model.DoubleBand
import Verif.Props.DoubleTurbulence
import Verif.Props.DoubleSimulate

/-!
# Coherence diameter of a band in double precision (C153)
-/

noncomputable section

open Classical

namespace PyBSM

open Spec

variable {fl cosD acosD : ℝ → ℝ} {L : MathLib}

/-- Adding numbers that are not negative, one after the other: relative errors grow by one rounding a step. -/
theorem foldl_relative (hfl : RoundsToNearest fl) {a' a : ℝ × ℝ → ℝ} (l : List (ℝ × ℝ)) : ∀ {S' S ε : ℝ}, 0 ≤ S → |S' - S| ≤ ε * S → 0 ≤ ε →
    (∀ p ∈ l, 0 ≤ a p ∧ |a' p - a p| ≤ ε * a p) → ε + l.length * 1.3e-16 ≤ 0.08 →
    |(l.map a').foldl (fun s x => fl (s + x)) S' - (S + (l.map a).sum)| ≤ (ε + l.length * 1.3e-16) * (S + (l.map a).sum) := by
  induction l with
  | nil =>
    intro S' S ε _ h _ _ _
    simpa using h
  | cons p l ih =>
    intro S' S ε hS h he hp hn
    obtain ⟨p0, p1⟩ := hp p List.mem_cons_self
    simp only [List.map_cons, List.foldl_cons, List.sum_cons, List.length_cons] at hn ⊢
    push_cast at hn ⊢
    have hl : (0 : ℝ) ≤ l.length := Nat.cast_nonneg _
    have s : |S' + a' p - (S + a p)| ≤ ε * (S + a p) := by
      rw [show S' + a' p - (S + a p) = (S' - S) + (a' p - a p) by ring]
      exact (abs_add_le _ _).trans (by linarith)
    have r := fl_relative hfl (by linarith : 0 ≤ S + a p) s
    have k := ih (S' := fl (S' + a' p)) (S := S + a p) (ε := ε + 1.3e-16) (by linarith)
      (r.trans (mul_le_mul_of_nonneg_right (by nlinarith) (by linarith))) (by linarith)
      (fun q hq => by
        obtain ⟨q0, q1⟩ := hp q (List.mem_cons_of_mem _ hq)
        exact ⟨q0, q1.trans (mul_le_mul_of_nonneg_right (by linarith) q0)⟩) (by linarith)
    rw [show S + (a p + (l.map a).sum) = S + a p + (l.map a).sum by ring,
      show ε + ((l.length : ℝ) + 1) * 1.3e-16 = ε + 1.3e-16 + l.length * 1.3e-16 by ring]
    exact k

/-- **C153** (mean over a band): for a function that is not negative, computed with a relative error of at most `ε`, the mean that
`weighted_by_wavelength` computes in double precision has a relative error of at most `ε` plus 1e-12. -/
theorem C153_mean (hfl : RoundsToNearest fl) {order : SumTree} {pairs : List (ℝ × ℝ)} {F' F : ℝ → ℝ} {ε : ℝ}
    (ho : order.leaves.Perm (List.range pairs.length)) (hd : order.depth ≤ 2000) (hn : pairs.length ≤ 2000)
    (hw : ∀ p ∈ pairs, 0 ≤ p.2) (ht : 0 < (pairs.map (·.2)).sum) (hF : ∀ p ∈ pairs, 0 ≤ F p.1 ∧ |F' p.1 - F p.1| ≤ ε * F p.1)
    (he0 : 0 ≤ ε) (he : ε ≤ 0.07) : |weightedD fl order pairs F' - wmean pairs F| ≤ (ε + 1e-12) * wmean pairs F := by
  have hsum := sumD_close hfl (f := fun i => (pairs.getD i (0, 0)).2) order (by
    intro i hi
    have hi' : i < pairs.length := List.mem_range.mp (ho.mem_iff.mp hi)
    have : pairs.getD i (0, 0) = pairs[i] := by simp [List.getD_eq_getElem?_getD, hi']
    show 0 ≤ (pairs.getD i (0, 0)).2
    rw [this]
    exact hw _ (List.getElem_mem hi')) hd
  rw [(ho.map _).sum_eq, range_getD] at hsum
  have hT := hsum.2
  have hdep : (order.depth : ℝ) ≤ 2000 := by exact_mod_cast hd
  have hlen : (pairs.length : ℝ) ≤ 2000 := by exact_mod_cast hn
  unfold weightedD wmean
  dsimp only
  generalize order.sumD fl (fun i => (pairs.getD i (0, 0)).2) = T' at *
  generalize hTt : (pairs.map (·.2)).sum = T at *
  have hT2 : |T' - T| ≤ 3.1e-13 * T := hT.trans (by nlinarith)
  obtain ⟨t1, t2⟩ := abs_le.mp hT2
  have hT'0 : 0 < T' := by nlinarith
  have term : ∀ p ∈ pairs, 0 ≤ p.2 / T * F p.1 ∧ |fl (fl (p.2 / T') * F' p.1) - p.2 / T * F p.1| ≤ (ε + 4e-13) * (p.2 / T * F p.1) := by
    intro p hp
    obtain ⟨f0, f1⟩ := hF p hp
    have hp0 := hw p hp
    have hq0 : 0 ≤ p.2 / T := by positivity
    have hq : |p.2 / T' - p.2 / T| ≤ 3.2e-13 * (p.2 / T) := by
      have : p.2 / T' - p.2 / T = p.2 / T * ((T - T') / T') := by field_simp
      rw [this, abs_mul, abs_of_nonneg hq0, mul_comm]
      refine mul_le_mul_of_nonneg_right ?_ hq0
      rw [abs_div, abs_of_pos hT'0, div_le_iff₀ hT'0, abs_sub_comm]
      nlinarith
    generalize p.2 / T = q at *
    have hr := fl_relative hfl hq0 hq
    have hr' : |fl (p.2 / T') - q| ≤ 3.3e-13 * q := hr.trans (mul_le_mul_of_nonneg_right (by norm_num) hq0)
    generalize fl (p.2 / T') = q' at *
    generalize F' p.1 = y' at *
    generalize F p.1 = y at *
    have hm0 : 0 ≤ q * y := mul_nonneg hq0 f0
    refine ⟨hm0, ?_⟩
    have hm : |q' * y' - q * y| ≤ (ε + 3.6e-13) * (q * y) := by
      rw [show q' * y' - q * y = (q' - q) * y + q * (y' - y) + (q' - q) * (y' - y) by ring]
      have k1 := abs_add_le ((q' - q) * y + q * (y' - y)) ((q' - q) * (y' - y))
      have k2 := abs_add_le ((q' - q) * y) (q * (y' - y))
      rw [abs_mul] at k1
      rw [abs_mul, abs_mul, abs_of_nonneg f0, abs_of_nonneg hq0] at k2
      have j1 := mul_le_mul_of_nonneg_right hr' f0
      have j2 := mul_le_mul_of_nonneg_left f1 hq0
      have j3 := mul_le_mul hr' f1 (abs_nonneg _) (by positivity)
      have j4 : 3.3e-13 * q * (ε * y) ≤ 0.3e-13 * (q * y) := by
        rw [show 3.3e-13 * q * (ε * y) = (3.3e-13 * ε) * (q * y) by ring]
        exact mul_le_mul_of_nonneg_right (by linarith) hm0
      linarith
    refine (fl_relative hfl hm0 hm).trans (mul_le_mul_of_nonneg_right ?_ hm0)
    linarith
  have wsum : (pairs.map fun p => p.2 * F p.1).sum / T = (pairs.map fun p => p.2 / T * F p.1).sum := by
    rw [div_eq_mul_inv, ← List.sum_map_mul_right]
    congr 1
    apply List.map_congr_left
    intro p _
    rw [div_eq_mul_inv]; ring
  rw [wsum]
  match pairs, term, hlen, ht, hTt with
  | [], _, _, ht, hTt =>
    simp at hTt
    linarith
  | p :: l, term, hlen, _, _ =>
    obtain ⟨p0, p1⟩ := term p List.mem_cons_self
    simp only [List.map_cons, List.length_cons, List.sum_cons] at hlen ⊢
    push_cast at hlen
    have r := foldl_relative hfl (a' := fun p => fl (fl (p.2 / T') * F' p.1)) (a := fun p => p.2 / T * F p.1) l p0 p1 (by linarith)
      (fun q hq => term q (List.mem_cons_of_mem _ hq)) (by linarith)
    refine r.trans (mul_le_mul_of_nonneg_right (by linarith) ?_)
    exact add_nonneg p0 (List.sum_nonneg (by
      simp only [List.mem_map]
      rintro _ ⟨q, hq, rfl⟩
      exact (term q (List.mem_cons_of_mem _ hq)).1))

/-- **C153** (coherence diameter of the band): the coherence diameter over the band that the program computes for a scene has a relative
error of at most `1.1 · 10^-8 + 0.113 / d²`, where `d` is the slant range in metres. -/
theorem C153_band (hfl : RoundsToNearest fl) (hc : IsCosine cosD) (ha : IsArccos acosD) (hL : MathLibrary L) (hT : TenthPower L) {g : RealScene}
    {sumOrder order : SumTree} {pairs : List (ℝ × ℝ)} (hs : sumOrder.leaves.Perm (List.range pairs.length)) (hs' : sumOrder.depth ≤ 2000)
    (hn : pairs.length ≤ 2000) (ho : order.leaves.Perm (List.range 9999)) (hr : order.depth ≤ 2000) (h0 : 4 ≤ g.altitude)
    (h1 : g.altitude ≤ 1000000) (g0 : 1 ≤ g.groundRange) (g1 : g.groundRange ≤ 1000000) (v0 : 0 ≤ g.windSpeed) (v1 : g.windSpeed ≤ 1000)
    (c0 : 0 < g.cn2) (c1 : g.cn2 ≤ 1) (hl : ∀ p ∈ pairs, Ordinary p.1) (hw : ∀ p ∈ pairs, 0 ≤ p.2) (ht : 0 < (pairs.map (·.2)).sum) :
    |bandD fl cosD acosD L sumOrder order pairs g.altitude g.groundRange g.windSpeed g.cn2
        - wmean pairs (fried g.altitude g.groundRange g.windSpeed g.cn2)|
      ≤ (1.1e-8 + 0.113 / g.slant ^ 2) * wmean pairs (fried g.altitude g.groundRange g.windSpeed g.cn2) := by
  have hs2 := scene_slant_small h0
  have hs0 : 0 ≤ 0.11 / g.slant ^ 2 := by positivity
  have hF : ∀ p ∈ pairs, 0 ≤ fried g.altitude g.groundRange g.windSpeed g.cn2 p.1
      ∧ |(friedD fl cosD acosD L order g.altitude g.groundRange g.windSpeed g.cn2 p.1).number - fried g.altitude g.groundRange g.windSpeed g.cn2 p.1|
        ≤ (1.02 * (1e-8 + 0.11 / g.slant ^ 2)) * fried g.altitude g.groundRange g.windSpeed g.cn2 p.1 := by
    intro p hp
    have w := scene_fried hfl hc ha hL hT ho hr h0 h1 g0 g1 v0 v1 c1 c0 (hl p hp)
    exact ⟨w.2.1.le, w.error (by linarith)⟩
  have m := C153_mean hfl (ε := 1.02 * (1e-8 + 0.11 / g.slant ^ 2))
    (F' := fun l => (friedD fl cosD acosD L order g.altitude g.groundRange g.windSpeed g.cn2 l).number)
    (F := fried g.altitude g.groundRange g.windSpeed g.cn2) hs hs' hn hw ht hF (by linarith) (by linarith)
  refine m.trans (mul_le_mul_of_nonneg_right ?_ ?_)
  · have : 0.113 / g.slant ^ 2 = 0.113 / 0.11 * (0.11 / g.slant ^ 2) := by ring
    linarith
  · unfold wmean
    refine div_nonneg (List.sum_nonneg ?_) ht.le
    simp only [List.mem_map]
    rintro _ ⟨p, hp, rfl⟩
    exact mul_nonneg (hw p hp) (hF p hp).1

/-! ## Concrete cases -/

/-- Two wavelengths of the middle infrared seen from 9 km (C153_mean, C153_band). -/
example (hfl : RoundsToNearest fl) :
    |bandD fl Real.cos Real.arccos (roundedLib fl) (.node (.leaf 0) (.leaf 1)) (SumTree.halves 14 0 9999) [(4e-6, 2), (5e-6, 1)]
        demoScene.altitude demoScene.groundRange demoScene.windSpeed demoScene.cn2
        - wmean [(4e-6, 2), (5e-6, 1)] (fried demoScene.altitude demoScene.groundRange demoScene.windSpeed demoScene.cn2)|
      ≤ (1.1e-8 + 0.113 / demoScene.slant ^ 2)
        * wmean [(4e-6, 2), (5e-6, 1)] (fried demoScene.altitude demoScene.groundRange demoScene.windSpeed demoScene.cn2) := by
  refine C153_band hfl real_cosine real_arccos (roundedLib_accurate hfl) (tenth_rounded hfl) (by simp [SumTree.leaves, List.range_succ])
    (by simp [SumTree.depth]) (by simp) (by rw [halves_leaves _ _ _ (by norm_num), List.range_eq_range']) ((halves_depth _ _ _).trans (by norm_num))
    (by norm_num [demoScene]) (by norm_num [demoScene]) (by norm_num [demoScene]) (by norm_num [demoScene]) (by norm_num [demoScene])
    (by norm_num [demoScene]) (by norm_num [demoScene]) (by norm_num [demoScene]) ?_ ?_ (by norm_num)
  · intro p hp
    simp only [List.mem_cons, List.not_mem_nil, or_false] at hp
    rcases hp with rfl | rfl <;> exact ⟨by norm_num, by norm_num⟩
  · intro p hp
    simp only [List.mem_cons, List.not_mem_nil, or_false] at hp
    rcases hp with rfl | rfl <;> norm_num

end PyBSM
