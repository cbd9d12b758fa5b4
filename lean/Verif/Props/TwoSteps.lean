import Verif.Spec.TwoSteps
import Verif.Props.OddPsf

/-!
# C138: blurring in two steps
-/

noncomputable section

open Classical

namespace PyBSM

open Spec

theorem offset_sum {g : ℤ → ℂ} (hg : ∀ t, ¬ (-5 ≤ t ∧ t ≤ 4) → g t = 0) {a : ℤ} (h1 : -5 ≤ a) (h2 : a ≤ 4) (F : ℤ → ℂ) :
    ∑ c ∈ Finset.Icc (-10 : ℤ) 8, g (c - a) * F c = ∑ t ∈ Finset.Icc (-5 : ℤ) 4, g t * F (a + t) := by
  rw [← Finset.sum_subset (s₁ := Finset.Icc (a - 5) (a + 4)) (Finset.Icc_subset_Icc (by omega) (by omega))]
  · refine Finset.sum_nbij' (fun c => c - a) (fun t => a + t) ?_ ?_ ?_ ?_ ?_
    · intro c hc
      rw [Finset.mem_Icc] at hc ⊢
      omega
    · intro t ht
      rw [Finset.mem_Icc] at ht ⊢
      omega
    · intro c _; ring
    · intro t _; ring
    · intro c _
      rw [show a + (c - a) = c by ring]
  · intro c _ hc
    rw [Finset.mem_Icc] at hc
    rw [hg _ (by omega), zero_mul]

theorem offset_sum2 {h : ℤ → ℤ → ℝ} (hp : PointSpread h) {a b : ℤ} (a1 : -5 ≤ a) (a2 : a ≤ 4) (b1 : -5 ≤ b) (b2 : b ≤ 4)
    (F : ℤ → ℤ → ℂ) :
    ∑ c ∈ Finset.Icc (-10 : ℤ) 8, ∑ d ∈ Finset.Icc (-10 : ℤ) 8, (h (c - a) (d - b) : ℂ) * F c d
      = ∑ s ∈ Finset.Icc (-5 : ℤ) 4, ∑ t ∈ Finset.Icc (-5 : ℤ) 4, (h s t : ℂ) * F (a + s) (b + t) := by
  have e : ∀ c, ∑ d ∈ Finset.Icc (-10 : ℤ) 8, (h (c - a) (d - b) : ℂ) * F c d
      = ∑ t ∈ Finset.Icc (-5 : ℤ) 4, (h (c - a) t : ℂ) * F c (b + t) := fun c =>
    offset_sum (g := fun t => (h (c - a) t : ℂ)) (fun t ht => by rw [hp.support _ _ (by omega)]; simp) b1 b2 (F c)
  simp only [e]
  refine Finset.sum_comm.trans (Eq.trans ?_ Finset.sum_comm)
  exact Finset.sum_congr rfl fun t _ =>
    offset_sum (g := fun s => (h s t : ℂ)) (fun s hs => by rw [hp.support _ _ (by omega)]; simp) a1 a2 fun c => F c (b + t)

/-- Summing anything over the places that two blurs together reach. -/
theorem twoSteps_sum {h₁ h₂ : ℤ → ℤ → ℝ} (hp : PointSpread h₂) (hf : FitTogether h₁ h₂) (F : ℤ → ℤ → ℂ) :
    ∑ c ∈ Finset.Icc (-5 : ℤ) 4, ∑ d ∈ Finset.Icc (-5 : ℤ) 4, (twoSteps h₁ h₂ c d : ℂ) * F c d
      = ∑ a ∈ Finset.Icc (-5 : ℤ) 4, ∑ b ∈ Finset.Icc (-5 : ℤ) 4, (h₁ a b : ℂ)
        * ∑ s ∈ Finset.Icc (-5 : ℤ) 4, ∑ t ∈ Finset.Icc (-5 : ℤ) 4, (h₂ s t : ℂ) * F (a + s) (b + t) := by
  have sub : Finset.Icc (-5 : ℤ) 4 ⊆ Finset.Icc (-10 : ℤ) 8 := Finset.Icc_subset_Icc (by norm_num) (by norm_num)
  have big : ∑ c ∈ Finset.Icc (-5 : ℤ) 4, ∑ d ∈ Finset.Icc (-5 : ℤ) 4, (twoSteps h₁ h₂ c d : ℂ) * F c d
      = ∑ c ∈ Finset.Icc (-10 : ℤ) 8, ∑ d ∈ Finset.Icc (-10 : ℤ) 8, (twoSteps h₁ h₂ c d : ℂ) * F c d := by
    have z : ∀ c d, ¬ (-5 ≤ c ∧ c ≤ 4 ∧ -5 ≤ d ∧ d ≤ 4) → (twoSteps h₁ h₂ c d : ℂ) * F c d = 0 := fun c d h => by
      rw [hf c d h]; simp
    rw [← Finset.sum_subset sub]
    · refine Finset.sum_congr rfl fun c _ => Finset.sum_subset sub ?_
      intro d _ hd
      rw [Finset.mem_Icc] at hd
      exact z c d (by tauto)
    · intro c _ hc
      rw [Finset.mem_Icc] at hc
      exact Finset.sum_eq_zero fun d _ => z c d (by tauto)
  have expand : ∀ c d, (twoSteps h₁ h₂ c d : ℂ) * F c d = ∑ a ∈ Finset.Icc (-5 : ℤ) 4, ∑ b ∈ Finset.Icc (-5 : ℤ) 4,
      (h₁ a b : ℂ) * ((h₂ (c - a) (d - b) : ℂ) * F c d) := by
    intro c d
    unfold twoSteps
    push_cast
    rw [Finset.sum_mul]
    refine Finset.sum_congr rfl fun a _ => ?_
    rw [Finset.sum_mul]
    exact Finset.sum_congr rfl fun b _ => by ring
  rw [big]
  simp only [expand]
  have swap : ∀ (A B : Finset ℤ) (G : ℤ → ℤ → ℤ → ℤ → ℂ), ∑ c ∈ B, ∑ d ∈ B, ∑ a ∈ A, ∑ b ∈ A, G a b c d
      = ∑ a ∈ A, ∑ b ∈ A, ∑ c ∈ B, ∑ d ∈ B, G a b c d := by
    intro A B G
    rw [Finset.sum_congr rfl fun c _ => Finset.sum_comm, Finset.sum_comm]
    refine Finset.sum_congr rfl fun a _ => ?_
    rw [Finset.sum_congr rfl fun c _ => Finset.sum_comm, Finset.sum_comm]
  rw [swap]
  refine Finset.sum_congr rfl fun a ha => Finset.sum_congr rfl fun b hb => ?_
  rw [Finset.mem_Icc] at ha hb
  rw [← offset_sum2 hp ha.1 ha.2 hb.1 hb.2 F, Finset.mul_sum]
  exact Finset.sum_congr rfl fun c _ => by rw [Finset.mul_sum]

theorem twoSteps_sum_real {h₁ h₂ : ℤ → ℤ → ℝ} (hp : PointSpread h₂) (hf : FitTogether h₁ h₂) (F : ℤ → ℤ → ℝ) :
    ∑ c ∈ Finset.Icc (-5 : ℤ) 4, ∑ d ∈ Finset.Icc (-5 : ℤ) 4, twoSteps h₁ h₂ c d * F c d
      = ∑ a ∈ Finset.Icc (-5 : ℤ) 4, ∑ b ∈ Finset.Icc (-5 : ℤ) 4, h₁ a b
        * ∑ s ∈ Finset.Icc (-5 : ℤ) 4, ∑ t ∈ Finset.Icc (-5 : ℤ) 4, h₂ s t * F (a + s) (b + t) := by
  have := twoSteps_sum hp hf fun c d => (F c d : ℂ)
  apply Complex.ofReal_injective
  push_cast
  exact this

theorem twoSteps_spread {h₁ h₂ : ℤ → ℤ → ℝ} (hp₁ : PointSpread h₁) (hp₂ : PointSpread h₂) (hf : FitTogether h₁ h₂) :
    PointSpread (twoSteps h₁ h₂) := by
  refine ⟨hf, ?_⟩
  have := twoSteps_sum_real hp₂ hf fun _ _ => 1
  simp only [mul_one] at this
  rw [this]
  simp only [hp₂.total, mul_one, hp₁.total]

/-- **C138** (transfer functions): the transfer function of two blurs is the product of their transfer functions. -/
theorem C138_product {h₁ h₂ : ℤ → ℤ → ℝ} (hp : PointSpread h₂) (hf : FitTogether h₁ h₂) (M N k l : ℕ) :
    transfer M N (twoSteps h₁ h₂) k l = transfer M N h₁ k l * transfer M N h₂ k l := by
  unfold transfer
  rw [twoSteps_sum hp hf, Finset.sum_mul]
  refine Finset.sum_congr rfl fun a _ => ?_
  rw [Finset.sum_mul]
  refine Finset.sum_congr rfl fun b _ => ?_
  rw [mul_assoc ((h₁ a b : ℝ) : ℂ)]
  congr 1
  rw [Finset.mul_sum]
  refine Finset.sum_congr rfl fun s _ => ?_
  rw [Finset.mul_sum]
  refine Finset.sum_congr rfl fun t _ => ?_
  rw [mul_left_comm, ← Complex.exp_add]
  congr 2
  push_cast
  ring

/-- **C138** (two steps): for an even number of samples above 10, a frequency spacing matching the image's pixels and a camera
with these pixels, applying one OTF and then another gives what applying their product gives, at every pixel at least 10
pixels from the border. -/
theorem C138_steps {x : Img} (hxh : 6 ≤ x.h) (hxw : 6 ≤ x.w) {M : ℕ} (hM : 10 < M) (eM : Even M) {h₁ h₂ : ℤ → ℤ → ℝ}
    (hp₁ : PointSpread h₁) (hp₂ : PointSpread h₂) (hf : FitTogether h₁ h₂) {gsd range df ifov : Scal} {g r : ℝ}
    (hg : gsd.val = .fin g) (hr : range.val = .fin r) (hg0 : 0 < g) (hr0 : 0 < r)
    (hd : df.val = .fin (1 / (M * (2 * Real.arctan (g / 2 / r))))) (hi : ifov.val = .fin (g / r)) :
    ∃ one one' two two' both both',
      applyOtfToImage true x gsd range M M (transfer M M h₁) df ifov = .ok (one, one')
      ∧ applyOtfToImage true one gsd range M M (transfer M M h₂) df ifov = .ok (two, two')
      ∧ applyOtfToImage true x gsd range M M (fun k l => transfer M M h₁ k l * transfer M M h₂ k l) df ifov
          = .ok (both, both')
      ∧ two.h = x.h ∧ two.w = x.w ∧ both.h = x.h ∧ both.w = x.w
      ∧ ∀ y c, 10 ≤ y → y + 10 ≤ x.h → 10 ≤ c → c + 10 ≤ x.w → both.px y c = two.px y c := by
  obtain ⟨one, one', a1, a2, a3, a4, -⟩ := C85_blur hxh hxw hM eM hp₁ hg hr hg0 hr0 hd hi
  obtain ⟨two, two', b1, b2, b3, b4, -⟩ := C85_blur (x := one) (by omega) (by omega) hM eM hp₂ hg hr hg0 hr0 hd hi
  obtain ⟨both, both', c1, c2, c3, c4, -⟩ := C85_blur hxh hxw hM eM (twoSteps_spread hp₁ hp₂ hf) hg hr hg0 hr0 hd hi
  have e : transfer M M (twoSteps h₁ h₂) = fun k l => transfer M M h₁ k l * transfer M M h₂ k l := by
    funext k l
    exact C138_product hp₂ hf M M k l
  rw [e] at c1
  refine ⟨one, one', two, two', both, both', a1, b1, c1, b2.trans a2, b3.trans a3, c2, c3, fun y c y1 y2 w1 w2 => ?_⟩
  rw [c4 y c (by omega) (by omega) (by omega) (by omega), b4 y c (by omega) (by omega) (by omega) (by omega),
    twoSteps_sum_real hp₂ hf]
  have inner : ∀ s ∈ Finset.Icc (-5 : ℤ) 4, ∀ t ∈ Finset.Icc (-5 : ℤ) 4, one.px ((y : ℤ) + s).toNat ((c : ℤ) + t).toNat
      = ∑ a ∈ Finset.Icc (-5 : ℤ) 4, ∑ b ∈ Finset.Icc (-5 : ℤ) 4,
        h₁ a b * x.px ((y : ℤ) + (a + s)).toNat ((c : ℤ) + (b + t)).toNat := by
    intro s hs t ht
    rw [Finset.mem_Icc] at hs ht
    rw [a4 _ _ (by omega) (by omega) (by omega) (by omega)]
    refine Finset.sum_congr rfl fun a _ => Finset.sum_congr rfl fun b _ => ?_
    congr 3 <;> omega
  have r1 : ∑ s ∈ Finset.Icc (-5 : ℤ) 4, ∑ t ∈ Finset.Icc (-5 : ℤ) 4, h₂ s t * one.px ((y : ℤ) + s).toNat ((c : ℤ) + t).toNat
      = ∑ s ∈ Finset.Icc (-5 : ℤ) 4, ∑ t ∈ Finset.Icc (-5 : ℤ) 4, ∑ a ∈ Finset.Icc (-5 : ℤ) 4, ∑ b ∈ Finset.Icc (-5 : ℤ) 4,
        h₁ a b * (h₂ s t * x.px ((y : ℤ) + (a + s)).toNat ((c : ℤ) + (b + t)).toNat) := by
    refine Finset.sum_congr rfl fun s hs => Finset.sum_congr rfl fun t ht => ?_
    rw [inner s hs t ht, Finset.mul_sum]
    refine Finset.sum_congr rfl fun a _ => ?_
    rw [Finset.mul_sum]
    exact Finset.sum_congr rfl fun b _ => by ring
  have swap : ∀ (A B : Finset ℤ) (G : ℤ → ℤ → ℤ → ℤ → ℝ), ∑ c ∈ B, ∑ d ∈ B, ∑ a ∈ A, ∑ b ∈ A, G a b c d
      = ∑ a ∈ A, ∑ b ∈ A, ∑ c ∈ B, ∑ d ∈ B, G a b c d := by
    intro A B G
    rw [Finset.sum_congr rfl fun c _ => Finset.sum_comm, Finset.sum_comm]
    refine Finset.sum_congr rfl fun a _ => ?_
    rw [Finset.sum_congr rfl fun c _ => Finset.sum_comm, Finset.sum_comm]
  rw [r1, swap]
  refine Finset.sum_congr rfl fun a _ => Finset.sum_congr rfl fun b _ => ?_
  rw [Finset.mul_sum]
  exact Finset.sum_congr rfl fun s _ => by rw [Finset.mul_sum]

/-! ## Up to the border -/

theorem mirrored_again {n : ℕ} (hn : 11 ≤ n) {p a : ℤ} (p1 : -5 ≤ p) (p2 : p ≤ n + 4) (a1 : -5 ≤ a) (a2 : a ≤ 5) :
    (0 ≤ p ∧ p ≤ n - 1 ∧ mirrored n ((mirrored n p : ℤ) + a) = mirrored n (p + a))
    ∨ mirrored n ((mirrored n p : ℤ) + a) = mirrored n (p - a) := by
  unfold mirrored
  split_ifs <;> omega

theorem even_sum {w : ℤ → ℝ} (h0 : ∀ a, ¬ (-5 ≤ a ∧ a ≤ 4) → w a = 0) (he : ∀ a, w (-a) = w a) (f : ℤ → ℝ) :
    ∑ a ∈ Finset.Icc (-5 : ℤ) 4, w a * f (-a) = ∑ a ∈ Finset.Icc (-5 : ℤ) 4, w a * f a := by
  have h5 : w (-5) = 0 := by rw [he]; exact h0 5 (by norm_num)
  have sub : Finset.Icc (-4 : ℤ) 4 ⊆ Finset.Icc (-5 : ℤ) 4 := Finset.Icc_subset_Icc (by norm_num) le_rfl
  have drop : ∀ G : ℤ → ℝ, ∑ a ∈ Finset.Icc (-5 : ℤ) 4, w a * G a = ∑ a ∈ Finset.Icc (-4 : ℤ) 4, w a * G a := by
    intro G
    refine (Finset.sum_subset sub fun a ha hna => ?_).symm
    rw [Finset.mem_Icc] at ha hna
    have : a = -5 := by omega
    rw [this, h5, zero_mul]
  rw [drop, drop]
  refine Finset.sum_nbij' (fun a => -a) (fun a => -a) ?_ ?_ ?_ ?_ ?_
  · intro a ha
    rw [Finset.mem_Icc] at ha ⊢
    omega
  · intro a ha
    rw [Finset.mem_Icc] at ha ⊢
    omega
  · intro a _; exact neg_neg a
  · intro a _; exact neg_neg a
  · intro a _
    rw [he]

/-- A symmetric blur of a mirrored image at a mirrored place. -/
theorem mirror_sum {n : ℕ} (hn : 11 ≤ n) {p : ℤ} (p1 : -5 ≤ p) (p2 : p ≤ n + 4) {w : ℤ → ℝ}
    (h0 : ∀ a, ¬ (-5 ≤ a ∧ a ≤ 4) → w a = 0) (he : ∀ a, w (-a) = w a) (f : ℕ → ℝ) :
    ∑ a ∈ Finset.Icc (-5 : ℤ) 4, w a * f (mirrored n ((mirrored n p : ℤ) + a))
      = ∑ a ∈ Finset.Icc (-5 : ℤ) 4, w a * f (mirrored n (p + a)) := by
  by_cases hp : 0 ≤ p ∧ p ≤ n - 1
  · have : (mirrored n p : ℤ) = p := by
      unfold mirrored
      rw [if_neg (by omega), if_pos (by omega)]
      omega
    rw [this]
  · rw [← even_sum h0 he fun a => f (mirrored n (p + a))]
    refine Finset.sum_congr rfl fun a ha => ?_
    rw [Finset.mem_Icc] at ha
    rcases mirrored_again hn p1 p2 ha.1 (by omega : a ≤ 5) with ⟨q1, q2, -⟩ | h
    · exact absurd ⟨q1, q2⟩ hp
    · rw [h]
      rfl

/-- **C138** (up to the border): if the first blur is symmetric along each axis, and the image has 11 pixels a side or more,
the two steps and the product agree at every pixel of the image. -/
theorem C138_everywhere {x : Img} (hxh : 11 ≤ x.h) (hxw : 11 ≤ x.w) {M : ℕ} (hM : 10 < M) (eM : Even M) {h₁ h₂ : ℤ → ℤ → ℝ}
    (hp₁ : PointSpread h₁) (hp₂ : PointSpread h₂) (hf : FitTogether h₁ h₂) (s₁ : ∀ a b, h₁ (-a) b = h₁ a b)
    (s₂ : ∀ a b, h₁ a (-b) = h₁ a b) {gsd range df ifov : Scal} {g r : ℝ}
    (hg : gsd.val = .fin g) (hr : range.val = .fin r) (hg0 : 0 < g) (hr0 : 0 < r)
    (hd : df.val = .fin (1 / (M * (2 * Real.arctan (g / 2 / r))))) (hi : ifov.val = .fin (g / r)) :
    ∃ one one' two two' both both',
      applyOtfToImage true x gsd range M M (transfer M M h₁) df ifov = .ok (one, one')
      ∧ applyOtfToImage true one gsd range M M (transfer M M h₂) df ifov = .ok (two, two')
      ∧ applyOtfToImage true x gsd range M M (fun k l => transfer M M h₁ k l * transfer M M h₂ k l) df ifov
          = .ok (both, both')
      ∧ SameImg both two := by
  obtain ⟨one, one', a1, a2, a3, a4, -⟩ := C85_border (x := x) (by omega) (by omega) hM eM hp₁ hg hr hg0 hr0 hd hi
  obtain ⟨two, two', b1, b2, b3, b4, -⟩ := C85_border (x := one) (by omega) (by omega) hM eM hp₂ hg hr hg0 hr0 hd hi
  obtain ⟨both, both', c1, c2, c3, c4, -⟩ := C85_border (x := x) (by omega) (by omega) hM eM (twoSteps_spread hp₁ hp₂ hf) hg hr hg0 hr0 hd hi
  have e : transfer M M (twoSteps h₁ h₂) = fun k l => transfer M M h₁ k l * transfer M M h₂ k l := by
    funext k l
    exact C138_product hp₂ hf M M k l
  rw [e] at c1
  refine ⟨one, one', two, two', both, both', a1, b1, c1, c2.trans (b2.trans a2).symm, c3.trans (b3.trans a3).symm,
    fun y hy c hc => ?_⟩
  rw [c2] at hy
  rw [c3] at hc
  rw [c4 y hy c hc, b4 y (by omega) c (by omega), twoSteps_sum_real hp₂ hf, a2, a3]
  have lt : ∀ {n : ℕ}, 11 ≤ n → ∀ {q : ℕ}, q < n → ∀ s : ℤ, -5 ≤ s → s ≤ 4 → mirrored n ((q : ℤ) + s) < n := by
    intro n hn q hq s s1 s2
    unfold mirrored
    split_ifs <;> omega
  have inner : ∀ s ∈ Finset.Icc (-5 : ℤ) 4, ∀ t ∈ Finset.Icc (-5 : ℤ) 4,
      one.px (mirrored x.h ((y : ℤ) + s)) (mirrored x.w ((c : ℤ) + t))
      = ∑ a ∈ Finset.Icc (-5 : ℤ) 4, ∑ b ∈ Finset.Icc (-5 : ℤ) 4,
        h₁ a b * x.px (mirrored x.h ((y : ℤ) + (a + s))) (mirrored x.w ((c : ℤ) + (b + t))) := by
    intro s hs t ht
    rw [Finset.mem_Icc] at hs ht
    rw [a4 _ (lt hxh hy s hs.1 hs.2) _ (lt hxw hc t ht.1 ht.2)]
    have st1 : ∀ a : ℤ, ∑ b ∈ Finset.Icc (-5 : ℤ) 4, h₁ a b * x.px (mirrored x.h ((mirrored x.h ((y : ℤ) + s) : ℤ) + a))
          (mirrored x.w ((mirrored x.w ((c : ℤ) + t) : ℤ) + b))
        = ∑ b ∈ Finset.Icc (-5 : ℤ) 4, h₁ a b * x.px (mirrored x.h ((mirrored x.h ((y : ℤ) + s) : ℤ) + a))
          (mirrored x.w ((c : ℤ) + t + b)) := fun a =>
      mirror_sum hxw (by omega) (by omega) (w := fun b => h₁ a b) (fun b hb => hp₁.support _ _ (by omega)) (fun b => s₂ a b)
        fun q => x.px (mirrored x.h ((mirrored x.h ((y : ℤ) + s) : ℤ) + a)) q
    simp only [st1]
    refine Finset.sum_comm.trans (Eq.trans ?_ Finset.sum_comm)
    refine Finset.sum_congr rfl fun b _ => ?_
    refine (mirror_sum hxh (by omega) (by omega) (w := fun a => h₁ a b) (fun a ha => hp₁.support _ _ (by omega))
      (fun a => s₁ a b) fun q => x.px q (mirrored x.w ((c : ℤ) + t + b))).trans ?_
    refine Finset.sum_congr rfl fun a _ => ?_
    rw [show (y : ℤ) + s + a = y + (a + s) by ring, show (c : ℤ) + t + b = c + (b + t) by ring]
  have r1 : ∑ s ∈ Finset.Icc (-5 : ℤ) 4, ∑ t ∈ Finset.Icc (-5 : ℤ) 4,
        h₂ s t * one.px (mirrored x.h ((y : ℤ) + s)) (mirrored x.w ((c : ℤ) + t))
      = ∑ s ∈ Finset.Icc (-5 : ℤ) 4, ∑ t ∈ Finset.Icc (-5 : ℤ) 4, ∑ a ∈ Finset.Icc (-5 : ℤ) 4, ∑ b ∈ Finset.Icc (-5 : ℤ) 4,
        h₁ a b * (h₂ s t * x.px (mirrored x.h ((y : ℤ) + (a + s))) (mirrored x.w ((c : ℤ) + (b + t)))) := by
    refine Finset.sum_congr rfl fun s hs => Finset.sum_congr rfl fun t ht => ?_
    rw [inner s hs t ht, Finset.mul_sum]
    refine Finset.sum_congr rfl fun a _ => ?_
    rw [Finset.mul_sum]
    exact Finset.sum_congr rfl fun b _ => by ring
  have swap : ∀ (A B : Finset ℤ) (G : ℤ → ℤ → ℤ → ℤ → ℝ), ∑ c ∈ B, ∑ d ∈ B, ∑ a ∈ A, ∑ b ∈ A, G a b c d
      = ∑ a ∈ A, ∑ b ∈ A, ∑ c ∈ B, ∑ d ∈ B, G a b c d := by
    intro A B G
    rw [Finset.sum_congr rfl fun c _ => Finset.sum_comm, Finset.sum_comm]
    refine Finset.sum_congr rfl fun a _ => ?_
    rw [Finset.sum_congr rfl fun c _ => Finset.sum_comm, Finset.sum_comm]
  rw [r1, swap]
  refine Finset.sum_congr rfl fun a _ => Finset.sum_congr rfl fun b _ => ?_
  rw [Finset.mul_sum]
  exact Finset.sum_congr rfl fun s _ => by rw [Finset.mul_sum]

/-! ## Odd sizes -/

theorem evenSpread_fit : FitTogether evenSpread evenSpread := by
  intro c d h
  unfold twoSteps
  refine Finset.sum_eq_zero fun a _ => Finset.sum_eq_zero fun b _ => ?_
  unfold evenSpread
  split_ifs with h1 h2
  · omega
  · exact mul_zero _
  · exact zero_mul _
  · exact mul_zero _

theorem evenSpread_nonneg (a b : ℤ) : 0 ≤ evenSpread a b := by
  unfold evenSpread; split_ifs <;> norm_num

theorem evenSpread_corners : twoSteps evenSpread evenSpread (-2) (-2) = 1 / 81 ∧ twoSteps evenSpread evenSpread (-2) 2 = 1 / 81 := by
  unfold twoSteps
  constructor
  · rw [sum_even_real fun a b => evenSpread (-2 - a) (-2 - b)]
    norm_num [evenSpread]
  · rw [sum_even_real fun a b => evenSpread (-2 - a) (2 - b)]
    norm_num [evenSpread]

theorem twice_total {M : ℕ} (hM : 16 < M) : 0 < totalOf (waved M (twoSteps evenSpread evenSpread)) := by
  have hM0 : (17 : ℝ) ≤ M := by exact_mod_cast hM
  have hπ := Real.pi_pos
  have nn : ∀ c d, 0 ≤ twoSteps evenSpread evenSpread c d := fun c d =>
    Finset.sum_nonneg fun a _ => Finset.sum_nonneg fun b _ => mul_nonneg (evenSpread_nonneg _ _) (evenSpread_nonneg _ _)
  have far : ∀ c d, ¬ (-2 ≤ c ∧ c ≤ 2 ∧ -2 ≤ d ∧ d ≤ 2) → twoSteps evenSpread evenSpread c d = 0 := by
    intro c d h
    refine Finset.sum_eq_zero fun a _ => Finset.sum_eq_zero fun b _ => ?_
    unfold evenSpread
    split_ifs with h1 h2
    · omega
    · exact mul_zero _
    · exact zero_mul _
    · exact mul_zero _
  have pos : ∀ c d : ℤ, 0 ≤ waved M (twoSteps evenSpread evenSpread) c d := by
    intro c d
    by_cases h : -2 ≤ c ∧ c ≤ 2 ∧ -2 ≤ d ∧ d ≤ 2
    · refine mul_nonneg (nn c d) (le_of_lt ?_)
      have t1 : (-4 : ℝ) ≤ ((c + d : ℤ) : ℝ) := by exact_mod_cast (by omega : (-4 : ℤ) ≤ c + d)
      have t2 : ((c + d : ℤ) : ℝ) ≤ 4 := by exact_mod_cast (by omega : c + d ≤ (4 : ℤ))
      apply Real.cos_pos_of_mem_Ioo
      constructor
      · rw [lt_div_iff₀ (by linarith)]
        nlinarith
      · rw [div_lt_iff₀ (by linarith)]
        nlinarith
    · unfold waved
      rw [far c d h, zero_mul]
  have one : 0 < waved M (twoSteps evenSpread evenSpread) (-2) 2 := by
    unfold waved
    rw [evenSpread_corners.2]
    norm_num
  unfold totalOf
  refine Finset.sum_pos' (fun c _ => Finset.sum_nonneg fun d _ => pos c d) ⟨-2, by decide, ?_⟩
  exact Finset.sum_pos' (fun d _ => pos _ d) ⟨2, by decide, one⟩

theorem bright_value {M : ℕ} {sim : Img} {H : ℤ → ℤ → ℝ} (hp : PointSpread H)
    (h : ∀ y < brightPoint.h, ∀ c < brightPoint.w, sim.px y c = ∑ a ∈ Finset.Icc (-5 : ℤ) 4, ∑ b ∈ Finset.Icc (-5 : ℤ) 4,
      waved M H a b / totalOf (waved M H) * brightPoint.px (mirrored brightPoint.h ((y : ℤ) + a)) (mirrored brightPoint.w ((c : ℤ) + b)))
    {y c : ℕ} (hy : y < 21) (hc : c < 21) : sim.px y c = waved M H (10 - y) (10 - c) / totalOf (waved M H) := by
  rw [h y hy c hc]
  have val : ∀ a ∈ Finset.Icc (-5 : ℤ) 4, ∀ b ∈ Finset.Icc (-5 : ℤ) 4,
      brightPoint.px (mirrored brightPoint.h ((y : ℤ) + a)) (mirrored brightPoint.w ((c : ℤ) + b))
        = if a = 10 - (y : ℤ) ∧ b = 10 - (c : ℤ) then 1 else 0 := by
    intro a ha b hb
    rw [Finset.mem_Icc] at ha hb
    show (if mirrored 21 ((y : ℤ) + a) = 10 ∧ mirrored 21 ((c : ℤ) + b) = 10 then (1 : ℝ) else 0) = _
    have m : ∀ (q : ℕ) (t : ℤ), q < 21 → -5 ≤ t → t ≤ 4 → (mirrored 21 ((q : ℤ) + t) = 10 ↔ t = 10 - (q : ℤ)) := by
      intro q t hq t1 t2
      unfold mirrored
      split_ifs <;> omega
    simp only [m y a hy ha.1 ha.2, m c b hc hb.1 hb.2]
  by_cases hin : -5 ≤ 10 - (y : ℤ) ∧ 10 - (y : ℤ) ≤ 4 ∧ -5 ≤ 10 - (c : ℤ) ∧ 10 - (c : ℤ) ≤ 4
  · rw [Finset.sum_eq_single (10 - (y : ℤ)), Finset.sum_eq_single (10 - (c : ℤ))]
    · rw [val _ (Finset.mem_Icc.mpr ⟨hin.1, hin.2.1⟩) _ (Finset.mem_Icc.mpr ⟨hin.2.2.1, hin.2.2.2⟩), if_pos ⟨rfl, rfl⟩, mul_one]
    · intro b hb hne
      rw [val _ (Finset.mem_Icc.mpr ⟨hin.1, hin.2.1⟩) _ hb, if_neg (by tauto), mul_zero]
    · intro hb
      exact absurd (Finset.mem_Icc.mpr ⟨hin.2.2.1, hin.2.2.2⟩) hb
    · intro a ha hne
      refine Finset.sum_eq_zero fun b hb => ?_
      rw [val a ha b hb, if_neg (by tauto), mul_zero]
    · intro ha
      exact absurd (Finset.mem_Icc.mpr ⟨hin.1, hin.2.1⟩) ha
  · rw [waved_support hp _ _ hin, zero_div]
    refine Finset.sum_eq_zero fun a ha => Finset.sum_eq_zero fun b hb => ?_
    rw [val a ha b hb]
    rw [Finset.mem_Icc] at ha hb
    rw [if_neg (by omega), mul_zero]

/-- **C138** (odd sizes, refuted): for every odd number of samples above 16, such as the simulator's 1501, two steps do not
give what the product of the two OTFs gives, for light spread evenly over 3 x 3 pixels twice. -/
theorem C138_odd {M : ℕ} (hM : 16 < M) (oM : Odd M) {gsd range df ifov : Scal} {g r : ℝ} (hg : gsd.val = .fin g)
    (hr : range.val = .fin r) (hg0 : 0 < g) (hr0 : 0 < r) (hd : df.val = .fin (1 / (M * (2 * Real.arctan (g / 2 / r)))))
    (hi : ifov.val = .fin (g / r)) :
    ∃ one one' two two' both both',
      applyOtfToImage true brightPoint gsd range M M (transfer M M evenSpread) df ifov = .ok (one, one')
      ∧ applyOtfToImage true one gsd range M M (transfer M M evenSpread) df ifov = .ok (two, two')
      ∧ applyOtfToImage true brightPoint gsd range M M
          (fun k l => transfer M M evenSpread k l * transfer M M evenSpread k l) df ifov = .ok (both, both')
      ∧ (both.px 12 12 ≠ two.px 12 12 ∨ both.px 12 8 ≠ two.px 12 8) := by
  have hM0 : (17 : ℝ) ≤ M := by exact_mod_cast hM
  have hπ := Real.pi_pos
  have t1 := evenSpread_total (show 10 < M by omega)
  have t2 := twice_total hM
  have hsp := twoSteps_spread evenSpread_spread evenSpread_spread evenSpread_fit
  obtain ⟨one, one', a1, a2, a3, a4, -⟩ := C137_blur (x := brightPoint) (by decide) (by decide) (show 10 < M by omega) oM
    evenSpread_spread t1.ne' hg hr hg0 hr0 hd hi
  obtain ⟨two, two', b1, b2, b3, b4, -⟩ := C137_blur (x := one) (by rw [a2]; decide) (by rw [a3]; decide)
    (show 10 < M by omega) oM evenSpread_spread t1.ne' hg hr hg0 hr0 hd hi
  obtain ⟨both, both', c1, c2, c3, c4, -⟩ := C137_blur (x := brightPoint) (by decide) (by decide) (show 10 < M by omega) oM
    hsp t2.ne' hg hr hg0 hr0 hd hi
  have e : transfer M M (twoSteps evenSpread evenSpread)
      = fun k l => transfer M M evenSpread k l * transfer M M evenSpread k l := by
    funext k l
    exact C138_product evenSpread_spread evenSpread_fit M M k l
  rw [e] at c1
  refine ⟨one, one', two, two', both, both', a1, b1, c1, ?_⟩
  have h1 : one.h = 21 := a2
  have w1 : one.w = 21 := a3
  have v1 := bright_value hsp c4 (y := 12) (c := 12) (by norm_num) (by norm_num)
  have v2 := bright_value hsp c4 (y := 12) (c := 8) (by norm_num) (by norm_num)
  have near : ∀ a b : ℤ, ¬ (-1 ≤ a ∧ a ≤ 1 ∧ -1 ≤ b ∧ b ≤ 1) → waved M evenSpread a b = 0 := by
    intro a b hab
    unfold waved evenSpread
    rw [if_neg hab, zero_mul]
  have step : ∀ (c : ℕ) (b : ℤ), (c = 12 ∧ b = -1) ∨ (c = 8 ∧ b = 1) →
      two.px 12 c = (waved M evenSpread (-1) b / totalOf (waved M evenSpread)) ^ 2 := by
    intro c b hcb
    rw [b4 12 (by omega) c (by omega), h1, w1, Finset.sum_eq_single (-1), Finset.sum_eq_single b]
    · have e2 : one.px (mirrored 21 (((12 : ℕ) : ℤ) + -1)) (mirrored 21 ((c : ℤ) + b))
          = waved M evenSpread (-1) b / totalOf (waved M evenSpread) := by
        have m1 : mirrored 21 (((12 : ℕ) : ℤ) + -1) = 11 := by decide
        rw [m1]
        rcases hcb with ⟨rfl, rfl⟩ | ⟨rfl, rfl⟩
        · have m2 : mirrored 21 (((12 : ℕ) : ℤ) + -1) = 11 := by decide
          rw [m2, bright_value evenSpread_spread a4 (by norm_num) (by norm_num)]
          norm_num
        · have m2 : mirrored 21 (((8 : ℕ) : ℤ) + 1) = 9 := by decide
          rw [m2, bright_value evenSpread_spread a4 (by norm_num) (by norm_num)]
          norm_num
      rw [e2, sq]
    · intro b' hb' hne
      by_cases hn : -1 ≤ b' ∧ b' ≤ 1
      · have lt : mirrored 21 ((c : ℤ) + b') < 21 ∧ (mirrored 21 ((c : ℤ) + b') : ℤ) = c + b' := by
          unfold mirrored
          split_ifs <;> omega
        have m1 : mirrored 21 (((12 : ℕ) : ℤ) + -1) = 11 := by decide
        rw [m1, bright_value evenSpread_spread a4 (by norm_num) lt.1, lt.2, near _ (10 - ((c : ℤ) + b')) (by omega)]
        simp
      · rw [near _ _ (by omega)]
        simp
    · intro h
      exact absurd (Finset.mem_Icc.mpr ⟨by omega, by omega⟩) h
    · intro a ha hne
      refine Finset.sum_eq_zero fun b' hb' => ?_
      by_cases hn : -1 ≤ a ∧ a ≤ 1 ∧ -1 ≤ b' ∧ b' ≤ 1
      · have lt : mirrored 21 ((c : ℤ) + b') < 21 := by
          unfold mirrored
          split_ifs <;> omega
        have lt2 : mirrored 21 (((12 : ℕ) : ℤ) + a) < 21 ∧ (mirrored 21 (((12 : ℕ) : ℤ) + a) : ℤ) = 12 + a := by
          unfold mirrored
          split_ifs <;> omega
        rw [bright_value evenSpread_spread a4 lt2.1 lt, lt2.2, near (10 - (12 + a)) _ (by omega)]
        simp
      · rw [near _ _ hn]
        simp
    · intro h
      exact absurd (Finset.mem_Icc.mpr ⟨by norm_num, by norm_num⟩) h
  have u1 := step 12 (-1) (Or.inl ⟨rfl, rfl⟩)
  have u2 := step 8 1 (Or.inr ⟨rfl, rfl⟩)
  have k1 : waved M evenSpread (-1) (-1) = 1 / 9 * Real.cos (4 * Real.pi / M) := by
    have e0 : evenSpread (-1) (-1) = 1 / 9 := if_pos (by norm_num)
    unfold waved
    rw [e0, ← Real.cos_neg]
    congr 2
    push_cast
    ring
  have k2 : waved M evenSpread (-1) 1 = 1 / 9 := by
    unfold waved
    simp [evenSpread]
  have k3 : waved M (twoSteps evenSpread evenSpread) (-2) (-2) = 1 / 81 * (2 * Real.cos (4 * Real.pi / M) ^ 2 - 1) := by
    unfold waved
    rw [evenSpread_corners.1, ← Real.cos_two_mul, ← Real.cos_neg]
    congr 2
    push_cast
    ring
  have k4 : waved M (twoSteps evenSpread evenSpread) (-2) 2 = 1 / 81 := by
    unfold waved
    rw [evenSpread_corners.2]
    simp
  have v1 : both.px 12 12 = 1 / 81 * (2 * Real.cos (4 * Real.pi / M) ^ 2 - 1) / totalOf (waved M (twoSteps evenSpread evenSpread)) := by
    rw [v1, ← k3]; norm_num
  have v2 : both.px 12 8 = 1 / 81 / totalOf (waved M (twoSteps evenSpread evenSpread)) := by
    rw [v2, ← k4]; norm_num
  have lt : Real.cos (4 * Real.pi / M) < 1 := by
    rw [← Real.cos_zero]
    apply Real.cos_lt_cos_of_nonneg_of_le_pi le_rfl
    · rw [div_le_iff₀ (by linarith)]
      nlinarith
    · positivity
  have gt : 0 < Real.cos (4 * Real.pi / M) := by
    apply Real.cos_pos_of_mem_Ioo
    constructor
    · have : 0 < 4 * Real.pi / M := by positivity
      linarith
    · rw [div_lt_iff₀ (by linarith)]
      nlinarith
  rw [u1, u2, v1, v2, k1, k2]
  generalize totalOf (waved M evenSpread) = S at *
  generalize totalOf (waved M (twoSteps evenSpread evenSpread)) = T at *
  generalize Real.cos (4 * Real.pi / M) = q at *
  by_contra hc
  push Not at hc
  obtain ⟨hc1, hc2⟩ := hc
  field_simp at hc1 hc2
  have hq : q ^ 2 < 1 := by nlinarith
  have hT : T = S ^ 2 := by linarith
  rw [hT] at hc1
  have : S ^ 2 * (q ^ 2 - 1) = 0 := by linarith
  rcases mul_eq_zero.mp this with h | h
  · exact (pow_pos t1 2).ne' h
  · linarith

/-- `C138_product`, `C138_steps`, `C138_everywhere` and `C138_odd` apply: light spread evenly over 3 x 3 pixels, twice. -/
example : ∃ one one' two two' both both',
    applyOtfToImage true brightPoint (.py (.fin 1)) (.py (.fin 1)) 12 12 (transfer 12 12 evenSpread)
        (.py (.fin (1 / ((12 : ℕ) * (2 * Real.arctan (1 / 2 / 1)))))) (.py (.fin (1 / 1))) = .ok (one, one')
    ∧ applyOtfToImage true one (.py (.fin 1)) (.py (.fin 1)) 12 12 (transfer 12 12 evenSpread)
        (.py (.fin (1 / ((12 : ℕ) * (2 * Real.arctan (1 / 2 / 1)))))) (.py (.fin (1 / 1))) = .ok (two, two')
    ∧ applyOtfToImage true brightPoint (.py (.fin 1)) (.py (.fin 1)) 12 12
        (fun k l => transfer 12 12 evenSpread k l * transfer 12 12 evenSpread k l)
        (.py (.fin (1 / ((12 : ℕ) * (2 * Real.arctan (1 / 2 / 1)))))) (.py (.fin (1 / 1))) = .ok (both, both')
    ∧ SameImg both two :=
  C138_everywhere (by decide) (by decide) (by norm_num) (by decide) evenSpread_spread evenSpread_spread evenSpread_fit
    (fun a b => by unfold evenSpread; congr 1; rw [eq_iff_iff]; omega)
    (fun a b => by unfold evenSpread; congr 1; rw [eq_iff_iff]; omega) rfl rfl one_pos one_pos rfl rfl

end PyBSM
