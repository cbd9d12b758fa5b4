import Verif.Spec.Image
import Verif.Lemmas.Scal
import Verif.Lemmas.Sensor

/-!
# Lemmas about the image-domain functions
-/

noncomputable section

open Classical

namespace PyBSM

open Spec

/-! ## Resizing -/

theorem resizeCoord_bounds {src dst : ℕ} (hs : 0 < src) (d : ℕ) :
    (resizeCoord src dst d).1 < src ∧ 0 ≤ (resizeCoord src dst d).2 ∧ (resizeCoord src dst d).2 ≤ 1 := by
  unfold resizeCoord
  dsimp only
  split_ifs with h1 h2
  · exact ⟨hs, le_rfl, zero_le_one⟩
  · exact ⟨by simp only; omega, le_rfl, zero_le_one⟩
  · refine ⟨by simp only; omega, ?_, ?_⟩
    · exact sub_nonneg.mpr (Int.floor_le _)
    · have := Int.lt_floor_add_one (((d : ℝ) + 0.5) * ((src : ℝ) / dst) - 0.5)
      simp only
      linarith

theorem resizeCoord_same {n d : ℕ} (hd : d < n) : resizeCoord n n d = (d, 0) := by
  have hn : (n : ℝ) ≠ 0 := by
    have : 0 < n := by omega
    positivity
  unfold resizeCoord
  have e : ((d : ℝ) + 0.5) * ((n : ℝ) / n) - 0.5 = d := by rw [div_self hn]; ring
  have f : ⌊((d : ℝ))⌋ = (d : ℤ) := Int.floor_natCast d
  simp only [e, f]
  rw [if_neg (by omega)]
  split_ifs with h
  · rw [Prod.mk.injEq]; exact ⟨by omega, rfl⟩
  · simp

theorem mix_bounds {lo hi a b c d s t : ℝ} (hs : 0 ≤ s) (hs1 : s ≤ 1) (ht : 0 ≤ t) (ht1 : t ≤ 1)
    (ha : lo ≤ a ∧ a ≤ hi) (hb : lo ≤ b ∧ b ≤ hi) (hc : lo ≤ c ∧ c ≤ hi) (hd : lo ≤ d ∧ d ≤ hi) :
    lo ≤ (1 - t) * ((1 - s) * a + s * b) + t * ((1 - s) * c + s * d)
    ∧ (1 - t) * ((1 - s) * a + s * b) + t * ((1 - s) * c + s * d) ≤ hi := by
  have two : ∀ x y r : ℝ, 0 ≤ r → r ≤ 1 → (lo ≤ x ∧ x ≤ hi) → (lo ≤ y ∧ y ≤ hi) →
      lo ≤ (1 - r) * x + r * y ∧ (1 - r) * x + r * y ≤ hi := by
    intro x y r h0 h1 hx hy
    constructor <;> nlinarith [hx.1, hx.2, hy.1, hy.2]
  exact two _ _ t ht ht1 (two a b s hs hs1 ha hb) (two c d s hs hs1 hc hd)

theorem cvResize_ok {x : Img} {nw nh : ℕ} (h1 : x.h ≠ 0) (h2 : x.w ≠ 0) (h3 : nw ≠ 0) (h4 : nh ≠ 0) :
    ∃ y, cvResize x nw nh = .ok y ∧ y.h = nh ∧ y.w = nw
      ∧ (∀ lo hi, Within x lo hi → ∀ i j, lo ≤ y.px i j ∧ y.px i j ≤ hi)
      ∧ (nh = x.h → nw = x.w → SameImg y x) := by
  unfold cvResize
  rw [if_neg (by tauto)]
  refine ⟨_, rfl, rfl, rfl, ?_, ?_⟩
  · intro lo hi hx i j
    dsimp only
    obtain ⟨a1, a2, a3⟩ := resizeCoord_bounds (dst := nh) (Nat.pos_of_ne_zero h1) i
    obtain ⟨b1, b2, b3⟩ := resizeCoord_bounds (dst := nw) (Nat.pos_of_ne_zero h2) j
    exact mix_bounds b2 b3 a2 a3 (hx _ (by omega) _ (by omega)) (hx _ (by omega) _ (by omega))
      (hx _ (by omega) _ (by omega)) (hx _ (by omega) _ (by omega))
  · rintro rfl rfl
    refine ⟨rfl, rfl, ?_⟩
    intro i hi j hj
    dsimp only at hi hj ⊢
    rw [resizeCoord_same hi, resizeCoord_same hj]
    ring

theorem cvResize_error {x : Img} {nw nh : ℕ} (h : x.h = 0 ∨ x.w = 0 ∨ nw = 0 ∨ nh = 0) :
    cvResize x nw nh = .error .cv2Error := by
  unfold cvResize
  rw [if_pos h]

theorem roundHalfEven_spec (x : ℝ) : IsRoundHalfEven x (roundHalfEven x) := by
  have h0 := Int.floor_le x
  have h1 := Int.lt_floor_add_one x
  unfold roundHalfEven IsRoundHalfEven
  split_ifs with a b c
  · rw [abs_of_nonneg (by linarith)]
    exact ⟨by linarith, fun h => by linarith⟩
  · push_cast
    rw [abs_of_nonpos (by linarith)]
    exact ⟨by linarith, fun h => by linarith⟩
  · rw [abs_of_nonneg (by linarith)]
    push Not at a b
    exact ⟨by linarith, fun _ => Int.even_iff.mpr c⟩
  · push_cast
    rw [abs_of_nonpos (by linarith)]
    push Not at a b
    refine ⟨by linarith, fun _ => ?_⟩
    have : ⌊x⌋ % 2 = 1 := by omega
    rw [Int.even_iff]
    omega

theorem round_unique {x : ℝ} {m n : ℤ} (hm : IsRoundHalfEven x m) (hn : IsRoundHalfEven x n) : m = n := by
  obtain ⟨m1, m2⟩ := hm
  obtain ⟨n1, n2⟩ := hn
  have a := abs_le.mp m1
  have b := abs_le.mp n1
  by_contra hne
  have h1 : |(m : ℝ) - n| ≤ 1 := by rw [abs_le]; constructor <;> linarith
  have h2 : |m - n| ≤ 1 := by exact_mod_cast h1
  have h3 : m = n + 1 ∨ n = m + 1 := by
    rw [abs_le] at h2; omega
  rcases h3 with h | h
  · have hr : (m : ℝ) = n + 1 := by exact_mod_cast h
    have e1 : x - m = -(1 / 2) := by linarith
    have e2 : x - n = 1 / 2 := by linarith
    have p := m2 (by rw [e1, abs_neg, abs_of_pos]; norm_num)
    have q := n2 (by rw [e2, abs_of_pos]; norm_num)
    rw [Int.even_iff] at p q
    omega
  · have hr : (n : ℝ) = m + 1 := by exact_mod_cast h
    have e1 : x - n = -(1 / 2) := by linarith
    have e2 : x - m = 1 / 2 := by linarith
    have p := n2 (by rw [e1, abs_neg, abs_of_pos]; norm_num)
    have q := m2 (by rw [e2, abs_of_pos]; norm_num)
    rw [Int.even_iff] at p q
    omega

theorem resampledSize_ok (n : ℕ) {dxIn dxOut : Scal} {a b : ℝ} (ha : dxIn.val = .fin a) (hb : dxOut.val = .fin b)
    (hb0 : b ≠ 0) : resampledSize n dxIn dxOut = .ok (roundHalfEven (n * a / b)) := by
  unfold resampledSize
  have hx : (Scal.py (.fin n) * dxIn).val = .fin (n * a) := by
    rw [Scal.val_mul, ha]; exact XR.fin_mul _ _
  obtain ⟨q, e1, e2⟩ := Scal.div_fin hx hb hb0
  rw [e1, ok_bind]
  simp only [e2]

/-! ## Filtering -/

theorem reflect101_lt {n : ℕ} (hn : 0 < n) (p : ℤ) : reflect101 n p < n := by
  unfold reflect101
  split_ifs with h
  · exact hn
  · have h0 := Int.emod_nonneg p (b := 2 * ((n : ℤ) - 1)) (by omega)
    have h1 := Int.emod_lt_of_pos p (b := 2 * ((n : ℤ) - 1)) (by omega)
    dsimp only
    split_ifs <;> omega

theorem reflect101_self {n d : ℕ} (hd : d < n) : reflect101 n d = d := by
  unfold reflect101
  split_ifs with h
  · omega
  · rcases Nat.lt_or_ge d (2 * (n - 1)) with h2 | h2
    · have : ((d : ℤ) % (2 * ((n : ℤ) - 1))) = d := Int.emod_eq_of_lt (by omega) (by omega)
      dsimp only
      rw [this, Int.toNat_natCast, if_pos hd]
    · omega

theorem filter2D_ok {x k : Img} (h1 : x.h ≠ 0) (h2 : x.w ≠ 0) (h3 : k.h ≠ 0) (h4 : k.w ≠ 0) :
    ∃ y, filter2D x k = .ok y ∧ y.h = x.h ∧ y.w = x.w
      ∧ (∀ c, Within x c c → ∀ i j, y.px i j = k.sum * c)
      ∧ (∀ lo hi, Within x lo hi → (∀ i < k.h, ∀ j < k.w, 0 ≤ k.px i j) → k.sum = 1 →
          ∀ i j, lo ≤ y.px i j ∧ y.px i j ≤ hi)
      ∧ (∀ a b, k.h / 2 = a → k.w / 2 = b → SameImg k (impulse k.h k.w a b) → SameImg y x) := by
  unfold filter2D
  rw [if_neg (by tauto)]
  have p1 := Nat.pos_of_ne_zero h1
  have p2 := Nat.pos_of_ne_zero h2
  refine ⟨_, rfl, rfl, rfl, ?_, ?_, ?_⟩
  · intro c hc i j
    dsimp only
    have : ∀ y z : ℤ, x.px (reflect101 x.h y) (reflect101 x.w z) = c := by
      intro y z
      have := hc _ (reflect101_lt p1 y) _ (reflect101_lt p2 z)
      exact le_antisymm this.2 this.1
    simp only [this, ← Finset.sum_mul]
    rfl
  · intro lo hi hx hk hs i j
    dsimp only
    have e : ∀ t : ℝ, t = ∑ i ∈ Finset.range k.h, ∑ j ∈ Finset.range k.w, k.px i j * t := by
      intro t
      simp only [← Finset.sum_mul]
      show t = k.sum * t
      rw [hs, one_mul]
    constructor
    · conv_lhs => rw [e lo]
      refine Finset.sum_le_sum fun a ha => Finset.sum_le_sum fun b hb => ?_
      exact mul_le_mul_of_nonneg_left (hx _ (reflect101_lt p1 _) _ (reflect101_lt p2 _)).1
        (hk _ (Finset.mem_range.mp ha) _ (Finset.mem_range.mp hb))
    · conv_rhs => rw [e hi]
      refine Finset.sum_le_sum fun a ha => Finset.sum_le_sum fun b hb => ?_
      exact mul_le_mul_of_nonneg_left (hx _ (reflect101_lt p1 _) _ (reflect101_lt p2 _)).2
        (hk _ (Finset.mem_range.mp ha) _ (Finset.mem_range.mp hb))
  · rintro a b rfl rfl hk
    refine ⟨rfl, rfl, ?_⟩
    intro i hi j hj
    dsimp only at hi hj ⊢
    have e : ∀ r ∈ Finset.range k.h, ∀ c ∈ Finset.range k.w,
        k.px r c = if r = k.h / 2 ∧ c = k.w / 2 then 1 else 0 :=
      fun r hr c hc => hk.px r (Finset.mem_range.mp hr) c (Finset.mem_range.mp hc)
    rw [Finset.sum_eq_single (k.h / 2)]
    · rw [Finset.sum_eq_single (k.w / 2)]
      · rw [e _ (Finset.mem_range.mpr (by omega)) _ (Finset.mem_range.mpr (by omega)), if_pos ⟨rfl, rfl⟩, one_mul,
          add_sub_cancel_right, add_sub_cancel_right, reflect101_self hi, reflect101_self hj]
      · intro c hc hne
        rw [e _ (Finset.mem_range.mpr (by omega)) _ hc, if_neg (by tauto), zero_mul]
      · intro h; exact absurd (Finset.mem_range.mpr (by omega)) h
    · intro r hr hne
      apply Finset.sum_eq_zero
      intro c hc
      rw [e _ hr _ hc, if_neg (by tauto), zero_mul]
    · intro h; exact absurd (Finset.mem_range.mpr (by omega)) h

theorem filter2D_error {x k : Img} (h : x.h = 0 ∨ x.w = 0 ∨ k.h = 0 ∨ k.w = 0) : filter2D x k = .error .cv2Error := by
  unfold filter2D
  rw [if_pos h]

/-! ## Point spread functions -/

theorem normalize_ok {x y : Img} (h : normalize x = .ok y) : x.sum ≠ 0 ∧ y.h = x.h ∧ y.w = x.w ∧ y.sum = 1
    ∧ ∀ i j, y.px i j = x.px i j / x.sum := by
  unfold normalize at h
  split_ifs at h with h0
  rw [Except.ok.injEq] at h
  subst h
  refine ⟨h0, rfl, rfl, ?_, fun _ _ => rfl⟩
  unfold Img.sum
  dsimp only
  simp only [← Finset.sum_div]
  exact div_self h0

theorem normalize_one {x : Img} (h : x.sum = 1) : normalize x = .ok x := by
  unfold normalize
  rw [if_neg (by rw [h]; exact one_ne_zero), h]
  simp only [div_one]

theorem sum_congr {x y : Img} (h : SameImg x y) : x.sum = y.sum := by
  unfold Img.sum
  rw [← h.h, ← h.w]
  exact Finset.sum_congr rfl fun i hi => Finset.sum_congr rfl fun j hj =>
    h.px i (Finset.mem_range.mp hi) j (Finset.mem_range.mp hj)

theorem impulse_sum {h w a b : ℕ} (ha : a < h) (hb : b < w) : (impulse h w a b).sum = 1 := by
  unfold Img.sum impulse
  dsimp only
  rw [Finset.sum_eq_single a, Finset.sum_eq_single b]
  · simp
  · intro c _ hc; rw [if_neg (by tauto)]
  · intro h; exact absurd (Finset.mem_range.mpr hb) h
  · intro r _ hr
    apply Finset.sum_eq_zero
    intro c _
    rw [if_neg (by tauto)]
  · intro h; exact absurd (Finset.mem_range.mpr ha) h

end PyBSM
