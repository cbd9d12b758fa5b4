import Verif.Spec.Registration
import Verif.Props.PsfSupport
import Verif.Props.Capture
import Verif.Props.Simulate

/-!
# C112: where things appear in a simulated image
-/

noncomputable section

open Classical

namespace PyBSM

open Spec

/-! ## Turning upside down -/

theorem turn_lt {n i : ℕ} (h : i < n) : n - 1 - i < n := by omega

/-- Linear interpolation at the position that `cv2.resize` reads. -/
def readAt (src dst d : ℕ) (f : ℕ → ℝ) : ℝ :=
  (1 - (resizeCoord src dst d).2) * f (resizeCoord src dst d).1
    + (resizeCoord src dst d).2 * f (min ((resizeCoord src dst d).1 + 1) (src - 1))

theorem readAt_turned {src dst d : ℕ} (hs : 0 < src) (hd : d < dst) (f : ℕ → ℝ) :
    readAt src dst (dst - 1 - d) f = readAt src dst d fun i => f (src - 1 - i) := by
  have hdst : (dst : ℝ) ≠ 0 := by
    have : 0 < dst := by omega
    positivity
  set fx : ℝ := ((d : ℝ) + 0.5) * ((src : ℝ) / dst) - 0.5 with hfx
  have e : ((dst - 1 - d : ℕ) : ℝ) = dst - 1 - d := by
    rw [Nat.cast_sub (by omega), Nat.cast_sub (by omega)]
    simp
  have hfx' : (((dst - 1 - d : ℕ) : ℝ) + 0.5) * ((src : ℝ) / dst) - 0.5 = (src : ℝ) - 1 - fx := by
    rw [e, hfx]
    field_simp
    ring
  have hfl : ⌊(src : ℝ) - 1 - fx⌋ = (src : ℤ) - 1 - ⌈fx⌉ := by
    rw [show (src : ℝ) - 1 - fx = -fx + (((src : ℤ) - 1 : ℤ) : ℝ) by push_cast; ring, Int.floor_add_intCast, Int.floor_neg]
    ring
  have h0 := Int.floor_le fx
  have h1 := Int.lt_floor_add_one fx
  unfold readAt resizeCoord
  dsimp only
  rw [← hfx, hfx', hfl]
  by_cases hint : (⌊fx⌋ : ℝ) = fx
  · have hc : ⌈fx⌉ = ⌊fx⌋ := by
      rw [← hint, Int.ceil_intCast, Int.floor_intCast]
    rw [hc]
    generalize ⌊fx⌋ = s at *
    rw [← hint]
    by_cases c1 : s < 0
    · rw [if_neg (by omega), if_pos (by omega), if_pos c1]
      simp
    · by_cases c2 : (src : ℤ) - 1 ≤ s
      · rw [if_neg c1, if_pos c2]
        by_cases c3 : (src : ℤ) - 1 - s < 0
        · rw [if_pos c3]; simp
        · rw [if_neg c3]
          split_ifs with c4
          · have : src = 1 := by omega
            subst this
            simp
          · have : ((src : ℤ) - 1 - s).toNat = 0 := by omega
            rw [this]
            push_cast
            simp
      · rw [if_neg c1, if_neg c2, if_neg (by omega)]
        split_ifs with c4
        · have : s = 0 := by omega
          subst this
          simp
        · have : ((src : ℤ) - 1 - s).toNat = src - 1 - s.toNat := by omega
          rw [this]
          push_cast
          simp
  · have hlt : (⌊fx⌋ : ℝ) < fx := lt_of_le_of_ne h0 hint
    have hc : ⌈fx⌉ = ⌊fx⌋ + 1 := by
      rw [Int.ceil_eq_iff]
      push_cast
      constructor <;> linarith
    rw [hc]
    generalize ⌊fx⌋ = s at *
    by_cases c1 : s < 0
    · rw [if_neg (by omega), if_pos (by omega), if_pos c1]
      simp
    · by_cases c2 : (src : ℤ) - 1 ≤ s
      · rw [if_neg c1, if_pos c2, if_pos (by omega)]
        simp
      · rw [if_neg c1, if_neg c2, if_neg (by omega), if_neg (by omega)]
        have t1 : ((src : ℤ) - 1 - (s + 1)).toNat = src - 1 - (s.toNat + 1) := by omega
        have t2 : min (((src : ℤ) - 1 - (s + 1)).toNat + 1) (src - 1) = src - 1 - s.toNat := by omega
        have t3 : min (s.toNat + 1) (src - 1) = s.toNat + 1 := by omega
        dsimp only
        rw [t2, t1, t3]
        push_cast
        ring

theorem cvResize_px {x y : Img} {a b : ℕ} (h : cvResize x a b = .ok y) (i j : ℕ) :
    y.px i j = readAt x.h b i fun r => readAt x.w a j fun c => x.px r c := by
  unfold cvResize at h
  split_ifs at h
  rw [Except.ok.injEq] at h
  subst h
  rfl

theorem cvResize_src {x y : Img} {a b : ℕ} (h : cvResize x a b = .ok y) : 0 < x.h ∧ 0 < x.w := by
  unfold cvResize at h
  split_ifs at h with hz
  push Not at hz
  exact ⟨Nat.pos_of_ne_zero hz.1, Nat.pos_of_ne_zero hz.2.1⟩

theorem readAt_congr {src dst d : ℕ} (hs : 0 < src) {f g : ℕ → ℝ} (h : ∀ i < src, f i = g i) :
    readAt src dst d f = readAt src dst d g := by
  have := (resizeCoord_bounds (dst := dst) hs d).1
  unfold readAt
  rw [h _ this, h _ (by omega)]

/-- Resizing commutes with turning upside down. -/
theorem cvResize_turned {x x' y : Img} {a b : ℕ} (hx : SameImg x' (upsideDown x)) (h : cvResize x a b = .ok y) :
    ∃ y', cvResize x' a b = .ok y' ∧ SameImg y' (upsideDown y) := by
  obtain ⟨p1, p2⟩ := cvResize_src h
  obtain ⟨s1, s2⟩ := cvResize_size h
  have hh : x'.h = x.h := hx.h
  have hw : x'.w = x.w := hx.w
  have hz : ¬ (x.h = 0 ∨ x.w = 0 ∨ a = 0 ∨ b = 0) := by
    intro hz
    unfold cvResize at h
    rw [if_pos hz] at h
    cases h
  have hy' : ∃ y', cvResize x' a b = .ok y' := by
    unfold cvResize
    rw [hh, hw, if_neg hz]
    exact ⟨_, rfl⟩
  obtain ⟨y', hy'⟩ := hy'
  obtain ⟨t1, t2⟩ := cvResize_size hy'
  refine ⟨y', hy', t1.trans s1.symm, t2.trans s2.symm, fun i hi j hj => ?_⟩
  rw [t1] at hi
  rw [t2] at hj
  show _ = y.px (y.h - 1 - i) (y.w - 1 - j)
  rw [cvResize_px hy', cvResize_px h, s1, s2, readAt_turned p1 hi, hh, hw]
  refine readAt_congr p1 fun r hr => ?_
  rw [readAt_turned p2 hj]
  exact readAt_congr p2 fun c hc => hx.px r (by omega) c (by omega)

/-! ## The point spread function of a symmetric OTF -/

/-- The image looks the same upside down. -/
def Sym (x : Img) : Prop := SameImg x (upsideDown x)

theorem Sym.px {x : Img} (h : Sym x) {i j : ℕ} (hi : i < x.h) (hj : j < x.w) :
    x.px (x.h - 1 - i) (x.w - 1 - j) = x.px i j := (SameImg.px h i hi j hj).symm

theorem centredPsf_turned {M N : ℕ} (oM : Odd M) (oN : Odd N) {otf : ℕ → ℕ → ℂ} (h : PointSymmetric M N otf) {i j : ℕ}
    (hi : i < M) (hj : j < N) : centredPsf M N otf (M - 1 - i) (N - 1 - j) = centredPsf M N otf i j := by
  obtain ⟨m, hm⟩ := oM
  obtain ⟨n, hn⟩ := oN
  have eM : M / 2 = m := by omega
  have eN : N / 2 = n := by omega
  unfold centredPsf
  congr 1
  rw [← Finset.sum_range_reflect]
  refine Finset.sum_congr rfl fun k hk => ?_
  rw [← Finset.sum_range_reflect]
  refine Finset.sum_congr rfl fun l hl => ?_
  rw [Finset.mem_range] at hk hl
  rw [(h k hk l hl).2]
  congr 2
  have c : ∀ {A a q : ℕ}, A = 2 * a + 1 → q < A → ((A - 1 - q : ℕ) : ℂ) - (a : ℕ) = -((q : ℂ) - (a : ℕ)) := by
    intro A a q hA hq
    have : A - 1 - q + q = 2 * a := by omega
    have : ((A - 1 - q : ℕ) : ℂ) + q = 2 * a := by exact_mod_cast this
    linear_combination this
  rw [eM, eN, c hm hk, c hm hi, c hn hl, c hn hj]
  ring

theorem rawPsf_sym {M N : ℕ} (oM : Odd M) (oN : Odd N) {otf : ℕ → ℕ → ℂ} (h : PointSymmetric M N otf) :
    Sym (rawPsf M N otf) := by
  refine ⟨rfl, rfl, fun i hi j hj => ?_⟩
  have hi : i < M := hi
  have hj : j < N := hj
  show _ = (rawPsf M N otf).px (M - 1 - i) (N - 1 - j)
  have hsym : ∀ k < M, ∀ l < N, otf (M - 1 - k) (N - 1 - l) = starRingEnd ℂ (otf k l) := by
    intro k hk l hl
    rw [(h k hk l hl).2]
    exact (Complex.conj_eq_iff_im.mpr (h k hk l hl).1).symm
  rw [C45_odd oM oN hsym, C45_odd oM oN hsym, centredPsf_turned oM oN h hi hj]
  congr 1
  obtain ⟨m, hm⟩ := oM
  obtain ⟨n, hn⟩ := oN
  have eM : M / 2 = m := by omega
  have eN : N / 2 = n := by omega
  have c : ∀ {A a q : ℕ}, A = 2 * a + 1 → q < A → ((A - 1 - q : ℕ) : ℝ) - (a : ℕ) = -((q : ℝ) - (a : ℕ)) := by
    intro A a q hA hq
    have : A - 1 - q + q = 2 * a := by omega
    have : ((A - 1 - q : ℕ) : ℝ) + q = 2 * a := by exact_mod_cast this
    linarith
  rw [eM, eN, c hm hi, c hn hj, ← Real.cos_neg]
  congr 1
  ring

/-- A middle part of an image that looks the same upside down does so too. -/
theorem middle_sym {q : Img} (hq : Sym q) {k : ℕ} (h1 : k ≤ q.h) (h2 : k ≤ q.w) : Sym (middle q k) := by
  refine ⟨rfl, rfl, fun i hi j hj => ?_⟩
  have hi : i < k + (q.h - k) % 2 := hi
  have hj : j < k + (q.w - k) % 2 := hj
  show q.px _ _ = q.px ((q.h - k) / 2 + (k + (q.h - k) % 2 - 1 - i)) ((q.w - k) / 2 + (k + (q.w - k) % 2 - 1 - j))
  have e1 : (q.h - k) / 2 + (k + (q.h - k) % 2 - 1 - i) = q.h - 1 - ((q.h - k) / 2 + i) := by omega
  have e2 : (q.w - k) / 2 + (k + (q.w - k) % 2 - 1 - j) = q.w - 1 - ((q.w - k) / 2 + j) := by omega
  rw [e1, e2]
  exact SameImg.px hq _ (by omega) _ (by omega)

theorem rescaled_sym {p q : Img} (h : Rescaled p q) (h0 : q.sum ≠ 0) (hq : Sym q) : Sym p := by
  have e1 := h.h
  have e2 := h.w
  refine ⟨rfl, rfl, fun i hi j hj => ?_⟩
  apply mul_right_cancel₀ h0
  show p.px i j * _ = p.px (p.h - 1 - i) (p.w - 1 - j) * _
  rw [h.px i hi j hj, h.px _ (turn_lt hi) _ (turn_lt hj), e1, e2]
  exact SameImg.px hq i (e1 ▸ hi) j (e2 ▸ hj)

/-- **C112** (point spread function): the point spread function of a real OTF that is the same at opposite frequencies looks
the same upside down, its sides are odd or even like those of the resampled transform, and not longer than these or the OTF. -/
theorem C112_psf {M N : ℕ} (oM : Odd M) (oN : Odd N) {otf : ℕ → ℕ → ℂ} (hs : PointSymmetric M N otf) {df dxOut : Scal}
    {u : Bool} {p : Img} {d o : ℝ} (h : otfToPsf u M N otf df dxOut = .ok p) (hd : df.val = .fin d) (hd0 : 0 < d)
    (ho : dxOut.val = .fin o) (ho0 : 0 < o)
    (hf : CroppedEvenly M N otf (max 1 ⌊1 / (d * o)⌋₊) (max 1 ⌊N / M / (d * o)⌋₊)) :
    SameImg p (upsideDown p) ∧ 0 < p.h ∧ 0 < p.w ∧ p.h ≤ min M N ∧ p.w ≤ min M N
      ∧ p.h ≤ max 1 ⌊1 / (d * o)⌋₊ ∧ p.w ≤ max 1 ⌊N / M / (d * o)⌋₊
      ∧ p.h % 2 = max 1 ⌊1 / (d * o)⌋₊ % 2 ∧ p.w % 2 = max 1 ⌊N / M / (d * o)⌋₊ % 2 := by
  have hsmall : ¬ min M N ≤ 10 := fun hs => C45_small hs otf df dxOut u p h
  obtain ⟨q, k, h1, -, ⟨hk, i0, hk0⟩, h4, -, s0, h7⟩ := otfToPsf_stages h hd hd0 ho ho0
  generalize max 1 ⌊1 / (d * o)⌋₊ = n at *
  generalize max 1 ⌊N / M / (d * o)⌋₊ = n' at *
  obtain ⟨h2, h3⟩ := cvResize_size h1
  obtain ⟨y', y1, y2⟩ := cvResize_turned (rawPsf_sym oM oN hs) h1
  rw [h1, Except.ok.injEq] at y1
  subst y1
  have hn : 0 < n ∧ 0 < n' := by
    unfold cvResize at h1
    split_ifs at h1 with hz
    push Not at hz
    omega
  have key : (k ≤ n ∧ k ≤ n') ∨ (n ≤ 3 ∧ n' ≤ 3) := by
    rcases hf with hf | ⟨q', m, m1, m2, m3, m4⟩ | hf
    · left; omega
    · left
      rw [h1, Except.ok.injEq] at m1
      subst m1
      by_contra hc
      have := h4 m m2 (by omega)
      rw [getMiddle_middle (by omega) (by omega)] at this
      linarith
    · right; omega
  rcases key with ⟨k1, k2⟩ | ⟨k1, k2⟩
  · rw [getMiddle_middle (by omega) (by omega)] at s0 h7
    have m1 : p.h = k + (q.h - k) % 2 := h7.h
    have m2 : p.w = k + (q.w - k) % 2 := h7.w
    exact ⟨rescaled_sym h7 s0 (middle_sym y2 (by omega) (by omega)), by omega, by omega, by omega, by omega, by omega,
      by omega, by omega, by omega⟩
  · rw [getMiddle_whole (by omega) (by omega)] at s0 h7
    have m1 : p.h = q.h := h7.h
    have m2 : p.w = q.w := h7.w
    exact ⟨rescaled_sym h7 s0 y2, by omega, by omega, by omega, by omega, by omega, by omega, by omega, by omega⟩

/-! ## Filtering -/

theorem reflect101_turned {n : ℕ} (hn : 0 < n) (p : ℤ) : reflect101 n ((n : ℤ) - 1 - p) = n - 1 - reflect101 n p := by
  unfold reflect101
  split_ifs with h
  · omega
  · obtain ⟨m, hm⟩ : ∃ m : ℤ, m = (n : ℤ) - 1 := ⟨_, rfl⟩
    have hm0 : 0 < 2 * m := by omega
    have e1 : ((n : ℤ) - 1 - p) % (2 * ((n : ℤ) - 1)) = (m - p % (2 * m)) % (2 * m) := by
      rw [← hm, Int.sub_emod, Int.sub_emod m (p % (2 * m)), Int.emod_emod_of_dvd p (dvd_refl (2 * m))]
    have h0 := Int.emod_nonneg p (b := 2 * m) (by omega)
    have h1 := Int.emod_lt_of_pos p (b := 2 * m) hm0
    rw [e1, ← hm]
    generalize p % (2 * m) = r at *
    have e2 : (m - r) % (2 * m) = if r ≤ m then m - r else 3 * m - r := by
      split_ifs with hr
      · exact Int.emod_eq_of_lt (by omega) (by omega)
      · rw [← Int.add_emod_right]
        rw [Int.emod_eq_of_lt (by omega) (by omega)]
        ring
    rw [e2]
    dsimp only
    split_ifs <;> omega

theorem filter2D_px {x k y : Img} (h : filter2D x k = .ok y) : 0 < x.h ∧ 0 < x.w ∧ y.h = x.h ∧ y.w = x.w
    ∧ ∀ r c, y.px r c = ∑ i ∈ Finset.range k.h, ∑ j ∈ Finset.range k.w,
      k.px i j * x.px (reflect101 x.h ((r : ℤ) + i - (k.h / 2 : ℕ))) (reflect101 x.w ((c : ℤ) + j - (k.w / 2 : ℕ))) := by
  unfold filter2D at h
  split_ifs at h with hz
  push Not at hz
  rw [Except.ok.injEq] at h
  subst h
  exact ⟨Nat.pos_of_ne_zero hz.1, Nat.pos_of_ne_zero hz.2.1, rfl, rfl, fun _ _ => rfl⟩

/-- Filtering with a kernel of odd sides that looks the same upside down commutes with turning upside down. -/
theorem filter2D_turned {x x' k y : Img} (hx : SameImg x' (upsideDown x)) (hk : Sym k) (o1 : k.h % 2 = 1)
    (o2 : k.w % 2 = 1) (h : filter2D x k = .ok y) : ∃ y', filter2D x' k = .ok y' ∧ SameImg y' (upsideDown y) := by
  obtain ⟨p1, p2, s1, s2, e⟩ := filter2D_px h
  have hh : x'.h = x.h := hx.h
  have hw : x'.w = x.w := hx.w
  obtain ⟨y', hy', -⟩ := filter2D_ok (x := x') (k := k) (by omega) (by omega) (by omega) (by omega)
  obtain ⟨-, -, t1, t2, e'⟩ := filter2D_px hy'
  refine ⟨y', hy', by rw [t1, hh]; exact s1.symm, by rw [t2, hw]; exact s2.symm, fun r hr c hc => ?_⟩
  show _ = y.px (y.h - 1 - r) (y.w - 1 - c)
  rw [e, e', s1, s2, hh, hw, ← Finset.sum_range_reflect]
  refine Finset.sum_congr rfl fun i hi => ?_
  rw [← Finset.sum_range_reflect]
  refine Finset.sum_congr rfl fun j hj => ?_
  rw [Finset.mem_range] at hi hj
  rw [hk.px hi hj]
  congr 1
  have l1 := reflect101_lt p1 ((r : ℤ) + (k.h - 1 - i : ℕ) - (k.h / 2 : ℕ))
  have l2 := reflect101_lt p2 ((c : ℤ) + (k.w - 1 - j : ℕ) - (k.w / 2 : ℕ))
  rw [hx.px _ (by rw [hh]; exact l1) _ (by rw [hw]; exact l2)]
  show x.px (x.h - 1 - _) (x.w - 1 - _) = _
  rw [← reflect101_turned p1, ← reflect101_turned p2]
  congr 2 <;> omega

theorem sum_cast_turned {n : ℕ} (f : ℕ → ℝ) (hf : ∀ i < n, f (n - 1 - i) = f i) :
    ∑ i ∈ Finset.range n, f i * i = ((n : ℝ) - 1) / 2 * ∑ i ∈ Finset.range n, f i := by
  have e : ∑ i ∈ Finset.range n, f i * i = ∑ i ∈ Finset.range n, f i * ((n : ℝ) - 1 - i) := by
    rw [← Finset.sum_range_reflect]
    refine Finset.sum_congr rfl fun i hi => ?_
    rw [Finset.mem_range] at hi
    rw [hf i hi, Nat.cast_sub (by omega), Nat.cast_sub (by omega)]
    push_cast
    ring
  have e2 : ∑ i ∈ Finset.range n, f i * ((n : ℝ) - 1 - i)
      = ((n : ℝ) - 1) * ∑ i ∈ Finset.range n, f i - ∑ i ∈ Finset.range n, f i * i := by
    rw [Finset.mul_sum, ← Finset.sum_sub_distrib]
    exact Finset.sum_congr rfl fun i _ => by ring
  linarith

theorem anchor_shift (n : ℕ) (hn : 0 < n) : ((n : ℝ) - 1) / 2 - (n / 2 : ℕ) = -halfIfEven n := by
  unfold halfIfEven
  split_ifs with h
  · have : n = 2 * (n / 2) := by omega
    have : (n : ℝ) = 2 * (n / 2 : ℕ) := by exact_mod_cast this
    linarith
  · have : n = 2 * (n / 2) + 1 := by omega
    have : (n : ℝ) = 2 * (n / 2 : ℕ) + 1 := by exact_mod_cast this
    linarith

/-- Filtering a ramp with a kernel of sum 1 that looks the same upside down moves it by half a pixel along each side of
the kernel that is even. -/
theorem filter2D_ramp {x k y : Img} {a b c : ℝ} (hx : Ramp x a b c) (hk : Sym k) (hs : k.sum = 1)
    (k1 : 0 < k.h) (k2 : 0 < k.w) (h : filter2D x k = .ok y) {r s : ℕ} (r1 : k.h / 2 ≤ r) (r2 : r + k.h / 2 < x.h)
    (s1 : k.w / 2 ≤ s) (s2 : s + k.w / 2 < x.w) :
    y.px r s = a + b * (r - halfIfEven k.h) + c * (s - halfIfEven k.w) := by
  obtain ⟨-, -, -, -, e⟩ := filter2D_px h
  have inner : ∀ {n m q t : ℕ}, m / 2 ≤ q → q + m / 2 < n → t < m →
      reflect101 n ((q : ℤ) + t - (m / 2 : ℕ)) = q + t - m / 2 ∧ q + t - m / 2 < n := by
    intro n m q t h1 h2 h3
    have : ((q : ℤ) + t - (m / 2 : ℕ)) = ((q + t - m / 2 : ℕ) : ℤ) := by omega
    rw [this]
    exact ⟨reflect101_self (by omega), by omega⟩
  have hr : ∀ i < k.h, ((r + i - k.h / 2 : ℕ) : ℝ) = r + i - (k.h / 2 : ℕ) := fun i hi => by
    rw [Nat.cast_sub (by omega)]; push_cast; ring
  have hc : ∀ j < k.w, ((s + j - k.w / 2 : ℕ) : ℝ) = s + j - (k.w / 2 : ℕ) := fun j hj => by
    rw [Nat.cast_sub (by omega)]; push_cast; ring
  have hk' : ∀ i < k.h, ∀ j < k.w, k.px (k.h - 1 - i) (k.w - 1 - j) = k.px i j := fun i hi j hj => hk.px hi hj
  set R : ℕ → ℝ := fun i => ∑ j ∈ Finset.range k.w, k.px i j with hR
  set C : ℕ → ℝ := fun j => ∑ i ∈ Finset.range k.h, k.px i j with hC
  have hR1 : ∑ i ∈ Finset.range k.h, R i = 1 := hs
  have hC1 : ∑ j ∈ Finset.range k.w, C j = 1 := by
    rw [← hs]; exact Finset.sum_comm
  have hRs : ∀ i < k.h, R (k.h - 1 - i) = R i := by
    intro i hi
    rw [hR]
    dsimp only
    rw [← Finset.sum_range_reflect]
    exact Finset.sum_congr rfl fun j hj => hk' i hi j (Finset.mem_range.mp hj)
  have hCs : ∀ j < k.w, C (k.w - 1 - j) = C j := by
    intro j hj
    rw [hC]
    dsimp only
    rw [← Finset.sum_range_reflect]
    exact Finset.sum_congr rfl fun i hi => hk' i (Finset.mem_range.mp hi) j hj
  have m1 := sum_cast_turned R hRs
  have m2 := sum_cast_turned C hCs
  rw [hR1, mul_one] at m1
  rw [hC1, mul_one] at m2
  have n1 := anchor_shift k.h k1
  have n2 := anchor_shift k.w k2
  have key : y.px r s = ∑ i ∈ Finset.range k.h, ∑ j ∈ Finset.range k.w,
      ((a + b * (r - (k.h / 2 : ℕ)) + c * (s - (k.w / 2 : ℕ))) * k.px i j + b * (k.px i j * i) + c * (k.px i j * j)) := by
    rw [e]
    refine Finset.sum_congr rfl fun i hi => Finset.sum_congr rfl fun j hj => ?_
    rw [Finset.mem_range] at hi hj
    obtain ⟨f1, f2⟩ := inner r1 r2 hi
    obtain ⟨g1, g2⟩ := inner s1 s2 hj
    rw [f1, g1, hx _ f2 _ g2, hr i hi, hc j hj]
    ring
  have t1 : ∑ i ∈ Finset.range k.h, ∑ j ∈ Finset.range k.w, k.px i j * (i : ℝ) = ∑ i ∈ Finset.range k.h, R i * i :=
    Finset.sum_congr rfl fun i _ => (Finset.sum_mul _ _ _).symm
  have t2 : ∑ i ∈ Finset.range k.h, ∑ j ∈ Finset.range k.w, k.px i j * (j : ℝ) = ∑ j ∈ Finset.range k.w, C j * j := by
    rw [Finset.sum_comm]
    exact Finset.sum_congr rfl fun j _ => (Finset.sum_mul _ _ _).symm
  have t0 : ∑ i ∈ Finset.range k.h, ∑ j ∈ Finset.range k.w, k.px i j = 1 := hs
  rw [key]
  simp only [Finset.sum_add_distrib, ← Finset.mul_sum]
  rw [t0, t1, t2, m1, m2]
  linear_combination b * n1 + c * n2

/-! ## Resizing a ramp -/

theorem readAt_ramp {src dst d : ℕ} {f : ℕ → ℝ} {a b : ℝ} {lo hi : ℕ} (hhi : hi < src) (h1 : (lo : ℝ) ≤ positionOf src dst d)
    (h2 : positionOf src dst d ≤ hi) (hf : ∀ i, lo ≤ i → i ≤ hi → f i = a + b * i) :
    readAt src dst d f = a + b * positionOf src dst d := by
  have hp : ((d : ℝ) + 0.5) * ((src : ℝ) / dst) - 0.5 = positionOf src dst d := by
    unfold positionOf; norm_num
  unfold readAt resizeCoord
  dsimp only
  rw [hp]
  generalize positionOf src dst d = t at *
  have t0 : (0 : ℝ) ≤ t := le_trans (by positivity) h1
  obtain ⟨s, hs⟩ : ∃ s : ℕ, ⌊t⌋ = s := ⟨⌊t⌋.toNat, (Int.toNat_of_nonneg (Int.floor_nonneg.mpr t0)).symm⟩
  have u1 : (s : ℝ) ≤ t := by have := Int.floor_le t; rw [hs] at this; exact_mod_cast this
  have u2 : t < s + 1 := by have := Int.lt_floor_add_one t; rw [hs] at this; exact_mod_cast this
  have l1 : lo ≤ s := by
    have : (lo : ℝ) < s + 1 := by linarith
    have : lo < s + 1 := by exact_mod_cast this
    omega
  have l2 : s ≤ hi := by
    have : (s : ℝ) ≤ hi := by linarith
    exact_mod_cast this
  rw [hs, if_neg (by omega)]
  split_ifs with c1
  · have e : s = src - 1 := by omega
    have e' : s = hi := by omega
    have : t = s := by
      rw [← e'] at h2
      exact le_antisymm h2 u1
    dsimp only
    rw [← e, hf s l1 l2, this]
    ring
  · dsimp only
    rw [Int.toNat_natCast, hf s l1 l2]
    by_cases c2 : t = s
    · rw [c2]
      push_cast
      ring
    · have : (s : ℝ) < hi := lt_of_lt_of_le (lt_of_le_of_ne u1 (Ne.symm c2)) h2
      have l3 : s < hi := by exact_mod_cast this
      rw [min_eq_left (by omega), hf (s + 1) (by omega) (by omega)]
      push_cast
      ring

theorem cvResize_ramp {x y : Img} {m n : ℕ} (h : cvResize x m n = .ok y) {a b c : ℝ} {l1 u1 l2 u2 : ℕ} (hu1 : u1 < x.h)
    (hu2 : u2 < x.w) (hx : ∀ i, l1 ≤ i → i ≤ u1 → ∀ j, l2 ≤ j → j ≤ u2 → x.px i j = a + b * i + c * j) {i j : ℕ}
    (i1 : (l1 : ℝ) ≤ positionOf x.h n i) (i2 : positionOf x.h n i ≤ u1) (j1 : (l2 : ℝ) ≤ positionOf x.w m j)
    (j2 : positionOf x.w m j ≤ u2) : y.px i j = a + b * positionOf x.h n i + c * positionOf x.w m j := by
  rw [cvResize_px h]
  have := readAt_ramp (f := fun r => readAt x.w m j fun c => x.px r c) (a := a + c * positionOf x.w m j) (b := b) hu1 i1 i2
    (fun r hr1 hr2 => by
      rw [readAt_ramp (a := a + b * r) (b := c) hu2 j1 j2 fun s hs1 hs2 => hx r hr1 hr2 s hs1 hs2]
      ring)
  rw [this]
  ring

/-! ## The simulated image -/

theorem resample_resize {x y : Img} {dxIn dxOut : Scal} (h : resample2D true x dxIn dxOut = .ok y) :
    cvResize x y.w y.h = .ok y ∧ ∀ x' : Img, x'.h = x.h → x'.w = x.w →
      resample2D true x' dxIn dxOut = cvResize x' y.w y.h := by
  unfold resample2D at h ⊢
  simp only [Bool.not_true, Bool.false_eq_true, if_false, bind_ok] at h ⊢
  obtain ⟨nx, e1, ny, e2, h⟩ := h
  obtain ⟨z1, z2⟩ := cvResize_size h
  refine ⟨by rw [z1, z2]; exact h, fun x' h1 h2 => ?_⟩
  rw [h1, h2, e1, ok_bind, e2, ok_bind, z1, z2]

theorem pixelAngle_pos {g r : ℝ} (hg : 0 < g) (hr : 0 < r) : 0 < pixelAngle g r := by
  have : 0 < Real.arctan (g / 2 / r) := by
    rw [← Real.arctan_zero]; exact Real.arctan_strictMono (by positivity)
  unfold pixelAngle
  positivity

/-- The steps of a successful `apply_otf_to_image`, with the angle of a reference pixel. -/
theorem apply_parts {x : Img} {gsd range df ifov : Scal} {M N : ℕ} {otf : ℕ → ℕ → ℂ} {sim sp : Img}
    (h : applyOtfToImage true x gsd range M N otf df ifov = .ok (sim, sp)) {g r : ℝ} (hg : gsd.val = .fin g)
    (hr : range.val = .fin r) (hr0 : 0 < r) :
    ∃ half q psf blur dxIn, Scal.div gsd (.py 2) = .ok half ∧ Scal.div half range = .ok q
      ∧ (Scal.np (2 * q.val.arctan)).val = .fin (pixelAngle g r)
      ∧ otfToPsf true M N otf df (.np (2 * q.val.arctan)) = .ok psf ∧ filter2D x psf = .ok blur
      ∧ Scal.div gsd range = .ok dxIn ∧ resample2D true blur dxIn ifov = .ok sim
      ∧ resample2D true psf dxIn ifov = .ok sp := by
  obtain ⟨-, half, q, psf, blur, dxIn, h1, h2, h3, h4, h5, h6, h7⟩ := applyOtf_ok h
  refine ⟨half, q, psf, blur, dxIn, h1, h2, ?_, h3, h4, h5, h6, h7⟩
  obtain ⟨half', a1, a2⟩ := Scal.div_fin hg (b := .py 2) (y := 2) rfl two_ne_zero
  rw [h1, Except.ok.injEq] at a1
  subst a1
  obtain ⟨q', a3, a4⟩ := Scal.div_fin a2 hr hr0.ne'
  rw [h2, Except.ok.injEq] at a3
  subst a3
  rw [Scal.val_np, a4]
  show (2 : XR) * .fin (Real.arctan (g / 2 / r)) = _
  exact XR.fin_mul _ _

/-- **C112** (position): applying a real OTF that is the same at opposite frequencies (an odd number of samples a side) to
an image whose brightness is a ramp gives the ramp again, at every output pixel that is not near the border (further from it
than half the point spread function `p` that `otf_to_psf` gives for the angle of a reference pixel). Each output pixel shows
the brightness at the place of the reference image that it covers: exactly along a side of `p` that is odd, and displaced by
half a reference pixel along one that is even. -/
theorem C112_ramp {x : Img} {a b c : ℝ} (hx : Ramp x a b c) {gsd range df ifov : Scal} {M N : ℕ} {otf : ℕ → ℕ → ℂ}
    {sim sp : Img} (h : applyOtfToImage true x gsd range M N otf df ifov = .ok (sim, sp)) (oM : Odd M) (oN : Odd N)
    (hs : PointSymmetric M N otf) {d g r : ℝ} (hd : df.val = .fin d) (hd0 : 0 < d) (hg : gsd.val = .fin g) (hg0 : 0 < g)
    (hr : range.val = .fin r) (hr0 : 0 < r)
    (hf : CroppedEvenly M N otf (max 1 ⌊1 / (d * pixelAngle g r)⌋₊) (max 1 ⌊N / M / (d * pixelAngle g r)⌋₊)) {p : Img}
    (hp : otfToPsf true M N otf df (.np (.fin (pixelAngle g r))) = .ok p) :
    ∀ i j, ((p.h / 2 : ℕ) : ℝ) ≤ positionOf x.h sim.h i → positionOf x.h sim.h i ≤ x.h - 1 - (p.h / 2 : ℕ) →
      ((p.w / 2 : ℕ) : ℝ) ≤ positionOf x.w sim.w j → positionOf x.w sim.w j ≤ x.w - 1 - (p.w / 2 : ℕ) →
      sim.px i j = a + b * (positionOf x.h sim.h i - halfIfEven p.h) + c * (positionOf x.w sim.w j - halfIfEven p.w) := by
  intro i j i1 i2 j1 j2
  obtain ⟨half, q, psf, blur, dxIn, -, -, ho, h3, h4, -, h6, -⟩ := apply_parts h hg hr hr0
  rw [Scal.val_np] at ho
  rw [ho, hp, Except.ok.injEq] at h3
  subst h3
  obtain ⟨p1, p3, p4, -⟩ := C112_psf oM oN hs hp hd hd0 rfl (pixelAngle_pos hg0 hr0) hf
  have p2 := C45_sums_to_one hp
  obtain ⟨-, -, b1, b2, -⟩ := filter2D_px h4
  obtain ⟨r1, -⟩ := resample_resize h6
  have big : ∀ {n m : ℕ} {t : ℝ}, (m : ℝ) ≤ t → t ≤ n - 1 - (m : ℕ) → m + 1 ≤ n := by
    intro n m t h1 h2
    have : ((m + 1 : ℕ) : ℝ) ≤ n := by
      have : (0 : ℝ) ≤ m := by positivity
      push_cast
      linarith
    exact_mod_cast this
  have n1 := big i1 i2
  have n2 := big j1 j2
  have e : ∀ n m : ℕ, m + 1 ≤ n → ((n - 1 - m : ℕ) : ℝ) = n - 1 - m := by
    intro n m hnm
    rw [Nat.cast_sub (by omega), Nat.cast_sub (by omega)]
    simp
  have := cvResize_ramp r1 (a := a - b * halfIfEven p.h - c * halfIfEven p.w) (b := b) (c := c)
    (l1 := p.h / 2) (u1 := x.h - 1 - p.h / 2) (l2 := p.w / 2) (u2 := x.w - 1 - p.w / 2) (by omega) (by omega)
    (fun r hr1 hr2 s hs1 hs2 => by
      rw [filter2D_ramp hx p1 p2 p3 p4 h4 (by omega) (by omega) (by omega) (by omega)]
      ring) (i := i) (j := j) (by rw [b1]; exact i1) (by rw [b1, e _ _ n1]; exact i2) (by rw [b2]; exact j1)
    (by rw [b2, e _ _ n2]; exact j2)
  rw [this, b1, b2]
  ring

/-- **C112** (upside down): if both sides of the point spread function are odd, simulating the image upside down gives the
simulated image upside down, exactly and up to the border. -/
theorem C112_turned {x : Img} {gsd range df ifov : Scal} {M N : ℕ} {otf : ℕ → ℕ → ℂ} {sim sp : Img}
    (h : applyOtfToImage true x gsd range M N otf df ifov = .ok (sim, sp)) (oM : Odd M) (oN : Odd N)
    (hs : PointSymmetric M N otf) {d g r : ℝ} (hd : df.val = .fin d) (hd0 : 0 < d) (hg : gsd.val = .fin g) (hg0 : 0 < g)
    (hr : range.val = .fin r) (hr0 : 0 < r)
    (hf : CroppedEvenly M N otf (max 1 ⌊1 / (d * pixelAngle g r)⌋₊) (max 1 ⌊N / M / (d * pixelAngle g r)⌋₊))
    (o1 : Odd (max 1 ⌊1 / (d * pixelAngle g r)⌋₊)) (o2 : Odd (max 1 ⌊N / M / (d * pixelAngle g r)⌋₊)) :
    ∃ sim', applyOtfToImage true (upsideDown x) gsd range M N otf df ifov = .ok (sim', sp)
      ∧ SameImg sim' (upsideDown sim) := by
  obtain ⟨half, q, psf, blur, dxIn, a1, a2, ho, h3, h4, h5, h6, h7⟩ := apply_parts h hg hr hr0
  obtain ⟨p1, -, -, -, -, -, -, p5, p6⟩ := C112_psf oM oN hs h3 hd hd0 ho (pixelAngle_pos hg0 hr0) hf
  rw [Nat.odd_iff] at o1 o2
  obtain ⟨blur', f1, f2⟩ := filter2D_turned (x' := upsideDown x) ⟨rfl, rfl, fun _ _ _ _ => rfl⟩ p1 (p5.trans o1)
    (p6.trans o2) h4
  obtain ⟨r1, r2⟩ := resample_resize h6
  obtain ⟨sim', s1, s2⟩ := cvResize_turned f2 r1
  refine ⟨sim', ?_, s2⟩
  unfold applyOtfToImage
  simp only [Bool.not_true, Bool.false_eq_true, if_false]
  rw [a1, ok_bind, a2, ok_bind, h3, ok_bind, f1, ok_bind, h5, ok_bind, r2 blur' f2.h f2.w, s1, ok_bind, h7, ok_bind]

/-! ## Perfect optics -/

theorem perfect_psf {df dxOut : Scal} {d o : ℝ} (hd : df.val = .fin d) (hd0 : 0 < d) (ho : dxOut.val = .fin o) (ho0 : 0 < o)
    (hdo : 1 / (d * o) = 12) : ∃ p, otfToPsf true 11 11 (fun _ _ => 1) df dxOut = .ok p := by
  have hx : (Scal.py (.fin ((11 : ℕ) : ℝ)) * df).val = .fin ((11 : ℕ) * d) := by
    rw [Scal.val_mul, hd]; exact XR.fin_mul _ _
  obtain ⟨dxIn, e1, e2⟩ := Scal.div_fin (a := .py 1) (x := 1) rfl hx (by positivity)
  have hy : (Scal.py (.fin ((11 : ℕ) : ℝ)) * dxIn).val = .fin ((11 : ℕ) * (1 / ((11 : ℕ) * d))) := by
    rw [Scal.val_mul, e2]; exact XR.fin_mul _ _
  obtain ⟨s, e3, e4⟩ := Scal.div_fin hy ho ho0.ne'
  have e5 : pyInt s.val = .ok 12 := by
    rw [e4]
    have : ((11 : ℕ) : ℝ) * (1 / ((11 : ℕ) * d)) / o = 12 := by
      rw [← hdo]; field_simp
    rw [this]
    unfold pyInt
    norm_num
  obtain ⟨q, e6, q1, q2, q3, -⟩ := cvResize_ok (x := rawPsf 11 11 fun _ _ => 1) (nw := 12) (nh := 12) (by decide)
    (by decide) (by decide) (by decide)
  have raw := C45_impulse (M := 11) (N := 11) (by norm_num) (by norm_num)
  have q4 : ∀ i j, 0 ≤ q.px i j := fun i j => (q3 0 1 (fun r hr c hc => by
    rw [raw.px r hr c hc]
    unfold impulse
    dsimp only
    split_ifs <;> norm_num) i j).1
  have rc : resizeCoord 11 12 5 = (4, (13 / 24 : ℝ)) := by
    unfold resizeCoord
    have : ⌊(((5 : ℕ) : ℝ) + 0.5) * (((11 : ℕ) : ℝ) / (12 : ℕ)) - 0.5⌋ = 4 := by
      rw [Int.floor_eq_iff]; norm_num
    dsimp only
    rw [this]
    norm_num
    rfl
  have q5 : 0 < q.px 5 5 := by
    rw [cvResize_px e6]
    unfold readAt
    show 0 < (1 - (resizeCoord 11 12 5).2) * _ + (resizeCoord 11 12 5).2 * _
    have hh : (rawPsf 11 11 fun _ _ => 1).h = 11 := rfl
    have hw : (rawPsf 11 11 fun _ _ => 1).w = 11 := rfl
    simp only [hh, hw, rc]
    rw [show min (4 + 1) (11 - 1) = 5 from rfl]
    rw [raw.px 4 (by norm_num [hh]) 4 (by norm_num [hw]), raw.px 4 (by norm_num [hh]) 5 (by norm_num [hw]),
      raw.px 5 (by norm_num [hh]) 4 (by norm_num [hw])]
    have := raw.px 5 (by norm_num [hh]) 5 (by norm_num [hw])
    norm_num [impulse] at this ⊢
    rw [this]
    norm_num
  have q6 : 0 < q.sum := by
    unfold Img.sum
    exact Finset.sum_pos' (fun i _ => Finset.sum_nonneg fun j _ => q4 i j) ⟨5, by simp [q1],
      Finset.sum_pos' (fun j _ => q4 5 j) ⟨5, by simp [q2], q5⟩⟩
  set z : Img := { q with px := fun i j => q.px i j / q.sum } with hz
  have e7 : normalize q = .ok z := by
    unfold normalize; rw [if_neg q6.ne']
  have e8 : getMiddle z 10 = middle z 10 := getMiddle_middle (by show _ ≤ q.h; omega) (by show _ ≤ q.w; omega)
  have z1 : (middle z 10).h = 10 := by
    show 10 + (q.h - 10) % 2 = 10
    omega
  have z2 : (middle z 10).w = 10 := by
    show 10 + (q.w - 10) % 2 = 10
    omega
  have z4 : ∀ i j, 0 ≤ (middle z 10).px i j := fun i j => div_nonneg (q4 _ _) q6.le
  have z5 : 0 < (middle z 10).px 4 4 := by
    show 0 < q.px ((q.h - 10) / 2 + 4) ((q.w - 10) / 2 + 4) / q.sum
    rw [q1, q2]
    exact div_pos q5 q6
  have z6 : 0 < (middle z 10).sum := by
    unfold Img.sum
    exact Finset.sum_pos' (fun i _ => Finset.sum_nonneg fun j _ => z4 i j) ⟨4, by simp [z1],
      Finset.sum_pos' (fun j _ => z4 4 j) ⟨4, by simp [z2], z5⟩⟩
  have e9 : supportSize z (arange10 (min 11 11)) = .ok 10 := rfl
  unfold otfToPsf
  simp only [Bool.not_true, Bool.false_eq_true, if_false]
  simp only [e1, ok_bind, e3, e5]
  show ∃ p, (cvResize _ 12 12 >>= _) = _
  rw [e6, ok_bind, e7, ok_bind, e9, ok_bind, e8]
  unfold normalize
  rw [if_neg z6.ne']
  exact ⟨_, rfl⟩

theorem positionOf_self (n i : ℕ) (hi : i < n) : positionOf n n i = i := by
  unfold positionOf
  have : (n : ℝ) ≠ 0 := by
    have : 0 < n := by omega
    positivity
  rw [div_self this]
  ring

/-- **C112** (half a pixel, refuted): perfect optics, an OTF that is 1 at all 11 × 11 frequencies, and a detector with
the pixels of the reference image do not return the image: with 12 reference pixels in the period of the transform, a ramp
comes back displaced by half a pixel down and right, that is, lower by half the slope along each axis. (With 11 pixels the
image is returned exactly, `C47_perfect`.) -/
theorem C112_displaced {x : Img} {a b c : ℝ} (hx : Ramp x a b c) (hh : 0 < x.h) (hw : 0 < x.w) {gsd range df ifov : Scal}
    {g r : ℝ} (hg : gsd.val = .fin g) (hr : range.val = .fin r) (hg0 : 0 < g) (hr0 : 0 < r)
    (hd : df.val = .fin (1 / (12 * pixelAngle g r))) (hi : ifov.val = .fin (g / r)) :
    ∃ sim sp, applyOtfToImage true x gsd range 11 11 (fun _ _ => 1) df ifov = .ok (sim, sp)
      ∧ sim.h = x.h ∧ sim.w = x.w
      ∧ ∀ i j, 5 ≤ i → i + 5 < x.h → 5 ≤ j → j + 5 < x.w → sim.px i j = x.px i j - (b + c) / 2 := by
  have hθ := pixelAngle_pos hg0 hr0
  have hdo : 1 / (1 / (12 * pixelAngle g r) * pixelAngle g r) = 12 := by field_simp
  obtain ⟨half, a1, a2⟩ := Scal.div_fin hg (b := .py 2) (y := 2) rfl two_ne_zero
  obtain ⟨q, a3, a4⟩ := Scal.div_fin a2 hr hr0.ne'
  obtain ⟨dxIn, a5, a6⟩ := Scal.div_fin hg hr hr0.ne'
  have hq : (2 * q.val.arctan : XR) = .fin (pixelAngle g r) := by
    rw [a4]
    show (2 : XR) * .fin (Real.arctan (g / 2 / r)) = _
    exact XR.fin_mul _ _
  obtain ⟨psf, b1⟩ := perfect_psf (dxOut := .np (.fin (pixelAngle g r))) hd (by positivity) rfl hθ hdo
  have fl : max 1 ⌊1 / (1 / (12 * pixelAngle g r) * pixelAngle g r)⌋₊ = 12 := by
    rw [hdo]; norm_num
  have fl' : max 1 ⌊((11 : ℕ) : ℝ) / (11 : ℕ) / (1 / (12 * pixelAngle g r) * pixelAngle g r)⌋₊ = 12 := by
    rw [div_self (by norm_num)]; exact fl
  have hsym : PointSymmetric 11 11 fun _ _ => 1 := fun k _ l _ => ⟨by simp, rfl⟩
  have hfit : CroppedEvenly 11 11 (fun _ _ => 1) (max 1 ⌊1 / (1 / (12 * pixelAngle g r) * pixelAngle g r)⌋₊)
      (max 1 ⌊((11 : ℕ) : ℝ) / (11 : ℕ) / (1 / (12 * pixelAngle g r) * pixelAngle g r)⌋₊) := by
    rw [fl, fl']
    left
    norm_num
  obtain ⟨-, p3, p4, p5, p6, -, -, p7, p8⟩ := C112_psf (by decide) (by decide) hsym b1 hd (by positivity) rfl hθ hfit
  rw [fl] at p7
  rw [fl'] at p8
  have m11 : min 11 11 = 11 := rfl
  obtain ⟨blur, c1, c2, c3, -⟩ := filter2D_ok (x := x) (k := psf) hh.ne' hw.ne' p3.ne' p4.ne'
  obtain ⟨sim, d1, d2⟩ := C46_identity blur (by omega) (by omega) a6 hi (by positivity)
  obtain ⟨sp, d3, -⟩ := C46_identity psf p3.ne' p4.ne' a6 hi (by positivity)
  have hok : applyOtfToImage true x gsd range 11 11 (fun _ _ => 1) df ifov = .ok (sim, sp) := by
    unfold applyOtfToImage
    simp only [Bool.not_true, Bool.false_eq_true, if_false]
    rw [a1, ok_bind, a3, ok_bind, hq, b1, ok_bind, c1, ok_bind, a5, ok_bind, d1, ok_bind, d3, ok_bind]
  have g1 : sim.h = x.h := d2.h.trans c2
  have g2 : sim.w = x.w := d2.w.trans c3
  refine ⟨sim, sp, hok, g1, g2, fun i j i1 i2 j1 j2 => ?_⟩
  have ci : ∀ n i s : ℕ, s ≤ 11 → 5 ≤ i → i + 5 < n → (((s / 2 : ℕ) : ℝ) ≤ i ∧ (i : ℝ) ≤ n - 1 - ((s / 2 : ℕ) : ℝ)) := by
    intro n i s hs h1 h2
    have h0 : s / 2 ≤ 5 := by omega
    have h1' : ((s / 2 : ℕ) : ℝ) ≤ i := by exact_mod_cast h0.trans h1
    have h2' : ((i + s / 2 + 1 : ℕ) : ℝ) ≤ n := by exact_mod_cast (by omega : i + s / 2 + 1 ≤ n)
    rw [Nat.cast_add, Nat.cast_add, Nat.cast_one] at h2'
    exact ⟨h1', by linarith⟩
  have key := C112_ramp hx hok (by decide) (by decide) hsym hd (by positivity) hg hg0 hr hr0 hfit b1 i j
  rw [g1, g2, positionOf_self _ _ (by omega), positionOf_self _ _ (by omega)] at key
  obtain ⟨k1, k2⟩ := ci _ _ psf.h (by omega) i1 i2
  obtain ⟨k3, k4⟩ := ci _ _ psf.w (by omega) j1 j2
  rw [key k1 k2 k3 k4, hx i (by omega) j (by omega)]
  unfold halfIfEven
  rw [if_pos (by omega), if_pos (by omega)]
  ring

/-! ## `simulate_image` -/

theorem optics_even {s : RealSensor} (hs : s.Optical) (g : RealScene) {pairs : List (ℝ × ℝ)} (hb : Band pairs) (t u v : ℝ) :
    opticsAt s g pairs t (-u) (-v) = opticsAt s g pairs t u v := by
  have hsq : (-u) ^ 2 + (-v) ^ 2 = u ^ 2 + v ^ 2 := by ring
  have hA : apertureAt s pairs (-u) (-v) = apertureAt s pairs u v := by
    unfold apertureAt wmean
    congr 2
    refine List.map_congr_left fun p hp => ?_
    dsimp only
    rw [mtf_radial (hb.positive p hp) hs.aperture hs.obscuration hs.open_ hsq]
  have hT : turbulenceAt s g pairs t (-u) (-v) = turbulenceAt s g pairs t u v := by
    unfold turbulenceAt turbMix
    rw [hsq]
  have hn : ∀ x : ℝ, Real.sinc (Real.pi * -x) = Real.sinc (Real.pi * x) := fun x => by
    rw [mul_neg, Real.sinc_neg]
  have hD : detectorAt s (-u) (-v) = detectorAt s u v := by
    unfold detectorAt
    rw [mul_neg, neg_div, hn, mul_neg, neg_div, hn]
  have hJ : jitterAt s (-u) (-v) = jitterAt s u v := by
    unfold jitterAt
    congr 1
    ring
  have hQ : driftAt s t (-u) (-v) = driftAt s t u v := by
    unfold driftAt
    rw [mul_neg, hn, mul_neg, hn]
  have hW : wavefrontAt s pairs (-u) (-v) = wavefrontAt s pairs u v := by
    unfold wavefrontAt
    congr 1
    funext l
    rw [neg_div, neg_sq, neg_div, neg_sq]
  unfold opticsAt
  rw [hA, hT, hD, hJ, hQ, hW]

theorem freq_turned {n j : ℕ} (hn : 2 ≤ n) (hj : j < n) (c : ℝ) :
    colFreq n c (n - 1 - j) = -colFreq n c j ∧ rowFreq n c (n - 1 - j) = -rowFreq n c j := by
  have e : ((n - 1 - j : ℕ) : ℝ) = n - 1 - j := by
    rw [Nat.cast_sub (by omega), Nat.cast_sub (by omega)]
    simp
  have h0 : (n : ℝ) - 1 ≠ 0 := by
    have : (2 : ℝ) ≤ n := by exact_mod_cast hn
    intro h
    linarith
  unfold colFreq rowFreq
  rw [e]
  constructor <;> (field_simp; ring)

/-- **C112** (`simulate_image`): for a sensor without sharpening kernel, the point spread function of the system looks the
same upside down, and where the true image is a ramp, the blurred image is that ramp: in place along a side of the point
spread function that is odd, displaced by half a reference pixel along one that is even. -/
theorem C112_simulated {env : Env} {s : RealSensor} {sc : Scenario} {r : RefImage} {cal : List (ℝ × ℝ)}
    {B : List (Fin 6 → ℝ)} (h : Simulation env s sc r cal B) {g : RealScene} (hv : FlatView g sc)
    (hk : s.filterKernel.length ≤ 1) {γ : ℝ} (hγ : r.gsd = .fin γ) (hγ0 : 0 < γ) {rng : Rng} {R : SimResult}
    (hR : simulateImage env true rng r s.toSensor sc = .ok R) :
    ∃ c otf p, IsCutoff s.D (s.whiteBand B) c ∧ 0 < c
      ∧ (∀ i < 1501, ∀ j < 1501, otf i j
          = ((opticsAt s g (s.whiteBand B) s.intTime (colFreq 1501 c j) (rowFreq 1501 c i) : ℝ) : ℂ))
      ∧ otfToPsf true 1501 1501 otf (.np (.fin (c / 750))) (.np (.fin (pixelAngle γ g.slant))) = .ok p
      ∧ (CroppedEvenly 1501 1501 otf (max 1 ⌊750 / (c * pixelAngle γ g.slant)⌋₊)
            (max 1 ⌊750 / (c * pixelAngle γ g.slant)⌋₊) →
          SameImg p (upsideDown p) ∧ p.h % 2 = max 1 ⌊750 / (c * pixelAngle γ g.slant)⌋₊ % 2 ∧ p.w % 2 = p.h % 2
          ∧ p.h ≤ max 1 ⌊750 / (c * pixelAngle γ g.slant)⌋₊ ∧ p.w ≤ max 1 ⌊750 / (c * pixelAngle γ g.slant)⌋₊
          ∧ ∀ a b e, Ramp R.trueImg a b e → ∀ i j,
            ((p.h / 2 : ℕ) : ℝ) ≤ positionOf R.trueImg.h R.blurImg.h i →
            positionOf R.trueImg.h R.blurImg.h i ≤ R.trueImg.h - 1 - (p.h / 2 : ℕ) →
            ((p.w / 2 : ℕ) : ℝ) ≤ positionOf R.trueImg.w R.blurImg.w j →
            positionOf R.trueImg.w R.blurImg.w j ≤ R.trueImg.w - 1 - (p.w / 2 : ℕ) →
            R.blurImg.px i j = a + b * (positionOf R.trueImg.h R.blurImg.h i - halfIfEven p.h)
              + e * (positionOf R.trueImg.w R.blurImg.w j - halfIfEven p.w)) := by
  obtain ⟨T, srt, ρ, c, F, otf, atm, -, -, -, h4, h5, -, h7, h8, h9, h10, -, h11⟩ := C73_simulation h hv
  rw [h11] at hR
  split at hR
  · cases hR
  rename_i blur sp happ
  split_ifs at hR
  rw [Except.ok.injEq] at hR
  subst hR
  dsimp only
  have hsl : 0 < g.slant := lt_of_le_of_ne (Real.sqrt_nonneg _) (Ne.symm hv.viewing.away)
  have hθ := pixelAngle_pos hγ0 hsl
  have hF : ∀ u v, F u v = 1 := h9.1 hk
  have hb : Band (s.whiteBand B) := positive_band h.wavelengths h.distinct h.signal
  have hsym : PointSymmetric 1501 1501 otf := by
    intro k hk l hl
    rw [h10 k hk l hl, h10 _ (turn_lt hk) _ (turn_lt hl), (freq_turned (by norm_num) hl c).1,
      (freq_turned (by norm_num) hk c).2, hF, hF, optics_even h.optical g hb]
    exact ⟨Complex.ofReal_im _, rfl⟩
  rw [hγ] at happ
  obtain ⟨half, q, psf, blur', dxIn, -, -, ho, p3, -⟩ := apply_parts happ (g := γ) rfl (r := g.slant) rfl hsl
  rw [Scal.val_np] at ho
  rw [ho] at p3
  have eh : 1 / (c / 750 * pixelAngle γ g.slant) = 750 / (c * pixelAngle γ g.slant) := by field_simp
  have ew : ((1501 : ℕ) : ℝ) / (1501 : ℕ) / (c / 750 * pixelAngle γ g.slant) = 750 / (c * pixelAngle γ g.slant) := by
    rw [div_self (by norm_num), eh]
  refine ⟨c, otf, psf, h7, h8, fun i hi j hj => by rw [h10 i hi j hj, hF, mul_one], p3, fun hf => ?_⟩
  have hf' : CroppedEvenly 1501 1501 otf (max 1 ⌊1 / (c / 750 * pixelAngle γ g.slant)⌋₊)
      (max 1 ⌊((1501 : ℕ) : ℝ) / (1501 : ℕ) / (c / 750 * pixelAngle γ g.slant)⌋₊) := by
    rw [eh, ew]; exact hf
  obtain ⟨s1, -, -, -, -, s4, s5, s6, s7⟩ := C112_psf (by decide) (by decide) hsym p3 (d := c / 750) rfl (by positivity) rfl hθ hf'
  rw [eh] at s4 s6
  rw [ew] at s5 s7
  exact ⟨s1, s6, s7.trans s6.symm, s4, s5, fun a b e hx => C112_ramp hx happ (by decide) (by decide) hsym (d := c / 750) rfl
    (by positivity) (g := γ) rfl hγ0 rfl hsl hf' p3⟩

end PyBSM
