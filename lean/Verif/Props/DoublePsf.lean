import Verif.Model.DoublePsf
import Verif.Spec.DoublePsf
import Verif.Props.DoubleBlur

/-!
# C145: point spread functions in double precision
-/

noncomputable section

open Classical

namespace PyBSM

open Spec

variable {fl : ℝ → ℝ} {ord : ℕ → ℕ → SumTree} {d : ℕ}

/-- **C145** (steps): a kernel of `otf_to_psf` is the result of the last steps, applied to the resampled transform. -/
theorem C145_steps {M N : ℕ} {otf : ℕ → ℕ → ℂ} {df dxOut : Scal} {f : Img} (h : otfToPsf true M N otf df dxOut = .ok f) :
    ∃ nx ny q, cvResize (rawPsf M N otf) nx ny = .ok q ∧ finishPsf q (arange10 (min M N)) = .ok f := by
  unfold otfToPsf at h
  simp only [Bool.not_true, Bool.false_eq_true, if_false, bind, Except.bind] at h
  split at h
  · cases h
  split at h
  · cases h
  split at h
  · cases h
  split at h
  · cases h
  split at h
  · cases h
  split at h
  · cases h
  rename_i q hq
  exact ⟨_, _, q, hq, h⟩

/-! ## Sums -/

theorem flat_sum {order : SumTree} (g : ℕ → ℕ → ℝ) {h w : ℕ} (ho : order.leaves.Perm (List.range (h * w))) :
    (order.leaves.map fun n => g (n / w) (n % w)).sum = ∑ i ∈ Finset.range h, ∑ j ∈ Finset.range w, g i j := by
  rcases Nat.eq_zero_or_pos w with hw | hw
  · subst hw
    rw [(ho.map _).sum_eq]
    simp
  · exact list_flat g hw ho

theorem grossSum_nonneg (x : Img) : 0 ≤ grossSum x := Finset.sum_nonneg fun _ _ => Finset.sum_nonneg fun _ _ => abs_nonneg _

theorem sum_le_grossSum (x : Img) : |x.sum| ≤ grossSum x :=
  (Finset.abs_sum_le_sum_abs _ _).trans (Finset.sum_le_sum fun _ _ => Finset.abs_sum_le_sum_abs _ _)

theorem imgSumD_close (hfl : RoundsToNearest fl) {q : Img} (ho : AddsEach ord q d) (hd : d ≤ 10 ^ 9) (x : Img) (x1 : x.h ≤ q.h) (x2 : x.w ≤ q.w) :
    |imgSumD fl ord x - x.sum| ≤ sumError d * grossSum x := by
  obtain ⟨p, hp⟩ := ho x.h x1 x.w x2
  have s := (sumD_signed hfl (f := fun n => x.px (n / x.w) (n % x.w)) (g := fun n => x.px (n / x.w) (n % x.w)) (ord x.h x.w)
    (fun i => by rw [sub_self, abs_zero]; positivity) (hp.trans hd)).1
  have e1 := flat_sum (fun i j => x.px i j) p
  have e2 := flat_sum (fun i j => |x.px i j|) p
  rw [e1, e2] at s
  refine s.trans ?_
  have : ((ord x.h x.w).depth : ℝ) ≤ d := by exact_mod_cast hp
  unfold sumError
  exact mul_le_mul_of_nonneg_right (by linarith) (grossSum_nonneg x)

/-- Two arrays of the same size whose entries agree up to a relative error. -/
structure NearImg (δ : ℝ) (x' x : Img) : Prop where
  h : x'.h = x.h
  w : x'.w = x.w
  px : ∀ i j, |x'.px i j - x.px i j| ≤ δ * |x.px i j|

theorem NearImg.sums {δ : ℝ} {x' x : Img} (h : NearImg δ x' x) :
    |x'.sum - x.sum| ≤ δ * grossSum x ∧ grossSum x' ≤ (1 + δ) * grossSum x := by
  constructor
  · unfold Img.sum grossSum
    rw [h.h, h.w, ← Finset.sum_sub_distrib, Finset.mul_sum]
    refine (Finset.abs_sum_le_sum_abs _ _).trans (Finset.sum_le_sum fun i _ => ?_)
    rw [← Finset.sum_sub_distrib, Finset.mul_sum]
    exact (Finset.abs_sum_le_sum_abs _ _).trans (Finset.sum_le_sum fun j _ => h.px i j)
  · unfold grossSum
    rw [h.h, h.w, Finset.mul_sum]
    refine Finset.sum_le_sum fun i _ => ?_
    rw [Finset.mul_sum]
    refine Finset.sum_le_sum fun j _ => ?_
    have := abs_sub_abs_le_abs_sub (x'.px i j) (x.px i j)
    have := h.px i j
    linarith

theorem slice_le (n : ℕ) (s : ℤ) : pySliceBound n s ≤ n := by
  unfold pySliceBound
  split_ifs <;> omega

theorem middle_gross (x : Img) (k : ℕ) : grossSum (getMiddle x k) ≤ grossSum x := by
  have part : ∀ (g : ℕ → ℝ) (lo hi n : ℕ), (∀ i, 0 ≤ g i) → hi ≤ n →
      ∑ i ∈ Finset.range (hi - lo), g (lo + i) ≤ ∑ i ∈ Finset.range n, g i := by
    intro g lo hi n hg hn
    rw [← Finset.sum_Ico_eq_sum_range]
    apply Finset.sum_le_sum_of_subset_of_nonneg
    · intro i hi'
      rw [Finset.mem_Ico] at hi'
      rw [Finset.mem_range]
      omega
    · exact fun i _ _ => hg i
  unfold grossSum getMiddle
  dsimp only
  refine le_trans (Finset.sum_le_sum fun i _ => part (fun j => |x.px (pySliceBound x.h (((x.h : ℤ) - k) / 2) + i) j|) _ _ x.w
    (fun _ => abs_nonneg _) (slice_le _ _)) ?_
  exact part (fun i => ∑ j ∈ Finset.range x.w, |x.px i j|) _ _ x.h (fun _ => Finset.sum_nonneg fun _ _ => abs_nonneg _) (slice_le _ _)

theorem NearImg.middle {δ : ℝ} {x' x : Img} (h : NearImg δ x' x) (k : ℕ) : NearImg δ (getMiddle x' k) (getMiddle x k) := by
  unfold getMiddle
  rw [h.h, h.w]
  exact ⟨rfl, rfl, fun i j => h.px _ _⟩

theorem sumError_pos (d : ℕ) : 1.5e-16 ≤ sumError d := by
  unfold sumError
  have : (0 : ℝ) ≤ d := Nat.cast_nonneg d
  linarith

theorem conditioned_one {q : Img} {κ : ℝ} (h : Conditioned q κ) : 1 ≤ κ := by
  have a := sum_le_grossSum q
  rw [abs_of_pos h.1] at a
  have := h.2
  have hs := h.1
  by_contra hc
  push Not at hc
  nlinarith

/-! ## Normalisation -/

/-- A quotient of two numbers with relative errors, rounded. -/
theorem quotient_near (hfl : RoundsToNearest fl) {a' a s' s α β : ℝ} (hs : 0 < s) (ha : |a' - a| ≤ α * |a|) (hb : |s' - s| ≤ β * s)
    (hα0 : 0 ≤ α) (hα : α ≤ 1e-3) (hβ0 : 0 ≤ β) (hβ : β ≤ 1e-3) :
    |fl (a' / s') - a / s| ≤ (1.01 * (α + β) + 1.3e-16) * |a / s| := by
  have hs' : 0.999 * s ≤ s' := by
    rw [abs_le] at hb
    nlinarith
  have hp : 0 < s' := by linarith
  have e1 : |a' / s' - a / s| ≤ 1.005 * (α + β) * |a / s| := by
    have e : a' / s' - a / s = ((a' - a) * s - a * (s' - s)) / (s' * s) := by field_simp; ring
    rw [e, abs_div, abs_div, abs_of_pos hs, abs_of_pos (mul_pos hp hs), div_le_iff₀ (mul_pos hp hs)]
    have n : |(a' - a) * s - a * (s' - s)| ≤ (α + β) * (|a| * s) := by
      refine (abs_sub _ _).trans ?_
      rw [abs_mul, abs_mul, abs_of_pos hs]
      have m1 := mul_le_mul_of_nonneg_right ha hs.le
      have m2 := mul_le_mul_of_nonneg_left hb (abs_nonneg a)
      linarith
    refine n.trans ?_
    have z : 0 ≤ (α + β) * |a| := mul_nonneg (by linarith) (abs_nonneg _)
    rw [show 1.005 * (α + β) * (|a| / s) * (s' * s) = ((α + β) * |a|) * (1.005 * s') by field_simp, show (α + β) * (|a| * s) = ((α + β) * |a|) * s by ring]
    exact mul_le_mul_of_nonneg_left (by linarith) z
  have e2 : |a' / s'| ≤ 1.003 * |a / s| := by
    have := abs_sub_abs_le_abs_sub (a' / s') (a / s)
    have z := abs_nonneg (a / s)
    nlinarith
  have e3 := fl_close hfl e2
  have := abs_sub_le (fl (a' / s')) (a' / s') (a / s)
  have z := abs_nonneg (a / s)
  nlinarith

theorem normalizeD_near (hfl : RoundsToNearest fl) {q : Img} (ho : AddsEach ord q d) (hd : d ≤ 10 ^ 9) {κ : ℝ} (hq : Conditioned q κ)
    (hκ : κ * sumError d ≤ 1e-3) :
    ∃ y y', normalize q = .ok y ∧ normalizeD fl ord q = .ok y' ∧ NearImg (2 * κ * sumError d) y' y ∧ (y.h = q.h ∧ y.w = q.w) ∧ grossSum y ≤ κ := by
  have k1 := conditioned_one hq
  obtain ⟨hs, hg⟩ := hq
  have e0 := sumError_pos d
  have c : |imgSumD fl ord q - q.sum| ≤ κ * sumError d * q.sum := by
    refine (imgSumD_close hfl ho hd q le_rfl le_rfl).trans ?_
    have := mul_le_mul_of_nonneg_left hg (by linarith : 0 ≤ sumError d)
    linarith
  have hp : 0 < imgSumD fl ord q := by
    rw [abs_le] at c
    nlinarith
  have ke : sumError d ≤ κ * sumError d := le_mul_of_one_le_left (by linarith) k1
  refine ⟨_, _, if_neg hs.ne', if_neg hp.ne', ⟨rfl, rfl, fun i j => ?_⟩, ?_, ?_⟩
  · have := quotient_near hfl (a' := q.px i j) (a := q.px i j) (α := 0) hs (by simp) c le_rfl (by norm_num) (by linarith) hκ
    refine this.trans (mul_le_mul_of_nonneg_right ?_ (abs_nonneg _))
    linarith
  · exact ⟨rfl, rfl⟩
  · unfold grossSum
    simp only [abs_div, abs_of_pos hs, ← Finset.sum_div]
    rw [div_le_iff₀ hs]
    exact hg

/-! ## Cropping -/

theorem middle_size (x : Img) (k : ℕ) : (getMiddle x k).h ≤ x.h ∧ (getMiddle x k).w ≤ x.w := by
  have a := slice_le x.h (((x.h : ℤ) + k + 1) / 2)
  have b := slice_le x.w (((x.w : ℤ) + k + 1) / 2)
  unfold getMiddle
  dsimp only
  omega

theorem share_near (hfl : RoundsToNearest fl) {q : Img} (ho : AddsEach ord q d) (hd : d ≤ 10 ^ 9) {y y' : Img} (hz : y.h = q.h ∧ y.w = q.w) {κ : ℝ}
    (k1 : 1 ≤ κ)
    (hκ : κ * sumError d ≤ 1e-3) (hn : NearImg (2 * κ * sumError d) y' y) (hg : grossSum y ≤ κ) (k : ℕ) :
    |imgSumD fl ord (getMiddle y' k) - (getMiddle y k).sum| ≤ 4 * κ ^ 2 * sumError d := by
  have e0 := sumError_pos d
  obtain ⟨s1, s2⟩ := (hn.middle k).sums
  have ms := middle_size y' k
  have s3 := imgSumD_close hfl ho hd (getMiddle y' k) (ms.1.trans (hn.h.trans hz.1).le) (ms.2.trans (hn.w.trans hz.2).le)
  have g1 : grossSum (getMiddle y k) ≤ κ := (middle_gross y k).trans hg
  have g0 := grossSum_nonneg (getMiddle y k)
  have t := abs_sub_le (imgSumD fl ord (getMiddle y' k)) (getMiddle y' k).sum (getMiddle y k).sum
  generalize sumError d = E at *
  generalize grossSum (getMiddle y k) = G at *
  have z : 0 ≤ 2 * κ * E := by positivity
  have a1 : 2 * κ * E * G ≤ 2 * κ * E * κ := mul_le_mul_of_nonneg_left g1 z
  have a2 : E * grossSum (getMiddle y' k) ≤ E * (1.002 * κ) := by
    apply mul_le_mul_of_nonneg_left _ (by linarith)
    refine s2.trans ?_
    nlinarith
  have a3 : E * κ ≤ E * κ ^ 2 := mul_le_mul_of_nonneg_left (by nlinarith) (by linarith)
  nlinarith

theorem supportSizeD_eq (hfl : RoundsToNearest fl) {q : Img} (ho : AddsEach ord q d) (hd : d ≤ 10 ^ 9) {y y' : Img} (hz : y.h = q.h ∧ y.w = q.w)
    {κ : ℝ} (k1 : 1 ≤ κ)
    (hκ : κ * sumError d ≤ 1e-3) (hn : NearImg (2 * κ * sumError d) y' y) (hg : grossSum y ≤ κ) {sizes : List ℕ}
    (hm : ∀ k ∈ sizes, 5 * κ ^ 2 * sumError d < |(getMiddle y k).sum - 0.95|) :
    supportSizeD fl ord y' sizes = supportSize y sizes := by
  have e0 := sumError_pos d
  have f : |fl 0.95 - 0.95| ≤ κ ^ 2 * sumError d := by
    refine (fl_close hfl (x := 0.95) (B := 1) (by rw [abs_of_nonneg] <;> norm_num)).trans ?_
    nlinarith
  induction sizes with
  | nil => rfl
  | cons k ks ih =>
    cases ks with
    | nil => rfl
    | cons k' ks =>
      have s := share_near hfl ho hd hz k1 hκ hn hg k
      have m := hm k (by simp)
      have c : fl 0.95 < imgSumD fl ord (getMiddle y' k) ↔ 0.95 < (getMiddle y k).sum := by
        rw [abs_le] at s f
        rcases lt_abs.mp m with m | m
        · exact ⟨fun _ => by nlinarith, fun _ => by linarith⟩
        · exact ⟨fun h => by linarith, fun h => by nlinarith⟩
      unfold supportSizeD supportSize
      rw [ih fun k hk => hm k (by simp [hk])]
      by_cases h : 0.95 < (getMiddle y k).sum
      · rw [if_pos h, if_pos (c.mpr h)]
      · rw [if_neg h, if_neg fun h' => h (c.mp h')]

/-! ## The kernel -/

/-- **C145** (kernel): if no candidate crop holds close to 95 % of the point spread function, the computed kernel has the size
of the exact one, and each of its entries has a relative error of at most `13 κ² (d + 1) 1.5e-16`. -/
theorem C145_kernel (hfl : RoundsToNearest fl) {q : Img} (ho : AddsEach ord q d) (hd : d ≤ 10 ^ 9) {psf f : Img} {κ : ℝ} {k : ℕ} {sizes : List ℕ}
    (hq : Conditioned q κ) (hκ : κ ^ 2 * sumError d ≤ 1e-4) (h1 : normalize q = .ok psf) (h2 : supportSize psf sizes = .ok k)
    (h3 : normalize (getMiddle psf k) = .ok f) (hhalf : 1 / 2 ≤ (getMiddle psf k).sum)
    (hm : ∀ k ∈ sizes, 5 * κ ^ 2 * sumError d < |(getMiddle psf k).sum - 0.95|) :
    ∃ f', finishPsfD fl ord q sizes = .ok f' ∧ f'.h = f.h ∧ f'.w = f.w
      ∧ ∀ i j, |f'.px i j - f.px i j| ≤ 13 * κ ^ 2 * sumError d * |f.px i j| := by
  have k1 := conditioned_one hq
  have e0 := sumError_pos d
  have kk : κ * sumError d ≤ κ ^ 2 * sumError d := mul_le_mul_of_nonneg_right (by nlinarith) (by linarith)
  have hκ' : κ * sumError d ≤ 1e-3 := by linarith
  obtain ⟨y, y', n1, n2, n3, n4, n5⟩ := normalizeD_near hfl ho hd hq hκ'
  rw [h1, Except.ok.injEq] at n1
  subst n1
  have s := share_near hfl ho hd n4 k1 hκ' n3 n5 k
  have hs : 0 < (getMiddle psf k).sum := by linarith
  have c : |imgSumD fl ord (getMiddle y' k) - (getMiddle psf k).sum| ≤ 8 * κ ^ 2 * sumError d * (getMiddle psf k).sum := by
    refine s.trans ?_
    have z : 0 ≤ κ ^ 2 * sumError d := by positivity
    nlinarith
  have hp : 0 < imgSumD fl ord (getMiddle y' k) := by
    rw [abs_le] at c
    nlinarith
  have nm := n3.middle k
  unfold normalize at h3
  rw [if_neg hs.ne', Except.ok.injEq] at h3
  subst h3
  refine ⟨{ getMiddle y' k with px := fun i j => fl ((getMiddle y' k).px i j / imgSumD fl ord (getMiddle y' k)) }, ?_, nm.h, nm.w, ?_⟩
  · unfold finishPsfD
    simp only [bind, Except.bind]
    rw [n2]
    simp only
    rw [supportSizeD_eq hfl ho hd n4 k1 hκ' n3 n5 hm, h2]
    exact if_neg hp.ne'
  · intro i j
    have := quotient_near hfl hs (nm.px i j) c (by positivity) (by linarith) (by positivity) (by linarith)
    refine this.trans (mul_le_mul_of_nonneg_right ?_ (abs_nonneg _))
    nlinarith

/-- **C145** (sum): the entries of the computed kernel add up to 1 within `26 κ³ (d + 1) 1.5e-16`. -/
theorem C145_sum (hfl : RoundsToNearest fl) {q : Img} (ho : AddsEach ord q d) (hd : d ≤ 10 ^ 9) {psf f : Img} {κ : ℝ} {k : ℕ} {sizes : List ℕ}
    (hq : Conditioned q κ) (hκ : κ ^ 2 * sumError d ≤ 1e-4) (h1 : normalize q = .ok psf) (h2 : supportSize psf sizes = .ok k)
    (h3 : normalize (getMiddle psf k) = .ok f) (hhalf : 1 / 2 ≤ (getMiddle psf k).sum)
    (hm : ∀ k ∈ sizes, 5 * κ ^ 2 * sumError d < |(getMiddle psf k).sum - 0.95|) :
    ∃ f', finishPsfD fl ord q sizes = .ok f' ∧ |f'.sum - 1| ≤ 26 * κ ^ 3 * sumError d ∧ grossSum f' ≤ 2.01 * κ := by
  obtain ⟨f', g1, g2, g3, g4⟩ := C145_kernel hfl ho hd hq hκ h1 h2 h3 hhalf hm
  have k1 := conditioned_one hq
  have e0 := sumError_pos d
  have hs : 0 < (getMiddle psf k).sum := by linarith
  have gp : grossSum psf ≤ κ := by
    obtain ⟨a, b⟩ := hq
    unfold normalize at h1
    rw [if_neg a.ne', Except.ok.injEq] at h1
    subst h1
    unfold grossSum
    simp only [abs_div, abs_of_pos a, ← Finset.sum_div]
    rw [div_le_iff₀ a]
    exact b
  have gm := (middle_gross psf k).trans gp
  have ff : f.sum = 1 ∧ grossSum f ≤ 2 * κ := by
    unfold normalize at h3
    rw [if_neg hs.ne', Except.ok.injEq] at h3
    subst h3
    constructor
    · unfold Img.sum
      simp only [← Finset.sum_div]
      exact div_self hs.ne'
    · unfold grossSum
      simp only [abs_div, abs_of_pos hs, ← Finset.sum_div]
      rw [div_le_iff₀ hs]
      refine gm.trans ?_
      nlinarith
  have n : NearImg (13 * κ ^ 2 * sumError d) f' f := ⟨g2, g3, g4⟩
  obtain ⟨s1, s2⟩ := n.sums
  rw [ff.1] at s1
  have z : 0 ≤ κ ^ 2 * sumError d := by positivity
  refine ⟨f', g1, s1.trans ?_, s2.trans ?_⟩
  · calc 13 * κ ^ 2 * sumError d * grossSum f ≤ 13 * κ ^ 2 * sumError d * (2 * κ) := mul_le_mul_of_nonneg_left ff.2 (by positivity)
      _ = 26 * κ ^ 3 * sumError d := by ring
  · have := grossSum_nonneg f
    nlinarith

/-- **C145** (flat scenes): an image of the one value `v`, blurred in double precision with the computed kernel, stays `v` within
`30 κ³ (d + 1) 1.5e-16 |v|`. -/
theorem C145_flat (hfl : RoundsToNearest fl) {q : Img} (ho : AddsEach ord q d) (hd : d ≤ 10 ^ 9) {psf f : Img} {κ : ℝ} {k : ℕ} {sizes : List ℕ}
    (hq : Conditioned q κ) (hκ : κ ^ 2 * sumError d ≤ 1e-4) (h1 : normalize q = .ok psf) (h2 : supportSize psf sizes = .ok k)
    (h3 : normalize (getMiddle psf k) = .ok f) (hhalf : 1 / 2 ≤ (getMiddle psf k).sum)
    (hm : ∀ k ∈ sizes, 5 * κ ^ 2 * sumError d < |(getMiddle psf k).sum - 0.95|) {x : Img} (x1 : x.h ≠ 0) (x2 : x.w ≠ 0) {v : ℝ}
    (hx : Within x v v) {order : SumTree} (hdep : order.depth ≤ d) (hord : order.leaves.Perm (List.range (f.h * f.w))) :
    ∃ f' b', finishPsfD fl ord q sizes = .ok f' ∧ filter2DD fl order x f' = .ok b' ∧ b'.h = x.h ∧ b'.w = x.w
      ∧ ∀ i < x.h, ∀ j < x.w, |b'.px i j - v| ≤ 30 * κ ^ 3 * sumError d * |v| := by
  obtain ⟨f', g1, g2, g3, -⟩ := C145_kernel hfl ho hd hq hκ h1 h2 h3 hhalf hm
  obtain ⟨f'', g1', g5, g6⟩ := C145_sum hfl ho hd hq hκ h1 h2 h3 hhalf hm
  rw [g1, Except.ok.injEq] at g1'
  subst g1'
  have k1 := conditioned_one hq
  have e0 := sumError_pos d
  have c4 : κ ^ 3 * sumError d ≤ 1e-4 * κ := by
    have := mul_le_mul_of_nonneg_right hκ (by linarith : 0 ≤ κ)
    nlinarith
  have fs : f.sum = 1 := by
    have hs : 0 < (getMiddle psf k).sum := by linarith
    unfold normalize at h3
    rw [if_neg hs.ne', Except.ok.injEq] at h3
    subst h3
    unfold Img.sum
    simp only [← Finset.sum_div]
    exact div_self hs.ne'
  have z1 : f.h ≠ 0 := by
    intro e
    unfold Img.sum at fs
    rw [e] at fs
    simp at fs
  have z2 : f.w ≠ 0 := by
    intro e
    unfold Img.sum at fs
    rw [e] at fs
    simp at fs
  obtain ⟨b, hb, b1, b2, b3, -⟩ := filter2D_ok (x := x) (k := f') x1 x2 (by rw [g2]; exact z1) (by rw [g3]; exact z2)
  have hM : Bounded x |v| := by
    intro i hi j hj
    obtain ⟨a, b⟩ := hx i hi j hj
    rw [le_antisymm b a]
  obtain ⟨b', hb', c⟩ := C144_blur hfl (by rw [g2, g3]; exact hord) (hdep.trans hd) hM hb
  refine ⟨f', b', g1, hb', c.h.trans b1, c.w.trans b2, fun i hi j hj => ?_⟩
  have p := c.px i (by rw [b1]; exact hi) j (by rw [b2]; exact hj)
  rw [b3 v hx] at p
  have t := abs_sub_le (b'.px i j) (f'.sum * v) v
  have e : |f'.sum * v - v| = |f'.sum - 1| * |v| := by rw [← abs_mul]; ring_nf
  have r1 : |f'.sum - 1| * |v| ≤ 26 * κ ^ 3 * sumError d * |v| := mul_le_mul_of_nonneg_right g5 (abs_nonneg v)
  have dd : ((order.depth : ℝ) + 1) * 1.5e-16 ≤ sumError d := by
    unfold sumError
    have : (order.depth : ℝ) ≤ d := by exact_mod_cast hdep
    linarith
  have r2 : ((order.depth : ℝ) + 1) * 1.5e-16 * (grossSum f' * |v|) ≤ sumError d * (2.01 * κ * |v|) :=
    mul_le_mul dd (mul_le_mul_of_nonneg_right g6 (abs_nonneg v)) (mul_nonneg (grossSum_nonneg _) (abs_nonneg v)) (by linarith)
  have r3 : sumError d * (2.01 * κ * |v|) ≤ 4 * κ ^ 3 * sumError d * |v| := by
    have k3 : κ ≤ κ ^ 3 := le_self_pow₀ k1 (by norm_num)
    have w : 0 ≤ sumError d * |v| := mul_nonneg (by linarith) (abs_nonneg v)
    nlinarith
  linarith

/-- **C145** (no negative entries): if no entry of the resampled transform is negative, no entry of the computed kernel is. -/
theorem C145_nonneg (hfl : RoundsToNearest fl) {q f' : Img} (ho : AddsEach ord q d) {sizes : List ℕ} (hq : ∀ i < q.h, ∀ j < q.w, 0 ≤ q.px i j)
    (h : finishPsfD fl ord q sizes = .ok f') : ∀ i < f'.h, ∀ j < f'.w, 0 ≤ f'.px i j := by
  have sum : ∀ x : Img, x.h ≤ q.h → x.w ≤ q.w → (∀ i < x.h, ∀ j < x.w, 0 ≤ x.px i j) → 0 ≤ imgSumD fl ord x := by
    intro x x1 x2 hx
    unfold imgSumD
    apply sumD_nonneg hfl
    intro n hn
    have hn' : n < x.h * x.w := List.mem_range.mp ((ho x.h x1 x.w x2).1.subset hn)
    have hw : 0 < x.w := by
      rcases Nat.eq_zero_or_pos x.w with e | e
      · rw [e] at hn'; simp at hn'
      · exact e
    exact hx _ (Nat.div_lt_of_lt_mul (by rwa [Nat.mul_comm])) _ (Nat.mod_lt _ hw)
  have norm : ∀ x y : Img, x.h ≤ q.h → x.w ≤ q.w → (∀ i < x.h, ∀ j < x.w, 0 ≤ x.px i j) → normalizeD fl ord x = .ok y →
      (y.h = x.h ∧ y.w = x.w) ∧ ∀ i < y.h, ∀ j < y.w, 0 ≤ y.px i j := by
    intro x y x1 x2 hx hy
    unfold normalizeD at hy
    split_ifs at hy
    rw [Except.ok.injEq] at hy
    subst hy
    exact ⟨⟨rfl, rfl⟩, fun i hi j hj => fl_nonneg hfl (div_nonneg (hx i hi j hj) (sum x x1 x2 hx))⟩
  unfold finishPsfD at h
  simp only [bind, Except.bind] at h
  split at h
  · cases h
  rename_i psf hp
  split at h
  · cases h
  rename_i k hk
  obtain ⟨⟨z1, z2⟩, pn⟩ := norm q psf le_rfl le_rfl hq hp
  have ms := middle_size psf k
  refine (norm _ _ (by omega) (by omega) ?_ h).2
  intro i hi j hj
  have s1 := slice_le psf.h (((psf.h : ℤ) + k + 1) / 2)
  have s2 := slice_le psf.w (((psf.w : ℤ) + k + 1) / 2)
  unfold getMiddle at hi hj ⊢
  dsimp only at hi hj ⊢
  exact pn _ (by omega) _ (by omega)

end PyBSM
