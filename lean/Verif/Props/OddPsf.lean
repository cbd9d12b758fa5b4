import Verif.Spec.OddPsf
import Verif.Props.PsfBlur
import Verif.Props.Registration
import Verif.Props.Coarse

/-!
# C137: what an odd number of OTF samples does to the point spread function; mirror images
-/

noncomputable section

open Classical

namespace PyBSM

open Spec

/-! ## Odd sizes -/

/-- **C137** (transform): for odd sizes, the transform of the transfer function of a point spread function is not that point
spread function but its product with a cosine wave along the diagonal. -/
theorem C137_transform {M : ℕ} (hM : 10 < M) (oM : Odd M) {h : ℤ → ℤ → ℝ} (hp : PointSpread h) {i j : ℕ} (hi : i < M)
    (hj : j < M) : (rawPsf M M (transfer M M h)).px i j = waved M h ((i : ℤ) - (M / 2 : ℕ)) ((j : ℤ) - (M / 2 : ℕ)) := by
  rw [C45_transform (by omega) (by omega), centred_transfer hM hM hp hi hj, Nat.odd_iff.mp oM, Complex.re_ofReal_mul]
  unfold waved
  congr 1
  have : -(2 * (Real.pi : ℂ) * Complex.I) * (((1 : ℕ) : ℂ) * ((i : ℂ) - (M / 2 : ℕ)) / M
        + ((1 : ℕ) : ℂ) * ((j : ℂ) - (M / 2 : ℕ)) / M)
      = ((-(2 * Real.pi * ((((i : ℤ) - (M / 2 : ℕ)) + ((j : ℤ) - (M / 2 : ℕ)) : ℤ) : ℝ) / M) : ℝ) : ℂ) * Complex.I := by
    generalize M / 2 = c
    push_cast
    ring
  rw [this, Complex.exp_ofReal_mul_I_re, Real.cos_neg]

theorem native_scaled {M : ℕ} (hM : 10 < M) {df dxOut : Scal} {d : ℝ} (hd : df.val = .fin d) (hd0 : d ≠ 0)
    (ho : dxOut.val = .fin (1 / (M * d))) {otf : ℕ → ℕ → ℂ} {S : ℝ} (hS : S ≠ 0) (hsum : (rawPsf M M otf).sum = S)
    (hmid : (middle (rawPsf M M otf) 10).sum = S) :
    ∃ p, otfToPsf true M M otf df dxOut = .ok p ∧ p.h = 10 + (M - 10) % 2 ∧ p.w = 10 + (M - 10) % 2
      ∧ ∀ i < p.h, ∀ j < p.w, p.px i j = (middle (rawPsf M M otf) 10).px i j / S := by
  have hM0 : (M : ℝ) ≠ 0 := by positivity
  have hx : (Scal.py (.fin (M : ℝ)) * df).val = .fin (M * d) := by
    rw [Scal.val_mul, hd]; exact XR.fin_mul _ _
  obtain ⟨q, e1, e2⟩ := Scal.div_fin (a := .py 1) (x := 1) rfl hx (mul_ne_zero hM0 hd0)
  have hy : (Scal.py (.fin (M : ℝ)) * q).val = .fin (M * (1 / (M * d))) := by
    rw [Scal.val_mul, e2]; exact XR.fin_mul _ _
  have ho0 : (1 : ℝ) / (M * d) ≠ 0 := one_div_ne_zero (mul_ne_zero hM0 hd0)
  obtain ⟨sx, e3, e4⟩ := Scal.div_fin hy ho ho0
  have e5 : (M : ℝ) * (1 / (M * d)) / (1 / (M * d)) = M := by field_simp
  rw [e5] at e4
  have e6 : pyInt sx.val = .ok M := by
    rw [e4]
    unfold pyInt
    dsimp only
    rw [if_pos (Nat.cast_nonneg M), Int.floor_natCast]
  obtain ⟨r, e7, -, -, -, e8⟩ := cvResize_ok (x := rawPsf M M otf) (nw := M) (nh := M)
    (by show M ≠ 0; omega) (by show M ≠ 0; omega) (by omega) (by omega)
  have hr : SameImg r (rawPsf M M otf) := e8 rfl rfl
  have rs : r.sum = S := (sum_congr hr).trans hsum
  have r1 : r.h = M := hr.h
  have r2 : r.w = M := hr.w
  obtain ⟨z, hz⟩ : ∃ z : Img, z = { r with px := fun i j => r.px i j / r.sum } := ⟨_, rfl⟩
  have e9 : normalize r = .ok z := by
    rw [hz]
    exact if_neg (by rw [rs]; exact hS)
  have z1 : z.h = M := by rw [hz]; exact r1
  have z2 : z.w = M := by rw [hz]; exact r2
  have m1 : (getMiddle z 10).h = 10 + (M - 10) % 2 := by
    rw [getMiddle_middle (by omega) (by omega)]
    show 10 + (z.h - 10) % 2 = _
    rw [z1]
  have m2 : (getMiddle z 10).w = 10 + (M - 10) % 2 := by
    rw [getMiddle_middle (by omega) (by omega)]
    show 10 + (z.w - 10) % 2 = _
    rw [z2]
  have zm : ∀ i < 10 + (M - 10) % 2, ∀ j < 10 + (M - 10) % 2,
      (getMiddle z 10).px i j = (middle (rawPsf M M otf) 10).px i j / S := by
    intro i hi j hj
    rw [getMiddle_middle (by omega) (by omega)]
    show z.px ((z.h - 10) / 2 + i) ((z.w - 10) / 2 + j) = (rawPsf M M otf).px ((M - 10) / 2 + i) ((M - 10) / 2 + j) / S
    rw [z1, z2, ← hr.px _ (by omega) _ (by omega), ← rs, hz]
  have zs : (getMiddle z 10).sum = 1 := by
    rw [← div_self hS]
    nth_rw 1 [← hmid]
    unfold Img.sum
    rw [m1, m2, Finset.sum_div]
    refine Finset.sum_congr rfl fun i hi => ?_
    rw [Finset.sum_div]
    exact Finset.sum_congr rfl fun j hj => zm i (Finset.mem_range.mp hi) j (Finset.mem_range.mp hj)
  refine ⟨getMiddle z 10, ?_, m1, m2, fun i hi j hj => zm i (by omega) j (by omega)⟩
  have hmax : max 1 (M : ℤ).toNat = M := by rw [Int.toNat_natCast]; omega
  have hs : supportSize z (arange10 M) = .ok 10 := supportSize_head hM (by rw [zs]; norm_num)
  unfold otfToPsf
  simp only [Bool.not_true, Bool.false_eq_true, if_false, e1, ok_bind, e3, e6, hmax, e7, e9, min_self, hs]
  exact normalize_one zs

theorem waved_support {M : ℕ} {h : ℤ → ℤ → ℝ} (hp : PointSpread h) (a b : ℤ)
    (hab : ¬ (-5 ≤ a ∧ a ≤ 4 ∧ -5 ≤ b ∧ b ≤ 4)) : waved M h a b = 0 := by
  unfold waved
  rw [hp.support a b hab, zero_mul]

/-- **C137** (`otf_to_psf`): for every odd size above 10, `otf_to_psf` of the transfer function of a point spread function,
at the OTF's own spacing, returns the product of that point spread function with the cosine wave, rescaled to sum 1, in
11 x 11 pixels with the centre at `(5, 5)`. -/
theorem C137_psf {M : ℕ} (hM : 10 < M) (oM : Odd M) {h : ℤ → ℤ → ℝ} (hp : PointSpread h) (hS : totalOf (waved M h) ≠ 0)
    {df dxOut : Scal} {d : ℝ} (hd : df.val = .fin d) (hd0 : d ≠ 0) (ho : dxOut.val = .fin (1 / (M * d))) :
    ∃ p, otfToPsf true M M (transfer M M h) df dxOut = .ok p ∧ p.h = 11 ∧ p.w = 11
      ∧ ∀ i < 11, ∀ j < 11, p.px i j = waved M h ((i : ℤ) - 5) ((j : ℤ) - 5) / totalOf (waved M h) := by
  obtain ⟨c, hc⟩ := oM
  have hc2 : M / 2 = c := by omega
  have oM : Odd M := ⟨c, hc⟩
  have raw : ∀ i < M, ∀ j < M, (rawPsf M M (transfer M M h)).px i j = waved M h ((i : ℤ) - c) ((j : ℤ) - c) := by
    intro i hi j hj
    rw [C137_transform hM oM hp hi hj, hc2]
  have s1 : (rawPsf M M (transfer M M h)).sum = totalOf (waved M h) := by
    unfold Img.sum totalOf
    rw [← sum_offsets2 (m := M) (n := M) (c := c) (d := c) (by omega) (by omega) (by omega) (by omega) (waved_support hp)]
    exact Finset.sum_congr rfl fun i hi => Finset.sum_congr rfl fun j hj =>
      raw i (Finset.mem_range.mp hi) j (Finset.mem_range.mp hj)
  have e : 10 + (M - 10) % 2 = 11 := by omega
  have mid : SameImg (middle (rawPsf M M (transfer M M h)) 10) ⟨11, 11, fun i j => waved M h ((i : ℤ) - 5) ((j : ℤ) - 5)⟩ := by
    refine ⟨e, e, fun i hi j hj => ?_⟩
    have hi' : i < 10 + (M - 10) % 2 := hi
    have hj' : j < 10 + (M - 10) % 2 := hj
    show (rawPsf M M (transfer M M h)).px ((M - 10) / 2 + i) ((M - 10) / 2 + j) = waved M h _ _
    rw [raw _ (by omega) _ (by omega)]
    congr 1 <;> omega
  have s2 : (middle (rawPsf M M (transfer M M h)) 10).sum = totalOf (waved M h) := by
    rw [sum_congr mid]
    exact sum_offsets2 (m := 11) (n := 11) (c := 5) (d := 5) (by omega) (by omega) (by omega) (by omega) (waved_support hp)
  obtain ⟨p, e1, e2, e3, e4⟩ := native_scaled hM hd hd0 ho hS s1 s2
  rw [e] at e2 e3
  refine ⟨p, e1, e2, e3, fun i hi j hj => ?_⟩
  rw [e4 i (by omega) j (by omega)]
  congr 1
  exact mid.px i (by show i < 10 + (M - 10) % 2; omega) j (by show j < 10 + (M - 10) % 2; omega)

/-- **C137** (blur): with the transfer function of a point spread function `h` of odd size above 10, a frequency spacing
matching the image's pixels, and a camera whose field of view per pixel is that of the image, every pixel becomes the mean
of the pixels around it with the weights of `h` times the cosine wave, not with those of `h` (C85 is the case of even
sizes). Images of 6 pixels a side or more, continued beyond the border by reflection. -/
theorem C137_blur {x : Img} (hxh : 6 ≤ x.h) (hxw : 6 ≤ x.w) {M : ℕ} (hM : 10 < M) (oM : Odd M) {h : ℤ → ℤ → ℝ}
    (hp : PointSpread h) (hS : totalOf (waved M h) ≠ 0) {gsd range df ifov : Scal} {g r : ℝ} (hg : gsd.val = .fin g)
    (hr : range.val = .fin r) (hg0 : 0 < g) (hr0 : 0 < r) (hd : df.val = .fin (1 / (M * (2 * Real.arctan (g / 2 / r)))))
    (hi : ifov.val = .fin (g / r)) :
    ∃ sim sp, applyOtfToImage true x gsd range M M (transfer M M h) df ifov = .ok (sim, sp) ∧ sim.h = x.h ∧ sim.w = x.w
      ∧ (∀ y < x.h, ∀ c < x.w, sim.px y c = ∑ a ∈ Finset.Icc (-5 : ℤ) 4, ∑ b ∈ Finset.Icc (-5 : ℤ) 4,
          waved M h a b / totalOf (waved M h) * x.px (mirrored x.h ((y : ℤ) + a)) (mirrored x.w ((c : ℤ) + b)))
      ∧ sp.h = 11 ∧ sp.w = 11
      ∧ ∀ i < 11, ∀ j < 11, sp.px i j = waved M h ((i : ℤ) - 5) ((j : ℤ) - 5) / totalOf (waved M h) := by
  have hM0 : (0 : ℝ) < M := by
    have : 0 < M := by omega
    positivity
  have hat : 0 < Real.arctan (g / 2 / r) := by
    rw [← Real.arctan_zero]; exact Real.arctan_strictMono (by positivity)
  obtain ⟨half, a1, a2⟩ := Scal.div_fin hg (b := .py 2) (y := 2) rfl two_ne_zero
  obtain ⟨q, a3, a4⟩ := Scal.div_fin a2 hr hr0.ne'
  obtain ⟨dxIn, a5, a6⟩ := Scal.div_fin hg hr hr0.ne'
  have hq : (2 * q.val.arctan : XR) = .fin (2 * Real.arctan (g / 2 / r)) := by
    rw [a4]
    show (2 : XR) * .fin (Real.arctan (g / 2 / r)) = _
    exact XR.fin_mul _ _
  obtain ⟨psf, b1, b2, b3, b4⟩ := C137_psf hM oM hp hS hd (by positivity)
    (dxOut := .np (.fin (2 * Real.arctan (g / 2 / r)))) (by
      rw [Scal.val_np, XR.fin_inj]; field_simp)
  obtain ⟨blur, c1, -⟩ := filter2D_ok (x := x) (k := psf) (by omega) (by omega) (by omega) (by omega)
  obtain ⟨-, -, c2, c3, cb⟩ := filter2D_px c1
  obtain ⟨sim, d1, d2⟩ := C46_identity blur (by omega) (by omega) a6 hi (by positivity)
  obtain ⟨sp, d3, d4⟩ := C46_identity psf (by omega) (by omega) a6 hi (by positivity)
  have s1 : sp.h = 11 := d4.h.trans b2
  have s2 : sp.w = 11 := d4.w.trans b3
  refine ⟨sim, sp, ?_, d2.h.trans c2, d2.w.trans c3, ?_, s1, s2, fun i hi j hj => ?_⟩
  · unfold applyOtfToImage
    simp only [Bool.not_true, Bool.false_eq_true, if_false, a1, ok_bind, a3, hq, b1, c1, a5, d1, d3]
  · intro y y1 c w1
    have e1 := d2.h
    have e2 := d2.w
    rw [d2.px y (by omega) c (by omega), cb y c, b2, b3,
      ← sum_offsets2 (m := 11) (n := 11) (c := 5) (d := 5) (by omega) (by omega) (by omega) (by omega)
        (g := fun a b => waved M h a b / totalOf (waved M h) * x.px (mirrored x.h ((y : ℤ) + a)) (mirrored x.w ((c : ℤ) + b)))
        fun a b hab => by rw [waved_support hp a b hab, zero_div, zero_mul]]
    refine Finset.sum_congr rfl fun i hi => Finset.sum_congr rfl fun j hj => ?_
    rw [Finset.mem_range] at hi hj
    rw [b4 i hi j hj]
    rw [reflect101_mirrored (by omega) (by omega), reflect101_mirrored (by omega) (by omega)]
    have k1 : (y : ℤ) + i - (11 / 2 : ℕ) = (y : ℤ) + (i - (5 : ℕ)) := by omega
    have k2 : (c : ℤ) + j - (11 / 2 : ℕ) = (c : ℤ) + (j - (5 : ℕ)) := by omega
    rw [k1, k2]
    rfl
  · rw [d4.px i (by omega) j (by omega), b4 i hi j hj]

/-- **C137** (how far off): for a point spread function without negative shares, each weight is the right one but for a
factor between `1 - 2000 / M²` and its inverse, less than 0.1 % for the simulator's 1501 samples. -/
theorem C137_close {M : ℕ} (hM : 45 ≤ M) {h : ℤ → ℤ → ℝ} (hp : PointSpread h) (h0 : ∀ a b, 0 ≤ h a b) (a b : ℤ) :
    0 < totalOf (waved M h)
    ∧ (1 - 2000 / (M : ℝ) ^ 2) * h a b ≤ waved M h a b / totalOf (waved M h)
    ∧ waved M h a b / totalOf (waved M h) ≤ h a b / (1 - 2000 / (M : ℝ) ^ 2) := by
  have hM0 : (45 : ℝ) ≤ M := by exact_mod_cast hM
  have hε : 0 < 1 - 2000 / (M : ℝ) ^ 2 := by
    rw [sub_pos, div_lt_one (by positivity)]
    nlinarith
  have low : ∀ a b, (1 - 2000 / (M : ℝ) ^ 2) * h a b ≤ waved M h a b ∧ waved M h a b ≤ h a b := by
    intro a b
    unfold waved
    refine ⟨?_, mul_le_of_le_one_right (h0 a b) (Real.cos_le_one _)⟩
    by_cases hab : -5 ≤ a ∧ a ≤ 4 ∧ -5 ≤ b ∧ b ≤ 4
    · rw [mul_comm]
      refine mul_le_mul_of_nonneg_left ?_ (h0 a b)
      refine le_trans ?_ (Real.one_sub_sq_div_two_le_cos)
      have h1 : (((a + b : ℤ) : ℝ)) ^ 2 ≤ 100 := by
        have : (a + b) ^ 2 ≤ 100 := by nlinarith [hab.1, hab.2.1, hab.2.2.1, hab.2.2.2]
        exact_mod_cast this
      have h2 : Real.pi ^ 2 ≤ 10 := by
        have := Real.pi_lt_d2
        have := Real.pi_pos
        nlinarith
      have h3 : (2 * Real.pi * ((a + b : ℤ) : ℝ) / M) ^ 2 / 2 ≤ 2000 / (M : ℝ) ^ 2 := by
        rw [div_pow, div_div, mul_comm ((M : ℝ) ^ 2) 2, ← div_div]
        apply div_le_div_of_nonneg_right _ (by positivity)
        have : Real.pi ^ 2 * (((a + b : ℤ) : ℝ)) ^ 2 ≤ 10 * 100 := by
          apply mul_le_mul h2 h1 (by positivity) (by norm_num)
        nlinarith
      linarith
    · rw [hp.support a b hab]; simp
  have t1 : 1 - 2000 / (M : ℝ) ^ 2 ≤ totalOf (waved M h) := by
    have : (1 - 2000 / (M : ℝ) ^ 2) * totalOf h ≤ totalOf (waved M h) := by
      unfold totalOf
      rw [Finset.mul_sum]
      refine Finset.sum_le_sum fun a _ => ?_
      rw [Finset.mul_sum]
      exact Finset.sum_le_sum fun b _ => (low a b).1
    rw [show totalOf h = 1 from hp.total] at this
    linarith
  have t2 : totalOf (waved M h) ≤ 1 := by
    rw [← hp.total]
    exact Finset.sum_le_sum fun a _ => Finset.sum_le_sum fun b _ => (low a b).2
  have t0 := hε.trans_le t1
  refine ⟨t0, ?_, ?_⟩
  · rw [le_div_iff₀ t0]
    refine le_trans ?_ (low a b).1
    exact mul_le_of_le_one_right (mul_nonneg hε.le (h0 a b)) t2
  · exact div_le_div₀ (h0 a b) (low a b).2 hε t1

/-! ## Mirror images -/

theorem cvResize_mirror {x x' y : Img} {a b : ℕ} (hx : SameImg x' (leftRight x)) (h : cvResize x a b = .ok y) :
    ∃ y', cvResize x' a b = .ok y' ∧ SameImg y' (leftRight y) := by
  obtain ⟨p1, p2⟩ := cvResize_src h
  obtain ⟨s1, s2⟩ := cvResize_size h
  have hh : x'.h = x.h := hx.h
  have hw : x'.w = x.w := hx.w
  have hz : ¬ (x.h = 0 ∨ x.w = 0 ∨ a = 0 ∨ b = 0) := by
    intro hz
    unfold cvResize at h
    rw [if_pos hz] at h
    cases h
  have hy' : ∃ y', cvResize x' a b = .ok y' := by
    unfold cvResize
    rw [hh, hw, if_neg hz]
    exact ⟨_, rfl⟩
  obtain ⟨y', hy'⟩ := hy'
  obtain ⟨t1, t2⟩ := cvResize_size hy'
  refine ⟨y', hy', t1.trans s1.symm, t2.trans s2.symm, fun i hi j hj => ?_⟩
  rw [t2] at hj
  show _ = y.px i (y.w - 1 - j)
  rw [cvResize_px hy', cvResize_px h, s2, hh, hw]
  refine readAt_congr p1 fun r hr => ?_
  rw [readAt_turned p2 hj]
  exact readAt_congr p2 fun c hc => hx.px r (by omega) c (by omega)

theorem filter2D_mirror {x x' k y : Img} (hx : SameImg x' (leftRight x)) (hk : SameImg k (leftRight k))
    (o2 : k.w % 2 = 1) (h : filter2D x k = .ok y) : ∃ y', filter2D x' k = .ok y' ∧ SameImg y' (leftRight y) := by
  obtain ⟨p1, p2, s1, s2, e⟩ := filter2D_px h
  have hh : x'.h = x.h := hx.h
  have hw : x'.w = x.w := hx.w
  have kh : k.h ≠ 0 := by
    intro k0
    unfold filter2D at h
    rw [if_pos (by tauto)] at h
    cases h
  obtain ⟨y', hy', -⟩ := filter2D_ok (x := x') (k := k) (by omega) (by omega) kh (by omega)
  obtain ⟨-, -, t1, t2, e'⟩ := filter2D_px hy'
  refine ⟨y', hy', by rw [t1, hh]; exact s1.symm, by rw [t2, hw]; exact s2.symm, fun r hr c hc => ?_⟩
  show _ = y.px r (y.w - 1 - c)
  rw [e, e', s2, hh, hw]
  refine Finset.sum_congr rfl fun i hi => ?_
  rw [← Finset.sum_range_reflect]
  refine Finset.sum_congr rfl fun j hj => ?_
  rw [Finset.mem_range] at hi hj
  rw [← (show k.px i j = k.px i (k.w - 1 - j) from hk.px i hi j hj)]
  congr 1
  have l1 := reflect101_lt p1 ((r : ℤ) + i - (k.h / 2 : ℕ))
  have l2 := reflect101_lt p2 ((c : ℤ) + (k.w - 1 - j : ℕ) - (k.w / 2 : ℕ))
  rw [hx.px _ (by rw [hh]; exact l1) _ (by rw [hw]; exact l2)]
  show x.px _ (x.w - 1 - _) = _
  rw [← reflect101_turned p2]
  congr 2; omega

/-- **C137** (mirror images): if the point spread function that `otf_to_psf` gives for the angle of a reference pixel is its
own mirror image and has an odd number of columns, simulating the mirror image gives the mirror image of the simulated
image, exactly and up to the border. -/
theorem C137_mirror {x : Img} {gsd range df ifov : Scal} {M N : ℕ} {otf : ℕ → ℕ → ℂ} {sim sp : Img}
    (h : applyOtfToImage true x gsd range M N otf df ifov = .ok (sim, sp)) {g r : ℝ} (hg : gsd.val = .fin g)
    (hr : range.val = .fin r) (hr0 : 0 < r) {p : Img}
    (hp : otfToPsf true M N otf df (.np (.fin (pixelAngle g r))) = .ok p) (hs : SameImg p (leftRight p)) (ho : Odd p.w) :
    ∃ sim', applyOtfToImage true (leftRight x) gsd range M N otf df ifov = .ok (sim', sp)
      ∧ SameImg sim' (leftRight sim) := by
  obtain ⟨half, q, psf, blur, dxIn, a1, a2, hq, h3, h4, h5, h6, h7⟩ := apply_parts h hg hr hr0
  rw [Scal.val_np] at hq
  have h3' := h3
  rw [hq, hp, Except.ok.injEq] at h3'
  subst h3'
  obtain ⟨blur', f1, f2⟩ := filter2D_mirror (x' := leftRight x) ⟨rfl, rfl, fun _ _ _ _ => rfl⟩ hs (Nat.odd_iff.mp ho) h4
  obtain ⟨r1, r2⟩ := resample_resize h6
  obtain ⟨sim', s1, s2⟩ := cvResize_mirror f2 r1
  refine ⟨sim', ?_, s2⟩
  unfold applyOtfToImage
  simp only [Bool.not_true, Bool.false_eq_true, if_false]
  rw [a1, ok_bind, a2, ok_bind, h3, ok_bind, f1, ok_bind, h5, ok_bind, r2 blur' f2.h f2.w, s1, ok_bind, h7, ok_bind]

theorem centredPsf_mirror {M N : ℕ} (oN : Odd N) {otf : ℕ → ℕ → ℂ} (h : MirrorSymmetric M N otf) {i j : ℕ}
    (hj : j < N) : centredPsf M N otf i (N - 1 - j) = centredPsf M N otf i j := by
  obtain ⟨n, hn⟩ := oN
  have eN : N / 2 = n := by omega
  unfold centredPsf
  congr 1
  refine Finset.sum_congr rfl fun k hk => ?_
  rw [← Finset.sum_range_reflect]
  refine Finset.sum_congr rfl fun l hl => ?_
  rw [Finset.mem_range] at hk hl
  rw [(h k hk l hl).2.2]
  congr 2
  have c : ∀ {q : ℕ}, q < N → ((N - 1 - q : ℕ) : ℂ) - (n : ℕ) = -((q : ℂ) - (n : ℕ)) := by
    intro q hq
    have : N - 1 - q + q = 2 * n := by omega
    have : ((N - 1 - q : ℕ) : ℂ) + q = 2 * n := by exact_mod_cast this
    linear_combination this
  rw [eN, c hl, c hj]
  ring

/-- **C137** (simulator): without a sharpening kernel, the transform that the simulator derives from its 1501 x 1501 system
OTF, which does not change with the sign of one of the frequencies, is not its own mirror image: the pixel `(i, j)` and its
mirror image differ by the product of the light there and two sines, which are not zero off the two middle lines. -/
theorem C137_simulator {s : RealSensor} (hs : s.Optical) (g : RealScene) {pairs : List (ℝ × ℝ)} (hb : Band pairs) (t c : ℝ)
    {otf : ℕ → ℕ → ℂ} (ho : ∀ i < 1501, ∀ j < 1501,
      otf i j = ((opticsAt s g pairs t (colFreq 1501 c j) (rowFreq 1501 c i) : ℝ) : ℂ)) :
    MirrorSymmetric 1501 1501 otf
    ∧ (∀ i < 1501, ∀ j < 1501, (rawPsf 1501 1501 otf).px i (1500 - j) - (rawPsf 1501 1501 otf).px i j
        = 2 * (centredPsf 1501 1501 otf i j).re * Real.sin (2 * Real.pi * ((i : ℝ) - 750) / 1501)
          * Real.sin (2 * Real.pi * ((j : ℝ) - 750) / 1501))
    ∧ ∀ i : ℕ, i < 1501 → i ≠ 750 → Real.sin (2 * Real.pi * ((i : ℝ) - 750) / 1501) ≠ 0 := by
  have neg : ∀ {q : ℕ}, q < 1501 → (((1501 - 1 - q : ℕ) : ℝ)) - 750 = -((q : ℝ) - 750) := by
    intro q hq
    rw [Nat.cast_sub (by omega)]
    push_cast
    ring
  have hsym : MirrorSymmetric 1501 1501 otf := by
    intro k hk l hl
    refine ⟨by rw [ho k hk l hl, Complex.ofReal_im], ?_, ?_⟩
    · rw [ho k hk l hl, ho _ (by omega) _ hl]
      congr 1
      apply opticsAt_even hs g hb
      · left; rfl
      · right
        unfold rowFreq
        rw [Nat.cast_sub (by omega)]
        push_cast
        ring
    · rw [ho k hk l hl, ho _ hk _ (by omega)]
      congr 1
      apply opticsAt_even hs g hb
      · right
        unfold colFreq
        rw [Nat.cast_sub (by omega)]
        push_cast
        ring
      · left; rfl
  refine ⟨hsym, fun i hi j hj => ?_, fun i hi hne => ?_⟩
  · have hc : centredPsf 1501 1501 otf i (1500 - j) = centredPsf 1501 1501 otf i j :=
      centredPsf_mirror (by decide) hsym hj
    rw [C76_psf hs g hb t c ho, C76_psf hs g hb t c ho, hc]
    have e : (((1500 - j : ℕ) : ℝ)) - 750 = -((j : ℝ) - 750) := neg hj
    rw [e]
    have e1 : 2 * Real.pi * (((i : ℝ) - 750) / 1501 + -((j : ℝ) - 750) / 1501)
        = 2 * Real.pi * ((i : ℝ) - 750) / 1501 - 2 * Real.pi * ((j : ℝ) - 750) / 1501 := by ring
    have e2 : 2 * Real.pi * (((i : ℝ) - 750) / 1501 + ((j : ℝ) - 750) / 1501)
        = 2 * Real.pi * ((i : ℝ) - 750) / 1501 + 2 * Real.pi * ((j : ℝ) - 750) / 1501 := by ring
    rw [e1, e2, Real.cos_sub, Real.cos_add]
    ring
  · rw [Ne, Real.sin_eq_zero_iff]
    rintro ⟨n, hn⟩
    have h1 : (n : ℝ) * 1501 = 2 * ((i : ℝ) - 750) := by
      have := Real.pi_pos
      field_simp at hn
      linarith
    have h2 : n * 1501 = 2 * ((i : ℤ) - 750) := by exact_mod_cast h1
    omega

/-! ## A bright point -/

theorem sum_even (f : ℤ → ℤ → ℂ) : ∑ a ∈ Finset.Icc (-5 : ℤ) 4, ∑ b ∈ Finset.Icc (-5 : ℤ) 4, (evenSpread a b : ℂ) * f a b
    = 1 / 9 * ∑ a ∈ Finset.Icc (-1 : ℤ) 1, ∑ b ∈ Finset.Icc (-1 : ℤ) 1, f a b := by
  have sub : Finset.Icc (-1 : ℤ) 1 ⊆ Finset.Icc (-5 : ℤ) 4 := Finset.Icc_subset_Icc (by norm_num) (by norm_num)
  have z : ∀ a b, ¬ (-1 ≤ a ∧ a ≤ 1 ∧ -1 ≤ b ∧ b ≤ 1) → (evenSpread a b : ℂ) * f a b = 0 := by
    intro a b hab
    unfold evenSpread
    rw [if_neg hab]
    simp
  rw [Finset.mul_sum, ← Finset.sum_subset sub]
  · refine Finset.sum_congr rfl fun a ha => ?_
    rw [Finset.mul_sum, ← Finset.sum_subset sub]
    · refine Finset.sum_congr rfl fun b hb => ?_
      rw [Finset.mem_Icc] at ha hb
      unfold evenSpread
      rw [if_pos ⟨ha.1, ha.2, hb.1, hb.2⟩]
      push_cast
      ring
    · intro b _ hb
      rw [Finset.mem_Icc] at hb
      exact z a b (by tauto)
  · intro a _ ha
    rw [Finset.mem_Icc] at ha
    exact Finset.sum_eq_zero fun b _ => z a b (by tauto)

theorem three (f : ℤ → ℂ) : ∑ a ∈ Finset.Icc (-1 : ℤ) 1, f a = f (-1) + f 0 + f 1 := by
  rw [show Finset.Icc (-1 : ℤ) 1 = {-1, 0, 1} from by decide, Finset.sum_insert (by decide), Finset.sum_insert (by decide),
    Finset.sum_singleton]
  ring

theorem sum_even_real (f : ℤ → ℤ → ℝ) : ∑ a ∈ Finset.Icc (-5 : ℤ) 4, ∑ b ∈ Finset.Icc (-5 : ℤ) 4, evenSpread a b * f a b
    = 1 / 9 * (f (-1) (-1) + f (-1) 0 + f (-1) 1 + (f 0 (-1) + f 0 0 + f 0 1) + (f 1 (-1) + f 1 0 + f 1 1)) := by
  have := sum_even fun a b => (f a b : ℂ)
  simp only [three] at this
  apply Complex.ofReal_injective
  push_cast
  exact this

theorem evenSpread_spread : PointSpread evenSpread := by
  refine ⟨fun a b h => if_neg (by omega), ?_⟩
  have := sum_even_real fun _ _ => 1
  simp only [mul_one] at this
  rw [this]
  norm_num

theorem evenSpread_transfer (M k l : ℕ) : transfer M M evenSpread k l
    = (((1 + 2 * Real.cos (2 * Real.pi * ((k : ℝ) - (M / 2 : ℕ)) / M))
        * (1 + 2 * Real.cos (2 * Real.pi * ((l : ℝ) - (M / 2 : ℕ)) / M)) / 9 : ℝ) : ℂ) := by
  unfold transfer
  rw [sum_even]
  generalize M / 2 = m
  have e : ∀ a b : ℤ, Complex.exp (-(2 * Real.pi * Complex.I) * (((k : ℂ) - m) * a / M + ((l : ℂ) - m) * b / M))
      = Complex.exp (-(2 * Real.pi * Complex.I) * (((k : ℂ) - m) * a / M))
        * Complex.exp (-(2 * Real.pi * Complex.I) * (((l : ℂ) - m) * b / M)) := by
    intro a b
    rw [← Complex.exp_add]
    congr 1
    ring
  simp only [e]
  rw [← Finset.sum_mul_sum, three, three]
  have w : ∀ q : ℕ, Complex.exp (-(2 * Real.pi * Complex.I) * (((q : ℂ) - m) * ((-1 : ℤ) : ℂ) / M))
      + Complex.exp (-(2 * Real.pi * Complex.I) * (((q : ℂ) - m) * ((0 : ℤ) : ℂ) / M))
      + Complex.exp (-(2 * Real.pi * Complex.I) * (((q : ℂ) - m) * ((1 : ℤ) : ℂ) / M))
      = 1 + 2 * Complex.cos (2 * Real.pi * ((q : ℂ) - m) / M) := by
    intro q
    rw [Complex.two_cos]
    have e1 : -(2 * (Real.pi : ℂ) * Complex.I) * (((q : ℂ) - m) * ((-1 : ℤ) : ℂ) / M)
        = 2 * Real.pi * ((q : ℂ) - m) / M * Complex.I := by push_cast; ring
    have e2 : -(2 * (Real.pi : ℂ) * Complex.I) * (((q : ℂ) - m) * ((1 : ℤ) : ℂ) / M)
        = -(2 * Real.pi * ((q : ℂ) - m) / M) * Complex.I := by push_cast; ring
    rw [e1, e2]
    simp only [Int.cast_zero, mul_zero, zero_div, Complex.exp_zero]
    ring
  rw [w, w]
  push_cast
  ring

theorem evenSpread_mirror {M : ℕ} (oM : Odd M) : MirrorSymmetric M M (transfer M M evenSpread) := by
  obtain ⟨m, hm⟩ := oM
  have hm2 : M / 2 = m := by omega
  have c : ∀ q < M, Real.cos (2 * Real.pi * (((M - 1 - q : ℕ) : ℝ) - (M / 2 : ℕ)) / M)
      = Real.cos (2 * Real.pi * ((q : ℝ) - (M / 2 : ℕ)) / M) := by
    intro q hq
    have : M - 1 - q + q = 2 * m := by omega
    have : ((M - 1 - q : ℕ) : ℝ) + q = 2 * m := by exact_mod_cast this
    rw [← Real.cos_neg, hm2]
    congr 1
    rw [show ((M - 1 - q : ℕ) : ℝ) = 2 * m - q by linarith]
    ring
  intro k hk l hl
  simp only [evenSpread_transfer]
  refine ⟨Complex.ofReal_im _, ?_, ?_⟩
  · rw [c k hk]
  · rw [c l hl]

theorem evenSpread_total {M : ℕ} (hM : 10 < M) : 0 < totalOf (waved M evenSpread) := by
  have hM0 : (11 : ℝ) ≤ M := by exact_mod_cast hM
  have hπ := Real.pi_pos
  have hπ2 := Real.pi_lt_d2
  have pos : ∀ t : ℤ, -2 ≤ t → t ≤ 2 → 0 < Real.cos (2 * Real.pi * (t : ℝ) / M) := by
    intro t t1 t2
    have t1 : (-2 : ℝ) ≤ t := by exact_mod_cast t1
    have t2 : (t : ℝ) ≤ 2 := by exact_mod_cast t2
    apply Real.cos_pos_of_mem_Ioo
    constructor
    · rw [lt_div_iff₀ (by linarith)]
      nlinarith
    · rw [div_lt_iff₀ (by linarith)]
      nlinarith
  unfold totalOf waved
  rw [sum_even_real fun a b => Real.cos (2 * Real.pi * ((a + b : ℤ) : ℝ) / M)]
  have := pos ((-1) + (-1)) (by norm_num) (by norm_num)
  have := pos ((-1) + 0) (by norm_num) (by norm_num)
  have := pos ((-1) + 1) (by norm_num) (by norm_num)
  have := pos (0 + (-1)) (by norm_num) (by norm_num)
  have := pos (0 + 0) (by norm_num) (by norm_num)
  have := pos (0 + 1) (by norm_num) (by norm_num)
  have := pos (1 + (-1)) (by norm_num) (by norm_num)
  have := pos (1 + 0) (by norm_num) (by norm_num)
  have := pos (1 + 1) (by norm_num) (by norm_num)
  positivity

/-- **C137** (mirror images, refuted): for every odd size above 10, the OTF of light spread evenly over 3 x 3 pixels, which
does not change with the sign of one of the frequencies, turns a bright point, an image that is its own mirror image, into
an image that is not: the pixel to the lower right of the point and the pixel to its lower left differ, by the factor
`cos (4 π / M)`. -/
theorem C137_bright {M : ℕ} (hM : 10 < M) (oM : Odd M) {gsd range df ifov : Scal} {g r : ℝ} (hg : gsd.val = .fin g)
    (hr : range.val = .fin r) (hg0 : 0 < g) (hr0 : 0 < r) (hd : df.val = .fin (1 / (M * (2 * Real.arctan (g / 2 / r)))))
    (hi : ifov.val = .fin (g / r)) :
    MirrorSymmetric M M (transfer M M evenSpread) ∧ SameImg brightPoint (leftRight brightPoint)
    ∧ ∃ sim sp, applyOtfToImage true brightPoint gsd range M M (transfer M M evenSpread) df ifov = .ok (sim, sp)
      ∧ 0 < sim.px 11 9 ∧ sim.px 11 11 = Real.cos (4 * Real.pi / M) * sim.px 11 9 ∧ Real.cos (4 * Real.pi / M) < 1
      ∧ ¬ SameImg sim (leftRight sim) := by
  have ht := evenSpread_total hM
  have hM0 : (11 : ℝ) ≤ M := by exact_mod_cast hM
  have hπ := Real.pi_pos
  refine ⟨evenSpread_mirror oM, ⟨rfl, rfl, fun i hi j hj => ?_⟩, ?_⟩
  · have hj : j < 21 := hj
    show (if i = 10 ∧ j = 10 then (1 : ℝ) else 0) = if i = 10 ∧ 21 - 1 - j = 10 then 1 else 0
    split_ifs <;> first | rfl | omega
  obtain ⟨sim, sp, h1, h2, h3, h4, -⟩ := C137_blur (x := brightPoint) (by decide) (by decide) hM oM evenSpread_spread ht.ne' hg hr
    hg0 hr0 hd hi
  refine ⟨sim, sp, h1, ?_⟩
  have val : ∀ (c : ℕ) (b : ℤ), c < 21 → -5 ≤ b → b ≤ 4 → (c : ℤ) + b = 10 →
      sim.px 11 c = waved M evenSpread (-1) b / totalOf (waved M evenSpread) := by
    intro c b hc b1 b2 hcb
    rw [h4 11 (by decide) c hc, Finset.sum_eq_single (-1), Finset.sum_eq_single b]
    · have : brightPoint.px (mirrored brightPoint.h (((11 : ℕ) : ℤ) + -1)) (mirrored brightPoint.w ((c : ℤ) + b)) = 1 := by
        rw [hcb]
        show (if mirrored 21 (((11 : ℕ) : ℤ) + -1) = 10 ∧ mirrored 21 10 = 10 then (1 : ℝ) else 0) = 1
        exact if_pos ⟨by decide, by decide⟩
      rw [this, mul_one]
    · intro b' hb' hne
      have : brightPoint.px (mirrored brightPoint.h (((11 : ℕ) : ℤ) + -1)) (mirrored brightPoint.w ((c : ℤ) + b')) = 0 := by
        refine if_neg ?_
        rintro ⟨-, h⟩
        rw [Finset.mem_Icc] at hb'
        unfold mirrored at h
        have hw : brightPoint.w = 21 := rfl
        rw [hw] at h
        split_ifs at h <;> omega
      rw [this, mul_zero]
    · intro h
      exact absurd (Finset.mem_Icc.mpr ⟨b1, b2⟩) h
    · intro a ha hne
      refine Finset.sum_eq_zero fun b' hb' => ?_
      have : brightPoint.px (mirrored brightPoint.h (((11 : ℕ) : ℤ) + a)) (mirrored brightPoint.w ((c : ℤ) + b')) = 0 := by
        refine if_neg ?_
        rintro ⟨h, -⟩
        rw [Finset.mem_Icc] at ha
        unfold mirrored at h
        have hw : brightPoint.h = 21 := rfl
        rw [hw] at h
        split_ifs at h <;> omega
      rw [this, mul_zero]
    · intro h
      exact absurd (Finset.mem_Icc.mpr ⟨by norm_num, by norm_num⟩) h
  have v1 : sim.px 11 9 = 1 / 9 / totalOf (waved M evenSpread) := by
    rw [val 9 1 (by norm_num) (by norm_num) (by norm_num) (by norm_num)]
    unfold waved
    simp [evenSpread]
  have v2 : sim.px 11 11 = Real.cos (4 * Real.pi / M) * (1 / 9 / totalOf (waved M evenSpread)) := by
    rw [val 11 (-1) (by norm_num) (by norm_num) (by norm_num) (by norm_num)]
    have e : waved M evenSpread (-1) (-1) = 1 / 9 * Real.cos (4 * Real.pi / M) := by
      have e0 : evenSpread (-1) (-1) = 1 / 9 := if_pos (by norm_num)
      unfold waved
      rw [e0, ← Real.cos_neg]
      congr 2
      push_cast
      ring
    rw [e]
    ring
  have pos : 0 < sim.px 11 9 := by
    rw [v1]; positivity
  have lt : Real.cos (4 * Real.pi / M) < 1 := by
    rw [← Real.cos_zero]
    apply Real.cos_lt_cos_of_nonneg_of_le_pi le_rfl
    · rw [div_le_iff₀ (by linarith)]
      nlinarith
    · positivity
  refine ⟨pos, by rw [v2, v1], lt, fun hs => ?_⟩
  have e := hs.px 11 (by rw [h2]; decide) 11 (by rw [h3]; decide)
  have e : sim.px 11 11 = sim.px 11 (sim.w - 1 - 11) := e
  rw [h3] at e
  have e : sim.px 11 11 = sim.px 11 9 := e
  rw [v2, ← v1] at e
  nlinarith

/-- `C137_bright`, and with it `C137_psf` and `C137_blur`, apply: the simulator's 1501 samples, a camera and an image with
pixels of the same size. -/
example : ∃ sim sp, applyOtfToImage true brightPoint (.py (.fin 1)) (.py (.fin 1)) 1501 1501 (transfer 1501 1501 evenSpread)
    (.py (.fin (1 / ((1501 : ℕ) * (2 * Real.arctan (1 / 2 / 1)))))) (.py (.fin (1 / 1))) = .ok (sim, sp)
    ∧ ¬ SameImg sim (leftRight sim) := by
  obtain ⟨-, -, sim, sp, h, -, -, -, h1⟩ := C137_bright (M := 1501) (by norm_num) (by decide) (gsd := .py (.fin 1))
    (range := .py (.fin 1)) (df := .py (.fin (1 / ((1501 : ℕ) * (2 * Real.arctan (1 / 2 / 1))))))
    (ifov := .py (.fin (1 / 1))) (g := 1) (r := 1) rfl rfl one_pos one_pos rfl rfl
  exact ⟨sim, sp, h, h1⟩

/-- `C137_close` applies: with 1501 samples the weights are within 0.1 % of the right ones. -/
example : 0.999 * evenSpread 1 1 ≤ waved 1501 evenSpread 1 1 / totalOf (waved 1501 evenSpread) := by
  have h := (C137_close (M := 1501) (by norm_num) evenSpread_spread (fun a b => by unfold evenSpread; split_ifs <;> norm_num)
    1 1).2.1
  refine le_trans (mul_le_mul_of_nonneg_right ?_ ?_) h
  · norm_num
  · unfold evenSpread; split_ifs <;> norm_num

/-- `C137_mirror` applies: perfect optics and an image of 20 x 30 pixels. -/
example : ∃ sim sp sim', applyOtfToImage true ⟨20, 30, fun i j => 1 + 2 * i + 4 * j⟩ (.py (.fin 1)) (.py (.fin 1)) 11 11
      (fun _ _ => 1) (.py (.fin (1 / ((11 : ℕ) * (2 * Real.arctan (1 / 2 / 1)))))) (.py (.fin (1 / 1))) = .ok (sim, sp)
    ∧ applyOtfToImage true (leftRight ⟨20, 30, fun i j => 1 + 2 * i + 4 * j⟩) (.py (.fin 1)) (.py (.fin 1)) 11 11
      (fun _ _ => 1) (.py (.fin (1 / ((11 : ℕ) * (2 * Real.arctan (1 / 2 / 1)))))) (.py (.fin (1 / 1))) = .ok (sim', sp)
    ∧ SameImg sim' (leftRight sim) := by
  have hat : 0 < Real.arctan (1 / 2 / 1) := by
    rw [← Real.arctan_zero]; exact Real.arctan_strictMono (by norm_num)
  obtain ⟨sim, sp, h, -⟩ := C47_perfect (x := ⟨20, 30, fun i j => 1 + 2 * i + 4 * j⟩) (by norm_num) (by norm_num) (M := 11)
    (by norm_num) (gsd := .py (.fin 1)) (range := .py (.fin 1))
    (df := .py (.fin (1 / (((11 : ℕ) : ℝ) * (2 * Real.arctan (1 / 2 / 1))))))
    (ifov := .py (.fin (1 / 1))) (g := 1) (r := 1) rfl rfl one_pos one_pos rfl rfl
  obtain ⟨p, p1, p2⟩ := C45_perfect (M := 11) (by norm_num) (df := .py (.fin (1 / (((11 : ℕ) : ℝ) * (2 * Real.arctan (1 / 2 / 1))))))
    rfl (by positivity) (dxOut := .np (.fin (pixelAngle 1 1))) (by
      rw [Scal.val_np, XR.fin_inj]
      unfold pixelAngle
      push_cast
      field_simp)
  have q1 : p.h = 11 := p2.h
  have q2 : p.w = 11 := p2.w
  obtain ⟨sim', h1, h2⟩ := C137_mirror h (g := 1) (r := 1) rfl rfl one_pos p1 ⟨rfl, rfl, fun i hi j hj => by
    show p.px i j = p.px i (p.w - 1 - j)
    rw [p2.px i hi j hj, p2.px i hi _ (by omega), q2]
    have : (j = 5) = (11 - 1 - j = 5) := by rw [eq_iff_iff]; omega
    unfold impulse
    simp only [this]⟩ (by rw [q2]; decide)
  exact ⟨sim, sp, sim', h, h1, h2⟩

/-- `C137_simulator` applies: the sensor, scene and band of the other examples. -/
example : MirrorSymmetric 1501 1501 fun i j =>
    ((opticsAt demoSensor demoScene [(3e-6, 1), (4e-6, 3)] 0.01 (colFreq 1501 30000 j) (rowFreq 1501 30000 i) : ℝ) : ℂ) :=
  (C137_simulator demoSensor_optical demoScene demoBand 0.01 30000 fun _ _ _ _ => rfl).1

end PyBSM
