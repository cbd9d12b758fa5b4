import Verif.Props.PsfSupport

/-!
# C84 to C86: `otf_to_psf` inverts the Fourier transform; what `apply_otf_to_image` does with the point spread
function; linearity
-/

noncomputable section

open Classical

namespace PyBSM

open Spec

theorem char_sum {M : ℕ} (hM : 0 < M) (c t : ℤ) :
    ∑ k ∈ Finset.range M, Complex.exp (2 * Real.pi * Complex.I * (((k : ℂ) - c) * t / M))
      = if (M : ℤ) ∣ t then (M : ℂ) else 0 := by
  have hM' : (M : ℂ) ≠ 0 := by exact_mod_cast hM.ne'
  have hMz : (M : ℤ) ≠ 0 := by exact_mod_cast hM.ne'
  obtain ⟨m, hm⟩ : ∃ m : ℕ, t % M = m := ⟨(t % M).toNat, (Int.toNat_of_nonneg (Int.emod_nonneg t hMz)).symm⟩
  have hlt : m < M := by
    have := Int.emod_lt_of_pos t (show (0 : ℤ) < M by exact_mod_cast hM)
    omega
  have hd : (M : ℤ) ∣ t - m := by rw [← hm]; exact Int.dvd_self_sub_emod
  have e : ∀ k : ℕ, Complex.exp (2 * Real.pi * Complex.I * (((k : ℂ) - c) * t / M))
      = Complex.exp (2 * Real.pi * Complex.I * ((k * m : ℂ) / M)) * Complex.exp (2 * Real.pi * Complex.I * (((-c * t : ℤ) : ℂ) / M)) := by
    intro k
    have h1 := exp_mod hM (a := k * t) (b := k * m) (by rw [← mul_sub]; exact Dvd.dvd.mul_left hd _)
    have h2 : Complex.exp (2 * Real.pi * Complex.I * ((k * m : ℂ) / M)) = Complex.exp (2 * Real.pi * Complex.I * ((k * t : ℂ) / M)) := by
      push_cast at h1
      exact h1.symm
    rw [h2, ← Complex.exp_add]
    congr 1
    push_cast
    field_simp
    ring
  simp only [e, ← Finset.sum_mul, sum_exp hM hlt]
  have hiff : m = 0 ↔ (M : ℤ) ∣ t := by
    rw [Int.dvd_iff_emod_eq_zero, hm]
    exact_mod_cast Iff.rfl
  simp only [hiff]
  split_ifs with h
  · have h1 := exp_mod hM (a := -c * t) (b := 0) (by rw [sub_zero]; exact Dvd.dvd.mul_left h _)
    rw [h1]
    simp
  · rw [zero_mul]

theorem dvd_offset {M i : ℕ} {a : ℤ} (hM : 10 < M) (hi : i < M) (h1 : -5 ≤ a) (h2 : a ≤ 4) :
    (M : ℤ) ∣ (i : ℤ) - (M / 2 : ℕ) - a ↔ a = (i : ℤ) - (M / 2 : ℕ) := by
  constructor
  · intro h
    have := Int.eq_zero_of_abs_lt_dvd h (by rw [abs_lt]; omega)
    omega
  · rintro rfl
    simp

/-- The centred transform of the transfer function of a point spread function is that point spread function, for even and
odd sizes. -/
theorem centred_transfer {M N : ℕ} (hM : 10 < M) (hN : 10 < N) {h : ℤ → ℤ → ℝ} (hp : PointSpread h)
    {i j : ℕ} (hi : i < M) (hj : j < N) :
    centredPsf M N (transfer M N h) i j = (h ((i : ℤ) - (M / 2 : ℕ)) ((j : ℤ) - (N / 2 : ℕ)) : ℂ) := by
  have hM' : (M : ℂ) ≠ 0 := by
    have : M ≠ 0 := by omega
    exact_mod_cast this
  have hN' : (N : ℂ) ≠ 0 := by
    have : N ≠ 0 := by omega
    exact_mod_cast this
  unfold centredPsf transfer
  have e : ∀ k l : ℕ, (∑ a ∈ Finset.Icc (-5 : ℤ) 4, ∑ b ∈ Finset.Icc (-5 : ℤ) 4, (h a b : ℂ) * Complex.exp (-(2 * Real.pi * Complex.I)
        * (((k : ℂ) - (M / 2 : ℕ)) * a / M + ((l : ℂ) - (N / 2 : ℕ)) * b / N)))
      * Complex.exp (2 * Real.pi * Complex.I
        * (((k : ℂ) - (M / 2 : ℕ)) * ((i : ℂ) - (M / 2 : ℕ)) / M + ((l : ℂ) - (N / 2 : ℕ)) * ((j : ℂ) - (N / 2 : ℕ)) / N))
      = ∑ a ∈ Finset.Icc (-5 : ℤ) 4, ∑ b ∈ Finset.Icc (-5 : ℤ) 4, (h a b : ℂ)
        * (Complex.exp (2 * Real.pi * Complex.I * (((k : ℂ) - ((M / 2 : ℕ) : ℤ)) * ((i : ℤ) - (M / 2 : ℕ) - a : ℤ) / M))
          * Complex.exp (2 * Real.pi * Complex.I * (((l : ℂ) - ((N / 2 : ℕ) : ℤ)) * ((j : ℤ) - (N / 2 : ℕ) - b : ℤ) / N))) := by
    intro k l
    rw [Finset.sum_mul]
    refine Finset.sum_congr rfl fun a _ => ?_
    rw [Finset.sum_mul]
    refine Finset.sum_congr rfl fun b _ => ?_
    rw [mul_assoc, ← Complex.exp_add, ← Complex.exp_add]
    congr 2
    generalize M / 2 = c1
    generalize N / 2 = c2
    push_cast
    ring
  simp only [e]
  have swap : ∑ k ∈ Finset.range M, ∑ l ∈ Finset.range N, ∑ a ∈ Finset.Icc (-5 : ℤ) 4, ∑ b ∈ Finset.Icc (-5 : ℤ) 4, (h a b : ℂ)
        * (Complex.exp (2 * Real.pi * Complex.I * (((k : ℂ) - ((M / 2 : ℕ) : ℤ)) * ((i : ℤ) - (M / 2 : ℕ) - a : ℤ) / M))
          * Complex.exp (2 * Real.pi * Complex.I * (((l : ℂ) - ((N / 2 : ℕ) : ℤ)) * ((j : ℤ) - (N / 2 : ℕ) - b : ℤ) / N)))
      = ∑ a ∈ Finset.Icc (-5 : ℤ) 4, ∑ b ∈ Finset.Icc (-5 : ℤ) 4, (h a b : ℂ)
        * ((∑ k ∈ Finset.range M, Complex.exp (2 * Real.pi * Complex.I
            * (((k : ℂ) - ((M / 2 : ℕ) : ℤ)) * ((i : ℤ) - (M / 2 : ℕ) - a : ℤ) / M)))
          * ∑ l ∈ Finset.range N, Complex.exp (2 * Real.pi * Complex.I
            * (((l : ℂ) - ((N / 2 : ℕ) : ℤ)) * ((j : ℤ) - (N / 2 : ℕ) - b : ℤ) / N))) := by
    simp only [Finset.sum_mul_sum]
    simp only [Finset.mul_sum]
    rw [Finset.sum_congr rfl fun k _ => Finset.sum_comm, Finset.sum_comm]
    refine Finset.sum_congr rfl fun a _ => ?_
    rw [Finset.sum_congr rfl fun k _ => Finset.sum_comm, Finset.sum_comm]
  rw [swap]
  simp only [char_sum (show 0 < M by omega), char_sum (show 0 < N by omega)]
  by_cases hin : -5 ≤ (i : ℤ) - (M / 2 : ℕ) ∧ (i : ℤ) - (M / 2 : ℕ) ≤ 4 ∧ -5 ≤ (j : ℤ) - (N / 2 : ℕ) ∧ (j : ℤ) - (N / 2 : ℕ) ≤ 4
  · rw [Finset.sum_eq_single ((i : ℤ) - (M / 2 : ℕ)), Finset.sum_eq_single ((j : ℤ) - (N / 2 : ℕ))]
    · rw [if_pos (by simp), if_pos (by simp)]
      field_simp
    · intro b hb hne
      rw [Finset.mem_Icc] at hb
      rw [if_neg (fun hd => hne ((dvd_offset hN hj hb.1 hb.2).mp hd)), mul_zero, mul_zero]
    · intro hb
      exact absurd (Finset.mem_Icc.mpr ⟨hin.2.2.1, hin.2.2.2⟩) hb
    · intro a ha hne
      rw [Finset.mem_Icc] at ha
      refine Finset.sum_eq_zero fun b _ => ?_
      rw [if_neg (fun hd => hne ((dvd_offset hM hi ha.1 ha.2).mp hd)), zero_mul, mul_zero]
    · intro ha
      exact absurd (Finset.mem_Icc.mpr ⟨hin.1, hin.2.1⟩) ha
  · rw [hp.support _ _ hin, Complex.ofReal_zero]
    apply mul_eq_zero_of_right
    refine Finset.sum_eq_zero fun a ha => Finset.sum_eq_zero fun b hb => ?_
    rw [Finset.mem_Icc] at ha hb
    by_cases h1 : (M : ℤ) ∣ (i : ℤ) - (M / 2 : ℕ) - a
    · by_cases h2 : (N : ℤ) ∣ (j : ℤ) - (N / 2 : ℕ) - b
      · exfalso
        apply hin
        rw [← (dvd_offset hM hi ha.1 ha.2).mp h1, ← (dvd_offset hN hj hb.1 hb.2).mp h2]
        exact ⟨ha.1, ha.2, hb.1, hb.2⟩
      · rw [if_neg h2, mul_zero, mul_zero]
    · rw [if_neg h1, zero_mul, mul_zero]

/-- **C84** (inversion): for even sizes, the transform of the transfer function of a point spread function is that point
spread function, centred at pixel `(M/2, N/2)`. -/
theorem C84_inverse {M N : ℕ} (hM : 10 < M) (hN : 10 < N) (eM : Even M) (eN : Even N) {h : ℤ → ℤ → ℝ} (hp : PointSpread h)
    {i j : ℕ} (hi : i < M) (hj : j < N) :
    (rawPsf M N (transfer M N h)).px i j = h ((i : ℤ) - (M / 2 : ℕ)) ((j : ℤ) - (N / 2 : ℕ)) := by
  rw [C45_even (by omega) (by omega) eM eN]
  rw [centred_transfer hM hN hp hi hj, Complex.ofReal_re]

theorem sum_offsets {n c : ℕ} (h1 : 5 ≤ c) (h2 : c + 5 ≤ n) {g : ℤ → ℝ} (hg : ∀ a, ¬ (-5 ≤ a ∧ a ≤ 4) → g a = 0) :
    ∑ i ∈ Finset.range n, g ((i : ℤ) - c) = ∑ a ∈ Finset.Icc (-5 : ℤ) 4, g a := by
  have e : ∑ a ∈ Finset.Icc (-5 : ℤ) 4, g a
      = ∑ i ∈ (Finset.range n).filter (fun i : ℕ => -5 ≤ (i : ℤ) - c ∧ (i : ℤ) - c ≤ 4), g ((i : ℤ) - c) := by
    refine Finset.sum_nbij' (fun a => (a + c).toNat) (fun i => (i : ℤ) - c) ?_ ?_ ?_ ?_ ?_
    · intro a ha
      rw [Finset.mem_Icc] at ha
      rw [Finset.mem_filter, Finset.mem_range]
      omega
    · intro i hi
      rw [Finset.mem_filter, Finset.mem_range] at hi
      rw [Finset.mem_Icc]
      exact hi.2
    · intro a ha
      rw [Finset.mem_Icc] at ha
      omega
    · intro i hi
      omega
    · intro a ha
      rw [Finset.mem_Icc] at ha
      congr 1
      omega
  rw [e, Finset.sum_filter]
  refine Finset.sum_congr rfl fun i _ => ?_
  split_ifs with h
  · rfl
  · exact hg _ h

theorem sum_offsets2 {m n c d : ℕ} (h1 : 5 ≤ c) (h2 : c + 5 ≤ m) (h3 : 5 ≤ d) (h4 : d + 5 ≤ n) {g : ℤ → ℤ → ℝ}
    (hg : ∀ a b, ¬ (-5 ≤ a ∧ a ≤ 4 ∧ -5 ≤ b ∧ b ≤ 4) → g a b = 0) :
    ∑ i ∈ Finset.range m, ∑ j ∈ Finset.range n, g ((i : ℤ) - c) ((j : ℤ) - d)
      = ∑ a ∈ Finset.Icc (-5 : ℤ) 4, ∑ b ∈ Finset.Icc (-5 : ℤ) 4, g a b := by
  have e : ∀ i : ℕ, ∑ j ∈ Finset.range n, g ((i : ℤ) - c) ((j : ℤ) - d) = ∑ b ∈ Finset.Icc (-5 : ℤ) 4, g ((i : ℤ) - c) b :=
    fun i => sum_offsets h3 h4 (g := fun b => g ((i : ℤ) - c) b) fun b hb => hg _ _ (by omega)
  simp only [e]
  exact sum_offsets h1 h2 (g := fun a => ∑ b ∈ Finset.Icc (-5 : ℤ) 4, g a b) fun a ha =>
    Finset.sum_eq_zero fun b _ => hg _ _ (by omega)

/-- The image with the point spread function in its 10 x 10 pixels, the centre at `(5, 5)`. -/
def kernelOf (h : ℤ → ℤ → ℝ) : Img := ⟨10, 10, fun i j => h ((i : ℤ) - 5) ((j : ℤ) - 5)⟩

/-- At its own spacing, an OTF whose transform sums to 1 and keeps all of it in the middle 10 pixels. -/
theorem otfToPsf_native {M : ℕ} (hM : 10 < M) {df dxOut : Scal} {d : ℝ} (hd : df.val = .fin d) (hd0 : d ≠ 0)
    (ho : dxOut.val = .fin (1 / (M * d))) {otf : ℕ → ℕ → ℂ} (hsum : (rawPsf M M otf).sum = 1)
    (hmid : (middle (rawPsf M M otf) 10).sum = 1) :
    ∃ p, otfToPsf true M M otf df dxOut = .ok p ∧ SameImg p (middle (rawPsf M M otf) 10) := by
  have hM0 : (M : ℝ) ≠ 0 := by positivity
  have hx : (Scal.py (.fin (M : ℝ)) * df).val = .fin (M * d) := by
    rw [Scal.val_mul, hd]; exact XR.fin_mul _ _
  obtain ⟨q, e1, e2⟩ := Scal.div_fin (a := .py 1) (x := 1) rfl hx (mul_ne_zero hM0 hd0)
  have hy : (Scal.py (.fin (M : ℝ)) * q).val = .fin (M * (1 / (M * d))) := by
    rw [Scal.val_mul, e2]; exact XR.fin_mul _ _
  have ho0 : (1 : ℝ) / (M * d) ≠ 0 := one_div_ne_zero (mul_ne_zero hM0 hd0)
  obtain ⟨sx, e3, e4⟩ := Scal.div_fin hy ho ho0
  have e5 : (M : ℝ) * (1 / (M * d)) / (1 / (M * d)) = M := by field_simp
  rw [e5] at e4
  have e6 : pyInt sx.val = .ok M := by
    rw [e4]
    unfold pyInt
    dsimp only
    rw [if_pos (Nat.cast_nonneg M), Int.floor_natCast]
  obtain ⟨r, e7, -, -, -, e8⟩ := cvResize_ok (x := rawPsf M M otf) (nw := M) (nh := M)
    (by show M ≠ 0; omega) (by show M ≠ 0; omega) (by omega) (by omega)
  have hr : SameImg r (rawPsf M M otf) := e8 rfl rfl
  obtain ⟨z, e9, hz⟩ := normalize_same hr hsum
  have z1 : z.h = M := hz.h
  have z2 : z.w = M := hz.w
  have zm : SameImg (getMiddle z 10) (middle (rawPsf M M otf) 10) := by
    rw [getMiddle_middle (by omega) (by omega)]
    exact sum_middle_congr hz (by omega) (by omega)
  obtain ⟨p, e10, hp⟩ := normalize_same zm hmid
  refine ⟨p, ?_, hp⟩
  have hmax : max 1 (M : ℤ).toNat = M := by rw [Int.toNat_natCast]; omega
  have hs : supportSize z (arange10 M) = .ok 10 := supportSize_head hM (by rw [sum_congr zm, hmid]; norm_num)
  unfold otfToPsf
  simp only [Bool.not_true, Bool.false_eq_true, if_false, e1, ok_bind, e3, e6, hmax, e7, e9, min_self, hs]
  exact e10

/-- **C84** (recovery): for every even size above 10, `otf_to_psf` of the transfer function of a point spread function,
at the OTF's own spacing, returns exactly that point spread function, in 10 x 10 pixels with the centre at `(5, 5)`. -/
theorem C84_recover {M : ℕ} (hM : 10 < M) (eM : Even M) {h : ℤ → ℤ → ℝ} (hp : PointSpread h) {df dxOut : Scal} {d : ℝ}
    (hd : df.val = .fin d) (hd0 : d ≠ 0) (ho : dxOut.val = .fin (1 / (M * d))) :
    ∃ p, otfToPsf true M M (transfer M M h) df dxOut = .ok p ∧ p.h = 10 ∧ p.w = 10
      ∧ ∀ i < 10, ∀ j < 10, p.px i j = h ((i : ℤ) - 5) ((j : ℤ) - 5) := by
  obtain ⟨c, hc⟩ := eM
  have hc2 : M / 2 = c := by omega
  have eM : Even M := ⟨c, hc⟩
  have raw : ∀ i < M, ∀ j < M, (rawPsf M M (transfer M M h)).px i j = h ((i : ℤ) - c) ((j : ℤ) - c) := by
    intro i hi j hj
    rw [C84_inverse hM hM eM eM hp hi hj, hc2]
  have s1 : (rawPsf M M (transfer M M h)).sum = 1 := by
    unfold Img.sum
    rw [← hp.total, ← sum_offsets2 (m := M) (n := M) (c := c) (d := c) (by omega) (by omega) (by omega) (by omega) hp.support]
    exact Finset.sum_congr rfl fun i hi => Finset.sum_congr rfl fun j hj =>
      raw i (Finset.mem_range.mp hi) j (Finset.mem_range.mp hj)
  have mid : SameImg (middle (rawPsf M M (transfer M M h)) 10) (kernelOf h) := by
    have e : 10 + (M - 10) % 2 = 10 := by omega
    refine ⟨e, e, fun i hi j hj => ?_⟩
    have hi' : i < 10 + (M - 10) % 2 := hi
    have hj' : j < 10 + (M - 10) % 2 := hj
    show (rawPsf M M (transfer M M h)).px ((M - 10) / 2 + i) ((M - 10) / 2 + j) = h _ _
    rw [raw _ (by omega) _ (by omega)]
    congr 1 <;> omega
  have s2 : (middle (rawPsf M M (transfer M M h)) 10).sum = 1 := by
    rw [sum_congr mid]
    exact (sum_offsets2 (m := 10) (n := 10) (c := 5) (d := 5) (by omega) (by omega) (by omega) (by omega) hp.support).trans
      hp.total
  obtain ⟨p, e1, e2⟩ := otfToPsf_native hM hd hd0 ho s1 s2
  have f1 : p.h = 10 := e2.h.trans mid.h
  have f2 : p.w = 10 := e2.w.trans mid.w
  refine ⟨p, e1, f1, f2, fun i hi j hj => ?_⟩
  rw [e2.px i (by omega) j (by omega)]
  have m1 : (middle (rawPsf M M (transfer M M h)) 10).h = 10 := mid.h
  have m2 : (middle (rawPsf M M (transfer M M h)) 10).w = 10 := mid.w
  exact mid.px i (by omega) j (by omega)

theorem reflect101_mirrored {n : ℕ} {p : ℤ} (h1 : -(n : ℤ) < p) (h2 : p < 2 * (n : ℤ) - 1) :
    reflect101 n p = mirrored n p := by
  unfold reflect101 mirrored
  by_cases hn : n ≤ 1
  · rw [if_pos hn]
    split_ifs <;> omega
  · rw [if_neg hn]
    dsimp only
    rcases lt_or_ge p 0 with hp | hp
    · have e : p % (2 * ((n : ℤ) - 1)) = p + 2 * ((n : ℤ) - 1) := by
        rw [← Int.add_emod_right, Int.emod_eq_of_lt] <;> omega
      rw [e, if_pos hp]
      split_ifs <;> omega
    · by_cases hlt : p < 2 * ((n : ℤ) - 1)
      · have e : p % (2 * ((n : ℤ) - 1)) = p := Int.emod_eq_of_lt hp hlt
        rw [e]
        split_ifs <;> omega
      · have e : p % (2 * ((n : ℤ) - 1)) = 0 := by
          rw [show p = 2 * ((n : ℤ) - 1) by omega, Int.emod_self]
        rw [e]
        split_ifs <;> omega

/-- **C85** (all pixels): with the transfer function of a point spread function `h` of even size above 10, a frequency
spacing matching the image's pixels, and a camera whose field of view per pixel is that of the image, every pixel becomes
the sum of `h a b` times the pixel `a` rows *below* and `b` columns to the *right* (the correlation of image and point
spread function), where the image is continued beyond its border by reflection.  Images of 6 pixels a side or more. -/
theorem C85_border {x : Img} (hxh : 6 ≤ x.h) (hxw : 6 ≤ x.w) {M : ℕ} (hM : 10 < M) (eM : Even M) {h : ℤ → ℤ → ℝ}
    (hp : PointSpread h) {gsd range df ifov : Scal} {g r : ℝ} (hg : gsd.val = .fin g) (hr : range.val = .fin r) (hg0 : 0 < g)
    (hr0 : 0 < r) (hd : df.val = .fin (1 / (M * (2 * Real.arctan (g / 2 / r))))) (hi : ifov.val = .fin (g / r)) :
    ∃ sim sp, applyOtfToImage true x gsd range M M (transfer M M h) df ifov = .ok (sim, sp) ∧ sim.h = x.h ∧ sim.w = x.w
      ∧ (∀ y < x.h, ∀ c < x.w, sim.px y c = ∑ a ∈ Finset.Icc (-5 : ℤ) 4, ∑ b ∈ Finset.Icc (-5 : ℤ) 4,
          h a b * x.px (mirrored x.h ((y : ℤ) + a)) (mirrored x.w ((c : ℤ) + b)))
      ∧ sp.h = 10 ∧ sp.w = 10 ∧ ∀ i < 10, ∀ j < 10, sp.px i j = h ((i : ℤ) - 5) ((j : ℤ) - 5) := by
  have hM0 : (0 : ℝ) < M := by
    have : 0 < M := by omega
    positivity
  have hat : 0 < Real.arctan (g / 2 / r) := by
    rw [← Real.arctan_zero]; exact Real.arctan_strictMono (by positivity)
  obtain ⟨half, a1, a2⟩ := Scal.div_fin hg (b := .py 2) (y := 2) rfl two_ne_zero
  obtain ⟨q, a3, a4⟩ := Scal.div_fin a2 hr hr0.ne'
  obtain ⟨dxIn, a5, a6⟩ := Scal.div_fin hg hr hr0.ne'
  have hq : (2 * q.val.arctan : XR) = .fin (2 * Real.arctan (g / 2 / r)) := by
    rw [a4]
    show (2 : XR) * .fin (Real.arctan (g / 2 / r)) = _
    exact XR.fin_mul _ _
  obtain ⟨psf, b1, b2, b3, b4⟩ := C84_recover hM eM hp hd (by positivity)
    (dxOut := .np (.fin (2 * Real.arctan (g / 2 / r)))) (by
      rw [Scal.val_np, XR.fin_inj]; field_simp)
  obtain ⟨blur, c1⟩ : ∃ blur, filter2D x psf = .ok blur := ⟨_, if_neg (by omega)⟩
  have cb : ∀ y c, blur.px y c = ∑ i ∈ Finset.range psf.h, ∑ j ∈ Finset.range psf.w,
      psf.px i j * x.px (reflect101 x.h ((y : ℤ) + i - (psf.h / 2 : ℕ))) (reflect101 x.w ((c : ℤ) + j - (psf.w / 2 : ℕ)))
      ∧ blur.h = x.h ∧ blur.w = x.w := by
    unfold filter2D at c1
    rw [if_neg (by omega), Except.ok.injEq] at c1
    subst c1
    exact fun y c => ⟨rfl, rfl, rfl⟩
  obtain ⟨-, c2, c3⟩ := cb 0 0
  obtain ⟨sim, d1, d2⟩ := C46_identity blur (by omega) (by omega) a6 hi (by positivity)
  obtain ⟨sp, d3, d4⟩ := C46_identity psf (by omega) (by omega) a6 hi (by positivity)
  have s1 : sp.h = 10 := d4.h.trans b2
  have s2 : sp.w = 10 := d4.w.trans b3
  refine ⟨sim, sp, ?_, d2.h.trans c2, d2.w.trans c3, ?_, s1, s2, fun i hi j hj => ?_⟩
  · unfold applyOtfToImage
    simp only [Bool.not_true, Bool.false_eq_true, if_false, a1, ok_bind, a3, hq, b1, c1, a5, d1, d3]
  · intro y y1 c w1
    have e1 := d2.h
    have e2 := d2.w
    rw [d2.px y (by omega) c (by omega), (cb y c).1, b2, b3,
      ← sum_offsets2 (m := 10) (n := 10) (c := 5) (d := 5) (by omega) (by omega) (by omega) (by omega)
        (g := fun a b => h a b * x.px (mirrored x.h ((y : ℤ) + a)) (mirrored x.w ((c : ℤ) + b))) fun a b hab => by rw [hp.support a b hab, zero_mul]]
    refine Finset.sum_congr rfl fun i hi => Finset.sum_congr rfl fun j hj => ?_
    rw [Finset.mem_range] at hi hj
    rw [b4 i hi j hj]
    rw [reflect101_mirrored (by omega) (by omega), reflect101_mirrored (by omega) (by omega)]
    have k1 : (y : ℤ) + i - (10 / 2 : ℕ) = (y : ℤ) + (i - (5 : ℕ)) := by omega
    have k2 : (c : ℤ) + j - (10 / 2 : ℕ) = (c : ℤ) + (j - (5 : ℕ)) := by omega
    rw [k1, k2]
    rfl
  · rw [d4.px i (by omega) j (by omega), b4 i hi j hj]

/-- **C85** (blur): with the transfer function of a point spread function `h` of even size above 10, a frequency spacing
matching the image's pixels, and a camera whose field of view per pixel is that of the image, every pixel at least 5 pixels
from the border becomes the sum of `h a b` times the pixel `a` rows *below* and `b` columns to the *right*: the
correlation of image and point spread function. -/
theorem C85_blur {x : Img} (hxh : 6 ≤ x.h) (hxw : 6 ≤ x.w) {M : ℕ} (hM : 10 < M) (eM : Even M) {h : ℤ → ℤ → ℝ}
    (hp : PointSpread h) {gsd range df ifov : Scal} {g r : ℝ} (hg : gsd.val = .fin g) (hr : range.val = .fin r) (hg0 : 0 < g)
    (hr0 : 0 < r) (hd : df.val = .fin (1 / (M * (2 * Real.arctan (g / 2 / r))))) (hi : ifov.val = .fin (g / r)) :
    ∃ sim sp, applyOtfToImage true x gsd range M M (transfer M M h) df ifov = .ok (sim, sp) ∧ sim.h = x.h ∧ sim.w = x.w
      ∧ (∀ y c, 5 ≤ y → y + 5 ≤ x.h → 5 ≤ c → c + 5 ≤ x.w → sim.px y c
        = ∑ a ∈ Finset.Icc (-5 : ℤ) 4, ∑ b ∈ Finset.Icc (-5 : ℤ) 4, h a b * x.px ((y : ℤ) + a).toNat ((c : ℤ) + b).toNat)
      ∧ sp.h = 10 ∧ sp.w = 10 ∧ ∀ i < 10, ∀ j < 10, sp.px i j = h ((i : ℤ) - 5) ((j : ℤ) - 5) := by
  obtain ⟨sim, sp, e1, e2, e3, e4, e5⟩ := C85_border hxh hxw hM eM hp hg hr hg0 hr0 hd hi
  refine ⟨sim, sp, e1, e2, e3, fun y c y1 y2 w1 w2 => ?_, e5⟩
  rw [e4 y (by omega) c (by omega)]
  refine Finset.sum_congr rfl fun a ha => Finset.sum_congr rfl fun b hb => ?_
  rw [Finset.mem_Icc] at ha hb
  have m : ∀ (n : ℕ) (p : ℤ), 0 ≤ p → p ≤ (n : ℤ) - 1 → mirrored n p = p.toNat := by
    intro n p p1 p2
    unfold mirrored
    rw [if_neg (by omega), if_pos p2]
  rw [m _ _ (by omega) (by omega), m _ _ (by omega) (by omega)]

/-- **C85** (symmetric point spread functions): the result is then the image blurred by `h`: each pixel receives from the
pixel `a` rows above and `b` columns to the left the share `h a b` (convolution). -/
theorem C85_symmetric {x : Img} (hxh : 6 ≤ x.h) (hxw : 6 ≤ x.w) {M : ℕ} (hM : 10 < M) (eM : Even M) {h : ℤ → ℤ → ℝ}
    (hp : PointSpread h) (hs : ∀ a b, h (-a) (-b) = h a b) {gsd range df ifov : Scal} {g r : ℝ} (hg : gsd.val = .fin g)
    (hr : range.val = .fin r) (hg0 : 0 < g) (hr0 : 0 < r) (hd : df.val = .fin (1 / (M * (2 * Real.arctan (g / 2 / r)))))
    (hi : ifov.val = .fin (g / r)) :
    ∃ sim sp, applyOtfToImage true x gsd range M M (transfer M M h) df ifov = .ok (sim, sp) ∧ sim.h = x.h ∧ sim.w = x.w
      ∧ ∀ y c, 5 ≤ y → y + 5 ≤ x.h → 5 ≤ c → c + 5 ≤ x.w → sim.px y c
        = ∑ a ∈ Finset.Icc (-4 : ℤ) 4, ∑ b ∈ Finset.Icc (-4 : ℤ) 4, h a b * x.px ((y : ℤ) - a).toNat ((c : ℤ) - b).toNat := by
  obtain ⟨sim, sp, e1, e2, e3, e4, -⟩ := C85_blur hxh hxw hM eM hp hg hr hg0 hr0 hd hi
  refine ⟨sim, sp, e1, e2, e3, fun y c y1 y2 w1 w2 => ?_⟩
  rw [e4 y c y1 y2 w1 w2]
  have z : ∀ a b, ¬ (-4 ≤ a ∧ a ≤ 4 ∧ -4 ≤ b ∧ b ≤ 4) → h a b = 0 := by
    intro a b hab
    by_cases h1 : -5 ≤ a ∧ a ≤ 4 ∧ -5 ≤ b ∧ b ≤ 4
    · rw [← hs a b]
      exact hp.support _ _ (by omega)
    · exact hp.support a b h1
  have sub : Finset.Icc (-4 : ℤ) 4 ⊆ Finset.Icc (-5 : ℤ) 4 := Finset.Icc_subset_Icc (by norm_num) le_rfl
  have step : ∑ a ∈ Finset.Icc (-5 : ℤ) 4, ∑ b ∈ Finset.Icc (-5 : ℤ) 4, h a b * x.px ((y : ℤ) + a).toNat ((c : ℤ) + b).toNat
      = ∑ a ∈ Finset.Icc (-4 : ℤ) 4, ∑ b ∈ Finset.Icc (-4 : ℤ) 4, h a b * x.px ((y : ℤ) + a).toNat ((c : ℤ) + b).toNat := by
    symm
    rw [Finset.sum_subset sub]
    · refine Finset.sum_congr rfl fun a _ => Finset.sum_subset sub fun b hb hn => ?_
      rw [Finset.mem_Icc] at hn
      rw [z a b (by omega), zero_mul]
    · intro a ha hn
      rw [Finset.mem_Icc] at hn
      exact Finset.sum_eq_zero fun b _ => by rw [z a b (by omega), zero_mul]
  rw [step]
  have flip : ∀ f : ℤ → ℝ, ∑ a ∈ Finset.Icc (-4 : ℤ) 4, f a = ∑ a ∈ Finset.Icc (-4 : ℤ) 4, f (-a) := by
    intro f
    refine Finset.sum_nbij' (fun a => -a) (fun a => -a) ?_ ?_ (fun a _ => neg_neg a) (fun a _ => neg_neg a)
      (fun a _ => by rw [neg_neg])
    · intro a ha
      rw [Finset.mem_Icc] at ha ⊢
      omega
    · intro a ha
      rw [Finset.mem_Icc] at ha ⊢
      omega
  rw [flip]
  refine Finset.sum_congr rfl fun a _ => ?_
  rw [flip]
  refine Finset.sum_congr rfl fun b _ => ?_
  rw [hs a b]
  rfl

/-- **C85** (finding): for point spread functions that are not symmetric the image is blurred the wrong way round.  A
system that images every point one pixel to the right (`h` is 1 at offset `(0, 1)`) should move the picture one pixel to the
right; it is moved one pixel to the left. -/
theorem C85_shift {x : Img} (hxh : 6 ≤ x.h) (hxw : 6 ≤ x.w) {M : ℕ} (hM : 10 < M) (eM : Even M) {gsd range df ifov : Scal}
    {g r : ℝ} (hg : gsd.val = .fin g) (hr : range.val = .fin r) (hg0 : 0 < g) (hr0 : 0 < r)
    (hd : df.val = .fin (1 / (M * (2 * Real.arctan (g / 2 / r))))) (hi : ifov.val = .fin (g / r)) :
    ∃ sim sp, applyOtfToImage true x gsd range M M (transfer M M fun a b => if a = 0 ∧ b = 1 then 1 else 0) df ifov
        = .ok (sim, sp)
      ∧ ∀ y c, 5 ≤ y → y + 5 ≤ x.h → 5 ≤ c → c + 5 ≤ x.w → sim.px y c = x.px y (c + 1) := by
  have hp : PointSpread fun a b => if a = 0 ∧ b = 1 then 1 else 0 := by
    refine ⟨fun a b hab => if_neg (by omega), ?_⟩
    rw [Finset.sum_eq_single 0, Finset.sum_eq_single 1]
    · simp
    · intro b _ hb
      rw [if_neg (by tauto)]
    · intro hn
      exact absurd (Finset.mem_Icc.mpr (by norm_num)) hn
    · intro a _ ha
      exact Finset.sum_eq_zero fun b _ => if_neg (by tauto)
    · intro hn
      exact absurd (Finset.mem_Icc.mpr (by norm_num)) hn
  obtain ⟨sim, sp, e1, -, -, e4, -⟩ := C85_blur hxh hxw hM eM hp hg hr hg0 hr0 hd hi
  refine ⟨sim, sp, e1, fun y c y1 y2 w1 w2 => ?_⟩
  rw [e4 y c y1 y2 w1 w2, Finset.sum_eq_single 0, Finset.sum_eq_single 1]
  · rw [if_pos ⟨rfl, rfl⟩, one_mul]
    congr 1
  · intro b _ hb
    rw [if_neg (by tauto), zero_mul]
  · intro hn
    exact absurd (Finset.mem_Icc.mpr (by norm_num)) hn
  · intro a _ ha
    exact Finset.sum_eq_zero fun b _ => by rw [if_neg (by tauto), zero_mul]
  · intro hn
    exact absurd (Finset.mem_Icc.mpr (by norm_num)) hn

/-- Non-vacuity: a point spread function that is not symmetric, sizes and spacings meeting the hypotheses of `C84_recover`
and `C85_blur`. -/
example : PointSpread (fun a b => if a = 0 ∧ b = 0 then 3 / 4 else if a = 0 ∧ b = 1 then 1 / 4 else 0)
    ∧ (10 < 12 ∧ Even 12) ∧ ∃ df gsd range ifov : Scal, gsd.val = .fin 1 ∧ range.val = .fin 1000
      ∧ df.val = .fin (1 / ((12 : ℕ) * (2 * Real.arctan (1 / 2 / 1000)))) ∧ ifov.val = .fin (1 / 1000) := by
  refine ⟨⟨fun a b hab => ?_, ?_⟩, ⟨by norm_num, by decide⟩, .py (.fin _), .py (.fin 1), .py (.fin 1000), .py (.fin _),
    rfl, rfl, rfl, rfl⟩
  · rw [if_neg (by omega), if_neg (by omega)]
  · rw [Finset.sum_eq_single 0]
    · rw [Finset.sum_eq_add_of_mem 0 1 (by simp) (by simp) (by norm_num)]
      · norm_num
      · intro b _ hb
        rw [if_neg (by tauto), if_neg (by tauto)]
    · intro a _ ha
      exact Finset.sum_eq_zero fun b _ => by rw [if_neg (by tauto), if_neg (by tauto)]
    · intro hn
      exact absurd (Finset.mem_Icc.mpr (by norm_num)) hn

/-! ## C86 -/

theorem filter2D_mixture {α β : ℝ} {x y z k bx by' : Img} (hm : Mixture α β x y z) (h1 : filter2D x k = .ok bx)
    (h2 : filter2D y k = .ok by') : ∃ bz, filter2D z k = .ok bz ∧ Mixture α β bx by' bz := by
  unfold filter2D at h1 h2
  split_ifs at h1 with c1
  split_ifs at h2 with c2
  rw [Except.ok.injEq] at h1 h2
  subst h1 h2
  have e1 := hm.hx
  have e2 := hm.wx
  have e3 := hm.hy
  have e4 := hm.wy
  have c3 : ¬ (z.h = 0 ∨ z.w = 0 ∨ k.h = 0 ∨ k.w = 0) := by rw [e1, e2]; exact c1
  refine ⟨_, if_neg c3, ⟨e1, e2, e3, e4, fun i hi j hj => ?_⟩⟩
  dsimp only
  rw [Finset.mul_sum, Finset.mul_sum, ← Finset.sum_add_distrib]
  refine Finset.sum_congr rfl fun a _ => ?_
  rw [Finset.mul_sum, Finset.mul_sum, ← Finset.sum_add_distrib]
  refine Finset.sum_congr rfl fun b _ => ?_
  rw [← e1, ← e2, ← e3, ← e4, hm.px _ (reflect101_lt (by omega) _) _ (reflect101_lt (by omega) _)]
  ring

theorem cvResize_mixture {α β : ℝ} {x y z bx by' : Img} {a b : ℕ} (hm : Mixture α β x y z) (h1 : cvResize x a b = .ok bx)
    (h2 : cvResize y a b = .ok by') : ∃ bz, cvResize z a b = .ok bz ∧ Mixture α β bx by' bz := by
  unfold cvResize at h1 h2
  split_ifs at h1 with c1
  split_ifs at h2 with c2
  rw [Except.ok.injEq] at h1 h2
  subst h1 h2
  have e1 := hm.hx
  have e2 := hm.wx
  have e3 := hm.hy
  have e4 := hm.wy
  have c3 : ¬ (z.h = 0 ∨ z.w = 0 ∨ a = 0 ∨ b = 0) := by rw [e1, e2]; exact c1
  refine ⟨_, if_neg c3, ⟨rfl, rfl, rfl, rfl, fun i hi j hj => ?_⟩⟩
  dsimp only
  rw [← e1, ← e2, ← e3, ← e4]
  obtain ⟨a1, -, -⟩ := resizeCoord_bounds (src := z.h) (dst := b) (by omega) i
  obtain ⟨b1, -, -⟩ := resizeCoord_bounds (src := z.w) (dst := a) (by omega) j
  rw [hm.px _ (by omega) _ (by omega), hm.px _ (by omega) _ (by omega), hm.px _ (by omega) _ (by omega),
    hm.px _ (by omega) _ (by omega)]
  ring

theorem resample_mixture {α β : ℝ} {x y z bx by' : Img} {dxIn dxOut : Scal} (hm : Mixture α β x y z)
    (h1 : resample2D true x dxIn dxOut = .ok bx) (h2 : resample2D true y dxIn dxOut = .ok by') :
    ∃ bz, resample2D true z dxIn dxOut = .ok bz ∧ Mixture α β bx by' bz := by
  unfold resample2D at h1 h2 ⊢
  simp only [Bool.not_true, Bool.false_eq_true, if_false, bind_ok] at h1 h2 ⊢
  obtain ⟨nx, r1, ny, r2, r3⟩ := h1
  obtain ⟨mx, s1, my, s2, s3⟩ := h2
  rw [← hm.wy, hm.wx, r1, Except.ok.injEq] at s1
  rw [← hm.hy, hm.hx, r2, Except.ok.injEq] at s2
  subst s1 s2
  obtain ⟨bz, t1, t2⟩ := cvResize_mixture hm r3 s3
  exact ⟨bz, ⟨nx, by rw [hm.wx]; exact r1, ny, by rw [hm.hx]; exact r2, t1⟩, t2⟩

/-- **C86** (linearity): whatever the OTF and the geometry, blurring and resampling a mixture of two images gives the same
mixture of the two results, and the same point spread function. -/
theorem C86_linear {u : Bool} {x y z : Img} {gsd range df ifov : Scal} {M N : ℕ} {otf : ℕ → ℕ → ℂ} {sx sy px py : Img}
    {α β : ℝ} (hm : Mixture α β x y z) (hx : applyOtfToImage u x gsd range M N otf df ifov = .ok (sx, px))
    (hy : applyOtfToImage u y gsd range M N otf df ifov = .ok (sy, py)) :
    py = px ∧ ∃ sz, applyOtfToImage u z gsd range M N otf df ifov = .ok (sz, px) ∧ Mixture α β sx sy sz := by
  obtain ⟨hu, half, q, psf, blur, dxIn, a1, a2, a3, a4, a5, a6, a7⟩ := applyOtf_ok hx
  obtain ⟨-, half', q', psf', blur', dxIn', b1, b2, b3, b4, b5, b6, b7⟩ := applyOtf_ok hy
  subst hu
  rw [a1, Except.ok.injEq] at b1
  subst b1
  rw [a2, Except.ok.injEq] at b2
  subst b2
  rw [a3, Except.ok.injEq] at b3
  subst b3
  rw [a5, Except.ok.injEq] at b5
  subst b5
  rw [a7, Except.ok.injEq] at b7
  obtain ⟨bz, c1, c2⟩ := filter2D_mixture hm a4 b4
  obtain ⟨sz, d1, d2⟩ := resample_mixture c2 a6 b6
  refine ⟨b7.symm, sz, ?_, d2⟩
  unfold applyOtfToImage
  simp only [Bool.not_true, Bool.false_eq_true, if_false, a1, ok_bind, a2, a3, c1, a5, d1, a7]

/-- **C86** (success): whether the call succeeds depends on the size of the image, not on its pixels. -/
theorem C86_success {u : Bool} {x y : Img} {gsd range df ifov : Scal} {M N : ℕ} {otf : ℕ → ℕ → ℂ} {sx px : Img}
    (h1 : y.h = x.h) (h2 : y.w = x.w) (hx : applyOtfToImage u x gsd range M N otf df ifov = .ok (sx, px)) :
    ∃ sy, applyOtfToImage u y gsd range M N otf df ifov = .ok (sy, px) ∧ sy.h = sx.h ∧ sy.w = sx.w := by
  obtain ⟨hu, half, q, psf, blur, dxIn, a1, a2, a3, a4, a5, a6, a7⟩ := applyOtf_ok hx
  subst hu
  unfold filter2D at a4
  split_ifs at a4 with c1
  rw [Except.ok.injEq] at a4
  have c2 : ¬ (y.h = 0 ∨ y.w = 0 ∨ psf.h = 0 ∨ psf.w = 0) := by rw [h1, h2]; exact c1
  have b4 : ∃ b, filter2D y psf = .ok b ∧ b.h = blur.h ∧ b.w = blur.w := by
    subst a4
    exact ⟨_, if_neg c2, h1, h2⟩
  obtain ⟨b, b4, b5, b6⟩ := b4
  unfold resample2D at a6
  simp only [Bool.not_true, Bool.false_eq_true, if_false, bind_ok] at a6
  obtain ⟨nx, r1, ny, r2, r3⟩ := a6
  have d : ∃ sy, resample2D true b dxIn ifov = .ok sy ∧ sy.h = sx.h ∧ sy.w = sx.w := by
    unfold cvResize at r3
    split_ifs at r3 with c3
    rw [Except.ok.injEq] at r3
    subst r3
    unfold resample2D
    simp only [Bool.not_true, Bool.false_eq_true, if_false]
    rw [b6, r1, ok_bind, b5, r2, ok_bind]
    unfold cvResize
    rw [b5, b6, if_neg c3]
    exact ⟨_, rfl, rfl, rfl⟩
  obtain ⟨sy, d1, d2, d3⟩ := d
  refine ⟨sy, ?_, d2, d3⟩
  unfold applyOtfToImage
  simp only [Bool.not_true, Bool.false_eq_true, if_false, a1, ok_bind, a2, a3, b4, a5, d1, a7]

/-- Non-vacuity of `C86_linear`: `C47_perfect` gives successful calls for all images of one size; an image and its double. -/
example (x : Img) : Mixture 3 (-1) x ⟨x.h, x.w, fun i j => 2 * x.px i j⟩ x :=
  ⟨rfl, rfl, rfl, rfl, fun i _ j _ => by ring⟩

end PyBSM
