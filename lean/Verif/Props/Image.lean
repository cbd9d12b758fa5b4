import Verif.Lemmas.Image
import Verif.Lemmas.Fourier

/-!
# C45, C46, C47: point spread functions, resampling and blurring

Images have arbitrary sizes; `usable` is the flag that OpenCV was imported.
-/

noncomputable section

open Classical

namespace PyBSM

open Spec

/-! ## C46 -/

/-- **C46** (geometry, range, constants): if both sides round to a positive size, the result has these sizes
and stays between any two bounds of the input; taking equal bounds, constant images are reproduced. -/
theorem C46_resample (x : Img) (h1 : x.h ≠ 0) (h2 : x.w ≠ 0) {dxIn dxOut : Scal} {a b : ℝ}
    (ha : dxIn.val = .fin a) (hb : dxOut.val = .fin b) (hb0 : b ≠ 0) {nw nh : ℤ}
    (hw : IsRoundHalfEven (x.w * a / b) nw) (hh : IsRoundHalfEven (x.h * a / b) nh) (pw : 0 < nw) (ph : 0 < nh) :
    ∃ y, resample2D true x dxIn dxOut = .ok y ∧ (y.h : ℤ) = nh ∧ (y.w : ℤ) = nw
      ∧ ∀ lo hi, Within x lo hi → Within y lo hi := by
  obtain ⟨y, e, e1, e2, e3, -⟩ := cvResize_ok (x := x) (nw := nw.toNat) (nh := nh.toNat) h1 h2 (by omega) (by omega)
  refine ⟨y, ?_, by omega, by omega, fun lo hi h i _ j _ => e3 lo hi h i j⟩
  unfold resample2D
  rw [resampledSize_ok _ ha hb hb0, resampledSize_ok _ ha hb hb0, round_unique (roundHalfEven_spec _) hw,
    round_unique (roundHalfEven_spec _) hh]
  exact e

/-- **C46** (identity): equal spacings return the image itself. -/
theorem C46_identity (x : Img) (h1 : x.h ≠ 0) (h2 : x.w ≠ 0) {dxIn dxOut : Scal} {a : ℝ}
    (ha : dxIn.val = .fin a) (hb : dxOut.val = .fin a) (ha0 : a ≠ 0) :
    ∃ y, resample2D true x dxIn dxOut = .ok y ∧ SameImg y x := by
  obtain ⟨y, e, e1, e2, -, e3⟩ := cvResize_ok (x := x) (nw := x.w) (nh := x.h) h1 h2 h2 h1
  refine ⟨y, ?_, e3 rfl rfl⟩
  have hr : ∀ n : ℕ, roundHalfEven (n * a / a) = n := by
    intro n
    have : (n : ℝ) * a / a = n := by field_simp
    rw [this]
    apply round_unique (roundHalfEven_spec _)
    refine ⟨by simp, fun h => ?_⟩
    simp at h
  unfold resample2D
  rw [resampledSize_ok _ ha hb ha0, resampledSize_ok _ ha hb ha0, hr, hr]
  exact e

/-- **C46** (errors): a side that rounds to zero or below, or an empty image, is a `cv2.error`; a missing
OpenCV is an ImportError whatever the arguments; zero spacing of Python numbers is a ZeroDivisionError. -/
theorem C46_errors (x : Img) (dxIn dxOut : Scal) :
    resample2D false x dxIn dxOut = .error .importError
    ∧ (∀ a b : ℝ, dxIn.val = .fin a → dxOut.val = .fin b → b ≠ 0 →
        (x.h = 0 ∨ x.w = 0 ∨ roundHalfEven (x.w * a / b) ≤ 0 ∨ roundHalfEven (x.h * a / b) ≤ 0) →
        resample2D true x dxIn dxOut = .error .cv2Error)
    ∧ (dxIn.IsPy → dxOut.IsPy → dxOut.val = .fin 0 → resample2D true x dxIn dxOut = .error .zeroDivisionError) := by
  refine ⟨rfl, ?_, ?_⟩
  · intro a b ha hb hb0 h
    unfold resample2D
    rw [resampledSize_ok _ ha hb hb0, resampledSize_ok _ ha hb hb0]
    apply cvResize_error
    omega
  · intro h1 h2 h3
    have hp : (Scal.py (.fin x.w) * dxIn).IsPy := by
      cases dxIn with
      | py a => trivial
      | np a => exact absurd h1 id
    have hd : Scal.div (Scal.py (.fin x.w) * dxIn) dxOut = .error .zeroDivisionError :=
      (Scal.div_error_iff _ _ _).mpr ⟨rfl, hp, h2, by rw [h3]; rfl⟩
    unfold resample2D resampledSize
    simp only [hd, error_bind, Bool.not_true, Bool.false_eq_true, if_false]

/-- Non-vacuity: halving the resolution of a 3x5 image; 1.5 rounds to 2 and 2.5 to 2. -/
example : ∃ y, resample2D true ⟨3, 5, fun i j => i + j⟩ (.py (.fin 1)) (.py (.fin 2)) = .ok y
    ∧ (y.h : ℤ) = 2 ∧ (y.w : ℤ) = 2 ∧ Within y 0 6 := by
  obtain ⟨y, e, e1, e2, e3⟩ := C46_resample ⟨3, 5, fun i j => i + j⟩ (by norm_num) (by norm_num)
    (dxIn := .py (.fin 1)) (dxOut := .py (.fin 2)) (a := 1) (b := 2) rfl rfl (by norm_num) (nw := 2) (nh := 2)
    (by
      have e : ((5 : ℕ) : ℝ) * 1 / 2 - ((2 : ℤ) : ℝ) = 1 / 2 := by norm_num
      unfold IsRoundHalfEven
      rw [e, abs_of_pos (by norm_num)]
      exact ⟨le_rfl, fun _ => by decide⟩)
    (by
      have e : ((3 : ℕ) : ℝ) * 1 / 2 - ((2 : ℤ) : ℝ) = -(1 / 2) := by norm_num
      unfold IsRoundHalfEven
      rw [e, abs_neg, abs_of_pos (by norm_num)]
      exact ⟨le_rfl, fun _ => by decide⟩) (by norm_num) (by norm_num)
  refine ⟨y, e, e1, e2, e3 0 6 ?_⟩
  intro i hi j hj
  have hi' : i ≤ 2 := Nat.lt_succ_iff.mp hi
  have hj' : j ≤ 4 := Nat.lt_succ_iff.mp hj
  have a1 : (i : ℝ) ≤ 2 := by exact_mod_cast hi'
  have a2 : (j : ℝ) ≤ 4 := by exact_mod_cast hj'
  have a3 : (0 : ℝ) ≤ i := Nat.cast_nonneg i
  have a4 : (0 : ℝ) ≤ j := Nat.cast_nonneg j
  constructor <;> simp only <;> linarith

/-! ## C45 -/

/-- What a successful `otf_to_psf` computed. -/
theorem otfToPsf_ok {M N : ℕ} {otf : ℕ → ℕ → ℂ} {df dxOut : Scal} {u : Bool} {p : Img}
    (h : otfToPsf u M N otf df dxOut = .ok p) :
    ∃ nx ny q r k, cvResize (rawPsf M N otf) (max 1 nx) (max 1 ny) = .ok q ∧ normalize q = .ok r
      ∧ supportSize r (arange10 (min M N)) = .ok k ∧ normalize (getMiddle r k) = .ok p := by
  cases u with
  | false => cases h
  | true =>
    unfold otfToPsf at h
    simp only [Bool.not_true, Bool.false_eq_true, if_false, bind_ok] at h
    obtain ⟨dxIn, -, sx, -, nx, -, sy, -, ny, -, q, h1, r, h2, k, h3, h4⟩ := h
    exact ⟨_, _, q, r, k, h1, h2, h3, h4⟩

/-- **C45** (normalised): whatever the OTF, a PSF that is returned sums to one. -/
theorem C45_sums_to_one {M N : ℕ} {otf : ℕ → ℕ → ℂ} {df dxOut : Scal} {u : Bool} {p : Img}
    (h : otfToPsf u M N otf df dxOut = .ok p) : p.sum = 1 := by
  obtain ⟨nx, ny, q, r, k, -, -, -, h4⟩ := otfToPsf_ok h
  exact (normalize_ok h4).2.2.2.1

/-- **C45** (small OTFs): an OTF whose smaller side is at most 10 never yields a PSF. -/
theorem C45_small {M N : ℕ} (hs : min M N ≤ 10) (otf : ℕ → ℕ → ℂ) (df dxOut : Scal) (u : Bool) (p : Img) :
    otfToPsf u M N otf df dxOut ≠ .ok p := by
  intro h
  obtain ⟨nx, ny, q, r, k, -, -, h3, -⟩ := otfToPsf_ok h
  have : arange10 (min M N) = [] := by
    unfold arange10
    have : (min M N - 10 + 4) / 5 = 0 := by omega
    rw [this]; rfl
  rw [this] at h3
  cases h3

/-- **C45** (transform): before resampling, pixel `(i, j)` is the real part of the inverse Fourier transform with
both origins at the centre sample, times a phase factor that is 1 for even sizes but not for odd ones: there the
sample next to the centre, not the centre itself, is taken as zero frequency. -/
theorem C45_transform {M N : ℕ} (hM : 0 < M) (hN : 0 < N) (otf : ℕ → ℕ → ℂ) (i j : ℕ) :
    (rawPsf M N otf).px i j = (centredPsf M N otf i j * Complex.exp (-(2 * Real.pi * Complex.I)
      * (((M % 2 : ℕ) : ℂ) * ((i : ℂ) - (M / 2 : ℕ)) / M + ((N % 2 : ℕ) : ℂ) * ((j : ℂ) - (N / 2 : ℕ)) / N))).re := by
  rw [← ifft_shift hM hN]
  rfl

/-- **C45** (even sizes): the transform is centred as intended. -/
theorem C45_even {M N : ℕ} (hM : 0 < M) (hN : 0 < N) (eM : Even M) (eN : Even N) (otf : ℕ → ℕ → ℂ) (i j : ℕ) :
    (rawPsf M N otf).px i j = (centredPsf M N otf i j).re := by
  rw [C45_transform hM hN, Nat.even_iff.mp eM, Nat.even_iff.mp eN]
  simp

theorem centredPsf_real {M N : ℕ} (oM : Odd M) (oN : Odd N) {otf : ℕ → ℕ → ℂ}
    (hsym : ∀ k < M, ∀ l < N, otf (M - 1 - k) (N - 1 - l) = starRingEnd ℂ (otf k l)) (i j : ℕ) :
    (centredPsf M N otf i j).im = 0 := by
  rw [← Complex.conj_eq_iff_im]
  have hM := oM.pos
  have hN := oN.pos
  unfold centredPsf
  rw [map_mul, map_sum]
  congr 1
  · simp
  · rw [← Finset.sum_range_reflect]
    apply Finset.sum_congr rfl
    intro k hk
    have hk : k < M := Finset.mem_range.mp hk
    rw [map_sum, ← Finset.sum_range_reflect]
    apply Finset.sum_congr rfl
    intro l hl
    have hl : l < N := Finset.mem_range.mp hl
    have h0 := hsym (M - 1 - k) (by omega) (N - 1 - l) (by omega)
    rw [show M - 1 - (M - 1 - k) = k by omega, show N - 1 - (N - 1 - l) = l by omega] at h0
    rw [map_mul, ← h0, ← Complex.exp_conj]
    congr 2
    obtain ⟨m, hm⟩ := oM
    obtain ⟨n, hn⟩ := oN
    have c1 : (((M - 1 - k : ℕ) : ℂ)) - (M / 2 : ℕ) = -((k : ℂ) - (M / 2 : ℕ)) := by
      have a : M - 1 - k + k = 2 * (M / 2) := by omega
      have b : ((M - 1 - k + k : ℕ) : ℂ) = ((2 * (M / 2) : ℕ) : ℂ) := by rw [a]
      push_cast at b ⊢
      linear_combination b
    have c2 : (((N - 1 - l : ℕ) : ℂ)) - (N / 2 : ℕ) = -((l : ℂ) - (N / 2 : ℕ)) := by
      have a : N - 1 - l + l = 2 * (N / 2) := by omega
      have b : ((N - 1 - l + l : ℕ) : ℂ) = ((2 * (N / 2) : ℕ) : ℂ) := by rw [a]
      push_cast at b ⊢
      linear_combination b
    rw [c1, c2]
    simp only [map_mul, map_add, map_div₀, map_sub, map_neg, map_natCast, Complex.conj_I, Complex.conj_ofReal,
      map_ofNat]
    ring

/-- **C45** (odd sizes, finding): for the OTF of a real PSF (Hermitian symmetric about the centre sample) of odd
size the result is the PSF multiplied by a cosine across the image. -/
theorem C45_odd {M N : ℕ} (oM : Odd M) (oN : Odd N) {otf : ℕ → ℕ → ℂ}
    (hsym : ∀ k < M, ∀ l < N, otf (M - 1 - k) (N - 1 - l) = starRingEnd ℂ (otf k l)) (i j : ℕ) :
    (rawPsf M N otf).px i j = (centredPsf M N otf i j).re
      * Real.cos (2 * Real.pi * (((i : ℝ) - (M / 2 : ℕ)) / M + ((j : ℝ) - (N / 2 : ℕ)) / N)) := by
  rw [C45_transform oM.pos oN.pos, Nat.odd_iff.mp oM, Nat.odd_iff.mp oN, Complex.mul_re,
    centredPsf_real oM oN hsym, zero_mul, sub_zero]
  congr 1
  have : (-(2 * Real.pi * Complex.I) * (((1 : ℕ) : ℂ) * ((i : ℂ) - (M / 2 : ℕ)) / M
      + ((1 : ℕ) : ℂ) * ((j : ℂ) - (N / 2 : ℕ)) / N))
      = ((-(2 * Real.pi * (((i : ℝ) - (M / 2 : ℕ)) / M + ((j : ℝ) - (N / 2 : ℕ)) / N)) : ℝ) : ℂ) * Complex.I := by
    push_cast
    ring
  rw [this, Complex.exp_ofReal_mul_I_re, Real.cos_neg]

/-- **C45** (total): the PSF before resampling sums to one sample of the OTF: for even sizes the centre one, for odd
sizes above 1 its successor in both directions. -/
theorem C45_total {M N : ℕ} (hM : 0 < M) (hN : 0 < N) (otf : ℕ → ℕ → ℂ) :
    (rawPsf M N otf).sum = (otf (fftshiftIdx M 0) (fftshiftIdx N 0)).re
    ∧ (Even M → fftshiftIdx M 0 = M / 2) ∧ (Odd M → 1 < M → fftshiftIdx M 0 = M / 2 + 1) := by
  refine ⟨?_, ?_, ?_⟩
  · have h := ifft2_sum hM hN (fun k l => otf (fftshiftIdx M k) (fftshiftIdx N l))
    rw [← h]
    unfold Img.sum rawPsf
    dsimp only
    rw [Complex.re_sum]
    have e1 : ∀ i, ∑ j ∈ Finset.range N, (ifft2 M N (fun k l => otf (fftshiftIdx M k) (fftshiftIdx N l))
        (fftshiftIdx M i) (fftshiftIdx N j)).re
        = (∑ j ∈ Finset.range N, ifft2 M N (fun k l => otf (fftshiftIdx M k) (fftshiftIdx N l))
          (fftshiftIdx M i) j).re := by
      intro i
      rw [← sum_shift hN (fun j => ifft2 M N (fun k l => otf (fftshiftIdx M k) (fftshiftIdx N l))
          (fftshiftIdx M i) j), Complex.re_sum]
    simp only [e1]
    rw [← Complex.re_sum, ← Complex.re_sum]
    exact congrArg Complex.re (sum_shift hM (fun i => ∑ j ∈ Finset.range N,
      ifft2 M N (fun k l => otf (fftshiftIdx M k) (fftshiftIdx N l)) i j))
  · rintro ⟨m, rfl⟩
    unfold fftshiftIdx
    rw [Nat.mod_eq_of_lt (by omega)]; omega
  · rintro ⟨m, rfl⟩ h
    unfold fftshiftIdx
    rw [Nat.mod_eq_of_lt (by omega)]; omega

/-- **C45** (all-ones OTF): the transform is the unit impulse at the centre pixel, for every size. -/
theorem C45_impulse {M N : ℕ} (hM : 0 < M) (hN : 0 < N) :
    SameImg (rawPsf M N fun _ _ => 1) (impulse M N (M / 2) (N / 2)) := by
  refine ⟨rfl, rfl, ?_⟩
  intro i hi j hj
  have hi : i < M := hi
  have hj : j < N := hj
  show (ifft2 M N (fun _ _ => 1) (fftshiftIdx M i) (fftshiftIdx N j)).re = if i = M / 2 ∧ j = N / 2 then 1 else 0
  rw [ifft2_ones hM hN (fftshiftIdx_lt hM i) (fftshiftIdx_lt hN j)]
  have e : (fftshiftIdx M i = 0 ∧ fftshiftIdx N j = 0) ↔ (i = M / 2 ∧ j = N / 2) := by
    rw [fftshift_eq_zero hi, fftshift_eq_zero hj]
  simp only [e]
  split_ifs <;> simp

/-- **C45** (cropping): a crop no larger than the image is its centre part, of size `k` or `k + 1`. -/
theorem C45_crop (x : Img) {k : ℕ} (h1 : k ≤ x.h) (h2 : k ≤ x.w) :
    (getMiddle x k).h = k + (x.h + k) % 2 ∧ (getMiddle x k).w = k + (x.w + k) % 2
    ∧ ∀ i j, (getMiddle x k).px i j = x.px ((x.h - k) / 2 + i) ((x.w - k) / 2 + j) := by
  have lo : ∀ d : ℕ, k ≤ d → pySliceBound d (((d : ℤ) - k) / 2) = (d - k) / 2 := by
    intro d hd
    unfold pySliceBound
    rw [if_neg (by omega)]
    omega
  have hi : ∀ d : ℕ, k ≤ d → pySliceBound d (((d : ℤ) + k + 1) / 2) = (d + k + 1) / 2 := by
    intro d hd
    unfold pySliceBound
    rw [if_neg (by omega)]
    omega
  unfold getMiddle
  dsimp only
  rw [lo _ h1, lo _ h2, hi _ h1, hi _ h2]
  exact ⟨by omega, by omega, fun i j => rfl⟩

/-- **C45** (cropping a smaller PSF, finding): the negative slice start counts from the end, so that the crop of size
10 of a 9x9 PSF is not the whole PSF but its last pixel. -/
theorem C45_crop_small (px : ℕ → ℕ → ℝ) :
    (getMiddle ⟨9, 9, px⟩ 10).h = 1 ∧ (getMiddle ⟨9, 9, px⟩ 10).w = 1 ∧ (getMiddle ⟨9, 9, px⟩ 10).px 0 0 = px 8 8 := by
  have e : Int.toNat 8 = 8 := rfl
  unfold getMiddle pySliceBound
  exact ⟨by norm_num [e], by norm_num [e], by norm_num [e]⟩

theorem impulse_crop {x : Img} {M : ℕ} (h : SameImg x (impulse M M (M / 2) (M / 2))) (hM : 10 < M) :
    SameImg (getMiddle x 10) (impulse (10 + M % 2) (10 + M % 2) 5 5) := by
  have e1 : x.h = M := h.h
  have e2 : x.w = M := h.w
  obtain ⟨c1, c2, c3⟩ := C45_crop x (k := 10) (by omega) (by omega)
  refine ⟨?_, ?_, ?_⟩
  · rw [c1]; show _ = 10 + M % 2; omega
  · rw [c2]; show _ = 10 + M % 2; omega
  · intro i hi j hj
    rw [c1] at hi
    rw [c2] at hj
    rw [c3, h.px _ (by omega) _ (by omega)]
    show (if _ then (1 : ℝ) else 0) = if _ then (1 : ℝ) else 0
    have : ((x.h - 10) / 2 + i = M / 2 ∧ (x.w - 10) / 2 + j = M / 2) ↔ (i = 5 ∧ j = 5) := by omega
    simp only [this]

theorem supportSize_head {psf : Img} {n : ℕ} (hn : 10 < n) (h : 0.95 < (getMiddle psf 10).sum) :
    supportSize psf (arange10 n) = .ok 10 := by
  unfold arange10
  obtain ⟨m, hm⟩ : ∃ m, (n - 10 + 4) / 5 = m + 1 := ⟨(n - 10 + 4) / 5 - 1, by omega⟩
  rw [hm, List.range_succ_eq_map, List.map_cons, List.map_map]
  cases hm' : (List.map ((fun i => 10 + 5 * i) ∘ Nat.succ) (List.range m)) with
  | nil => rfl
  | cons a t => unfold supportSize; rw [if_pos h]

theorem normalize_same {x y : Img} (h : SameImg x y) (hs : y.sum = 1) :
    ∃ z, normalize x = .ok z ∧ SameImg z y := by
  refine ⟨x, normalize_one ((sum_congr h).trans hs), h⟩

/-- `otf_to_psf` of an all-ones OTF at its own spacing, up to the cropping step. -/
theorem otfToPsf_matched {M : ℕ} (hM : 0 < M) {df dxOut : Scal} {d : ℝ} (hd : df.val = .fin d) (hd0 : d ≠ 0)
    (ho : dxOut.val = .fin (1 / (M * d))) :
    ∃ z, SameImg z (impulse M M (M / 2) (M / 2)) ∧ otfToPsf true M M (fun _ _ => 1) df dxOut
      = (supportSize z (arange10 M)).bind fun k => normalize (getMiddle z k) := by
  have hM0 : (M : ℝ) ≠ 0 := by positivity
  have hx : (Scal.py (.fin (M : ℝ)) * df).val = .fin (M * d) := by
    rw [Scal.val_mul, hd]; exact XR.fin_mul _ _
  obtain ⟨q, e1, e2⟩ := Scal.div_fin (a := .py 1) (x := 1) rfl hx (mul_ne_zero hM0 hd0)
  have hy : (Scal.py (.fin (M : ℝ)) * q).val = .fin (M * (1 / (M * d))) := by
    rw [Scal.val_mul, e2]; exact XR.fin_mul _ _
  have ho0 : (1 : ℝ) / (M * d) ≠ 0 := one_div_ne_zero (mul_ne_zero hM0 hd0)
  obtain ⟨sx, e3, e4⟩ := Scal.div_fin hy ho ho0
  have e5 : (M : ℝ) * (1 / (M * d)) / (1 / (M * d)) = M := by field_simp
  rw [e5] at e4
  have e6 : pyInt sx.val = .ok M := by
    rw [e4]
    unfold pyInt
    dsimp only
    rw [if_pos (Nat.cast_nonneg M), Int.floor_natCast]
  obtain ⟨r, e7, -, -, -, e8⟩ := cvResize_ok (x := rawPsf M M fun _ _ => 1) (nw := M) (nh := M)
    (by show M ≠ 0; omega) (by show M ≠ 0; omega) (by omega) (by omega)
  have hraw := C45_impulse (M := M) (N := M) (by omega) (by omega)
  have hr : SameImg r (impulse M M (M / 2) (M / 2)) := by
    have a := e8 rfl rfl
    refine ⟨a.h.trans hraw.h, a.w.trans hraw.w, fun i hi j hj => ?_⟩
    rw [a.px i hi j hj]
    exact hraw.px i (by rw [← a.h]; exact hi) j (by rw [← a.w]; exact hj)
  obtain ⟨z, e9, hz⟩ := normalize_same hr (impulse_sum (by omega) (by omega))
  refine ⟨z, hz, ?_⟩
  have hmax : max 1 (M : ℤ).toNat = M := by rw [Int.toNat_natCast]; omega
  unfold otfToPsf
  simp only [Bool.not_true, Bool.false_eq_true, if_false, e1, ok_bind, e3, e6, hmax, e7, e9, min_self]
  rfl

/-- **C45** (perfect optics): an all-ones OTF of more than 10 samples a side, resampled to its own spacing
`1 / (M df)`, gives a kernel with a single pixel 1 at the position (5, 5) that OpenCV uses as the anchor. -/
theorem C45_perfect {M : ℕ} (hM : 10 < M) {df dxOut : Scal} {d : ℝ} (hd : df.val = .fin d) (hd0 : d ≠ 0)
    (ho : dxOut.val = .fin (1 / (M * d))) :
    ∃ p, otfToPsf true M M (fun _ _ => 1) df dxOut = .ok p
      ∧ SameImg p (impulse (10 + M % 2) (10 + M % 2) 5 5) := by
  obtain ⟨z, hz, e⟩ := otfToPsf_matched (by omega) hd hd0 ho
  have hcrop := impulse_crop hz hM
  have hsum : (impulse (10 + M % 2) (10 + M % 2) 5 5).sum = 1 := impulse_sum (by omega) (by omega)
  obtain ⟨p, e10, hp⟩ := normalize_same hcrop hsum
  refine ⟨p, ?_, hp⟩
  rw [e, supportSize_head hM (by rw [sum_congr hcrop, hsum]; norm_num)]
  exact e10

/-- **C45** (small OTFs, error): the exception is an UnboundLocalError, here for the all-ones OTF of every size up to
10, which has a perfectly good PSF. -/
theorem C45_small_error {M : ℕ} (hM0 : 0 < M) (hM : M ≤ 10) {df dxOut : Scal} {d : ℝ} (hd : df.val = .fin d)
    (hd0 : d ≠ 0) (ho : dxOut.val = .fin (1 / (M * d))) :
    otfToPsf true M M (fun _ _ => 1) df dxOut = .error .unboundLocalError := by
  obtain ⟨z, -, e⟩ := otfToPsf_matched hM0 hd hd0 ho
  have : arange10 M = [] := by
    unfold arange10
    have : (M - 10 + 4) / 5 = 0 := by omega
    rw [this]; rfl
  rw [e, this]
  rfl

/-- Non-vacuity of `C45_sums_to_one`: a 12x12 OTF. -/
example : ∃ p, otfToPsf true 12 12 (fun _ _ => 1) (.py (.fin 0.5)) (.py (.fin (1 / 6))) = .ok p ∧ p.sum = 1
    ∧ p.h = 10 := by
  obtain ⟨p, h, hs⟩ := C45_perfect (M := 12) (df := .py (.fin 0.5)) (dxOut := .py (.fin (1 / 6))) (d := 0.5)
    (by norm_num) rfl (by norm_num) (by show XR.fin _ = _; norm_num)
  exact ⟨p, h, C45_sums_to_one h, hs.h⟩

/-- Non-vacuity of `C45_odd`: the all-ones OTF is Hermitian symmetric. -/
example : ∀ k < 11, ∀ l < 11, (fun _ _ => 1 : ℕ → ℕ → ℂ) (11 - 1 - k) (11 - 1 - l)
    = starRingEnd ℂ ((fun _ _ => 1 : ℕ → ℕ → ℂ) k l) := by
  intro k _ l _
  simp

/-! ## C47 -/

/-- What a successful `apply_otf_to_image` computed. -/
theorem applyOtf_ok {u : Bool} {x : Img} {gsd range df ifov : Scal} {M N : ℕ} {otf : ℕ → ℕ → ℂ} {sim sp : Img}
    (h : applyOtfToImage u x gsd range M N otf df ifov = .ok (sim, sp)) :
    u = true ∧ ∃ half q psf blur dxIn, Scal.div gsd (.py 2) = .ok half ∧ Scal.div half range = .ok q
      ∧ otfToPsf true M N otf df (.np (2 * q.val.arctan)) = .ok psf ∧ filter2D x psf = .ok blur
      ∧ Scal.div gsd range = .ok dxIn ∧ resample2D true blur dxIn ifov = .ok sim
      ∧ resample2D true psf dxIn ifov = .ok sp := by
  cases u with
  | false => cases h
  | true =>
    unfold applyOtfToImage at h
    simp only [Bool.not_true, Bool.false_eq_true, if_false, bind_ok] at h
    obtain ⟨half, h1, q, h2, psf, h3, blur, h4, dxIn, h5, a, h6, b, h7, h8⟩ := h
    rw [Except.ok.injEq, Prod.mk.injEq] at h8
    obtain ⟨rfl, rfl⟩ := h8
    exact ⟨rfl, half, q, psf, blur, dxIn, h1, h2, h3, h4, h5, h6, h7⟩

theorem resample_within {x y : Img} {dxIn dxOut : Scal} {u : Bool} (h : resample2D u x dxIn dxOut = .ok y) {lo hi : ℝ}
    (hx : Within x lo hi) : Within y lo hi := by
  cases u with
  | false => cases h
  | true =>
    unfold resample2D at h
    simp only [Bool.not_true, Bool.false_eq_true, if_false, bind_ok] at h
    obtain ⟨nx, -, ny, -, h⟩ := h
    by_cases hz : x.h = 0 ∨ x.w = 0 ∨ nx.toNat = 0 ∨ ny.toNat = 0
    · rw [cvResize_error hz] at h; cases h
    · push Not at hz
      obtain ⟨z, e, -, -, e3, -⟩ := cvResize_ok hz.1 hz.2.1 hz.2.2.1 hz.2.2.2
      rw [e, Except.ok.injEq] at h
      subst h
      exact fun i _ j _ => e3 lo hi hx i j

/-- **C47** (constants): whatever the OTF and the geometry, a constant image is blurred to the same constant. -/
theorem C47_constant {u : Bool} {x : Img} {gsd range df ifov : Scal} {M N : ℕ} {otf : ℕ → ℕ → ℂ} {sim sp : Img}
    (h : applyOtfToImage u x gsd range M N otf df ifov = .ok (sim, sp)) {c : ℝ}
    (hx : ∀ i < x.h, ∀ j < x.w, x.px i j = c) : ∀ i < sim.h, ∀ j < sim.w, sim.px i j = c := by
  obtain ⟨-, half, q, psf, blur, dxIn, -, -, h3, h4, -, h6, -⟩ := applyOtf_ok h
  have hsum := C45_sums_to_one h3
  by_cases hz : x.h = 0 ∨ x.w = 0 ∨ psf.h = 0 ∨ psf.w = 0
  · rw [filter2D_error hz] at h4; cases h4
  push Not at hz
  obtain ⟨y, e, e1, e2, e3, -, -⟩ := filter2D_ok hz.1 hz.2.1 hz.2.2.1 hz.2.2.2
  rw [e, Except.ok.injEq] at h4
  subst h4
  have hc : Within y c c := by
    intro i _ j _
    rw [e3 c (fun i hi j hj => by rw [hx i hi j hj]; exact ⟨le_rfl, le_rfl⟩), hsum, one_mul]
    exact ⟨le_rfl, le_rfl⟩
  intro i hi j hj
  have := resample_within h6 hc i hi j hj
  exact le_antisymm this.2 this.1

/-- **C47** (range): if the PSF derived from the OTF has no negative pixel, the result stays within any bounds of
the reference image. -/
theorem C47_range {u : Bool} {x : Img} {gsd range df ifov : Scal} {M N : ℕ} {otf : ℕ → ℕ → ℂ} {sim sp : Img}
    (h : applyOtfToImage u x gsd range M N otf df ifov = .ok (sim, sp))
    (hpsf : ∀ half q p, Scal.div gsd (.py 2) = .ok half → Scal.div half range = .ok q →
      otfToPsf true M N otf df (.np (2 * q.val.arctan)) = .ok p → ∀ i < p.h, ∀ j < p.w, 0 ≤ p.px i j)
    {lo hi : ℝ} (hx : Within x lo hi) : Within sim lo hi := by
  obtain ⟨-, half, q, psf, blur, dxIn, h1, h2, h3, h4, -, h6, -⟩ := applyOtf_ok h
  have hsum := C45_sums_to_one h3
  by_cases hz : x.h = 0 ∨ x.w = 0 ∨ psf.h = 0 ∨ psf.w = 0
  · rw [filter2D_error hz] at h4; cases h4
  push Not at hz
  obtain ⟨y, e, -, -, -, e3, -⟩ := filter2D_ok hz.1 hz.2.1 hz.2.2.1 hz.2.2.2
  rw [e, Except.ok.injEq] at h4
  subst h4
  exact resample_within h6 fun i _ j _ => e3 lo hi hx (hpsf half q psf h1 h2 h3) hsum i j

/-- **C47** (perfect optics): an all-ones OTF whose frequency spacing matches the image's pixels, and a camera whose field
of view per pixel is that of the image, return the image unchanged. -/
theorem C47_perfect {x : Img} (hxh : x.h ≠ 0) (hxw : x.w ≠ 0) {M : ℕ} (hM : 10 < M) {gsd range df ifov : Scal}
    {g r : ℝ} (hg : gsd.val = .fin g) (hr : range.val = .fin r) (hg0 : 0 < g) (hr0 : 0 < r)
    (hd : df.val = .fin (1 / (M * (2 * Real.arctan (g / 2 / r))))) (hi : ifov.val = .fin (g / r)) :
    ∃ sim sp, applyOtfToImage true x gsd range M M (fun _ _ => 1) df ifov = .ok (sim, sp) ∧ SameImg sim x := by
  have hM0 : (0 : ℝ) < M := by
    have : 0 < M := by omega
    positivity
  have hat : 0 < Real.arctan (g / 2 / r) := by
    rw [← Real.arctan_zero]; exact Real.arctan_strictMono (by positivity)
  obtain ⟨half, a1, a2⟩ := Scal.div_fin hg (b := .py 2) (y := 2) rfl two_ne_zero
  obtain ⟨q, a3, a4⟩ := Scal.div_fin a2 hr hr0.ne'
  obtain ⟨dxIn, a5, a6⟩ := Scal.div_fin hg hr hr0.ne'
  have hq : (2 * q.val.arctan : XR) = .fin (2 * Real.arctan (g / 2 / r)) := by
    rw [a4]
    show (2 : XR) * .fin (Real.arctan (g / 2 / r)) = _
    exact XR.fin_mul _ _
  obtain ⟨psf, b1, b2⟩ := C45_perfect hM hd (by positivity)
    (dxOut := .np (.fin (2 * Real.arctan (g / 2 / r)))) (by
      rw [Scal.val_np, XR.fin_inj]; field_simp)
  have p1 : psf.h = 10 + M % 2 := b2.h
  have p2 : psf.w = 10 + M % 2 := b2.w
  obtain ⟨blur, c1, c2, c3, -, -, c4⟩ := filter2D_ok (x := x) (k := psf) hxh hxw (by omega) (by omega)
  have c5 := c4 5 5 (by omega) (by omega) (by rw [p1, p2]; exact b2)
  obtain ⟨sim, d1, d2⟩ := C46_identity blur (by rw [c2]; exact hxh) (by rw [c3]; exact hxw) a6 hi (by positivity)
  obtain ⟨sp, d3, -⟩ := C46_identity psf (by omega) (by omega) a6 hi (by positivity)
  refine ⟨sim, sp, ?_, ?_⟩
  · unfold applyOtfToImage
    simp only [Bool.not_true, Bool.false_eq_true, if_false, a1, ok_bind, a3, hq, b1, c1, a5, d1, d3]
  · refine ⟨d2.h.trans c5.h, d2.w.trans c5.w, fun i hi j hj => ?_⟩
    rw [d2.px i hi j hj]
    exact c5.px i (by rw [← d2.h]; exact hi) j (by rw [← d2.w]; exact hj)

/-- **C47** (errors): without OpenCV, ImportError; a zero range of a Python number, ZeroDivisionError. -/
theorem C47_errors (x : Img) (gsd range df ifov : Scal) (M N : ℕ) (otf : ℕ → ℕ → ℂ) :
    applyOtfToImage false x gsd range M N otf df ifov = .error .importError
    ∧ (gsd.IsPy → range.IsPy → range.val = .fin 0 →
        applyOtfToImage true x gsd range M N otf df ifov = .error .zeroDivisionError) := by
  refine ⟨rfl, fun h1 h2 h3 => ?_⟩
  cases gsd with
  | np a => exact absurd h1 id
  | py a =>
    have e : ∃ z, Scal.div (.py a) (.py 2) = .ok (.py z) := by
      refine ⟨a / 2, ?_⟩
      unfold Scal.div
      simp only
      rw [if_neg]
      intro h
      have : (2 : ℝ) = 0 := h
      norm_num at this
    obtain ⟨z, e⟩ := e
    have hd : Scal.div (.py z) range = .error .zeroDivisionError :=
      (Scal.div_error_iff _ _ _).mpr ⟨rfl, trivial, h2, by rw [h3]; rfl⟩
    unfold applyOtfToImage
    simp only [Bool.not_true, Bool.false_eq_true, if_false, e, ok_bind, hd, error_bind]

/-- Non-vacuity: a 2x3 image through perfect optics with an 11x11 OTF. -/
example : ∃ sim sp, applyOtfToImage true ⟨2, 3, fun i j => i * 10 + j⟩ (.py (.fin 0.1)) (.py (.fin 1000)) 11 11
    (fun _ _ => 1) (.py (.fin (1 / ((11 : ℕ) * (2 * Real.arctan (0.1 / 2 / 1000)))))) (.py (.fin (0.1 / 1000)))
      = .ok (sim, sp) ∧ sim.px 1 2 = 12 := by
  obtain ⟨sim, sp, h, hs⟩ := C47_perfect (x := ⟨2, 3, fun i j => i * 10 + j⟩) (by norm_num) (by norm_num) (M := 11)
    (by norm_num) (gsd := .py (.fin 0.1)) (range := .py (.fin 1000))
    (df := .py (.fin (1 / ((11 : ℕ) * (2 * Real.arctan (0.1 / 2 / 1000))))))
    (ifov := .py (.fin (0.1 / 1000))) (g := 0.1) (r := 1000) rfl rfl (by norm_num) (by norm_num) rfl rfl
  refine ⟨sim, sp, h, ?_⟩
  rw [hs.px 1 (by rw [hs.h]; norm_num) 2 (by rw [hs.w]; norm_num)]
  norm_num

end PyBSM
