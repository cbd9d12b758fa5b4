import Verif.Lemmas.Filter
import Verif.Lemmas.Band
import Verif.Lemmas.Scal

/-!
# C44: the OTF of a sharpening kernel

`diag` is an arbitrary choice of diagonals in the triangulation of the lookup grid: the statements hold for
whatever triangulation SciPy makes.
-/

noncomputable section

open Classical

namespace PyBSM

open Spec

theorem filterOTF_vec (diag : ℕ → ℕ → Bool) (k : Kernel) {ifov : Scal} {a : ℝ} (hi : ifov.val = .fin a) (ha : a ≠ 0)
    (m : ℕ) (U V : ℕ → ℝ) :
    filterOTF diag (vec m U) (vec m V) k ifov = .ok (vec m fun j => filterElt diag k (0.5 / a) (U j) (V j)) := by
  obtain ⟨n, e3, e4⟩ := Scal.div_fin (a := .py 0.5) (x := 0.5) rfl hi ha
  unfold filterOTF
  rw [e3, ok_bind, e4]
  apply bc2_vec
  intro x y
  have : (0.5 : ℝ) / a ≠ 0 := div_ne_zero (by norm_num) ha
  simp only [if_neg this]

/-- **C44** (periodic): shifting the frequencies by whole multiples of the sampling frequency `1 / ifov`,
independently in the two axes and at every sample, changes nothing. -/
theorem C44_periodic (diag : ℕ → ℕ → Bool) (k : Kernel) {ifov : Scal} {a : ℝ} (hi : ifov.val = .fin a) (ha : a ≠ 0)
    (m : ℕ) (U V : ℕ → ℝ) (p q : ℕ → ℤ) :
    filterOTF diag (vec m fun j => U j + p j * (1 / a)) (vec m fun j => V j + q j * (1 / a)) k ifov
      = filterOTF diag (vec m U) (vec m V) k ifov := by
  rw [filterOTF_vec diag k hi ha, filterOTF_vec diag k hi ha]
  congr 2
  funext j
  have hn : (0.5 : ℝ) / a ≠ 0 := div_ne_zero (by norm_num) ha
  have h2 : (1 : ℝ) / a = 2 * (0.5 / a) := by ring
  unfold filterElt
  rw [h2, wrap_periodic hn, wrap_periodic hn]

/-- **C44** (bounded): the value lies between 0 and the sum of the absolute values of the kernel. -/
theorem C44_bounded (diag : ℕ → ℕ → Bool) (k : Kernel) {ifov : Scal} {a : ℝ} (hi : ifov.val = .fin a) (ha : a ≠ 0)
    (m : ℕ) (U V : ℕ → ℝ) :
    ∃ H : ℕ → ℝ, filterOTF diag (vec m U) (vec m V) k ifov = .ok (vec m H)
      ∧ ∀ j, 0 ≤ H j ∧ H j ≤ absSum k :=
  ⟨_, filterOTF_vec diag k hi ha m U V, fun j =>
    filterElt_bounds diag k (div_ne_zero (by norm_num) ha) (fun i j => ⟨xferFcn_nonneg k i j, xferFcn_le k i j⟩) _ _⟩

theorem kernelSpectrum_one (fx fy : ℝ) : kernelSpectrum [[1]] fx fy = 1 := by
  simp [kernelSpectrum, entry]

/-- **C44** (identity kernel): 1 at every frequency. -/
theorem C44_identity (diag : ℕ → ℕ → Bool) {ifov : Scal} {a : ℝ} (hi : ifov.val = .fin a) (ha : a ≠ 0)
    (m : ℕ) (U V : ℕ → ℝ) :
    filterOTF diag (vec m U) (vec m V) [[1]] ifov = .ok (vec m fun _ => 1) := by
  rw [filterOTF_vec diag _ hi ha]
  congr 2
  funext j
  have hf : Fits [[1]] := ⟨by norm_num, by simp⟩
  have := filterElt_bounds (lo := 1) (hi := 1) diag [[1]] (n := 0.5 / a) (div_ne_zero (by norm_num) ha)
    (fun i j => by rw [xferFcn_spectrum hf, kernelSpectrum_one]; exact ⟨le_rfl, le_rfl⟩) (U j) (V j)
  exact le_antisymm this.2 this.1

theorem triInterp_corner (d : Bool) (z00 z01 z10 z11 : ℝ) :
    triInterp d z00 z01 z10 z11 0 0 = z00 ∧ triInterp d z00 z01 z10 z11 0 1 = z10 := by
  unfold triInterp
  cases d <;> norm_num

theorem filterElt_grid (diag : ℕ → ℕ → Bool) (k : Kernel) {n : ℝ} (hn : n ≠ 0) {i j : ℕ} (hi : 1 ≤ i) (hi' : i ≤ 99)
    (hj : j ≤ 98) : filterElt diag k n (n * (2 * j / 99 - 1)) (n * (1 - 2 * i / 99)) = xferFcn k i j := by
  unfold filterElt
  dsimp only
  rw [xpos hn, ypos hn]
  have e1 : (n * (2 * j / 99 - 1) + n) / (2 * n) = (j : ℝ) / 99 := by field_simp; ring
  have e2 : (n * (1 - 2 * i / 99) + n) / (2 * n) = 1 - (i : ℝ) / 99 := by field_simp; ring
  have hj' : (j : ℝ) ≤ 98 := by exact_mod_cast hj
  have h1 : (1 : ℝ) ≤ i := by exact_mod_cast hi
  have h2 : (i : ℝ) ≤ 99 := by exact_mod_cast hi'
  have f1 : Int.fract ((j : ℝ) / 99) = j / 99 := by
    rw [Int.fract_eq_self]
    exact ⟨by positivity, by rw [div_lt_one (by norm_num)]; linarith⟩
  have f2 : Int.fract (1 - (i : ℝ) / 99) = 1 - i / 99 := by
    rw [Int.fract_eq_self]
    constructor
    · rw [sub_nonneg, div_le_one (by norm_num)]; exact h2
    · have : 0 < (i : ℝ) / 99 := by positivity
      linarith
  rw [e1, e2, f1, f2]
  have g1 : (j : ℝ) / 99 * 99 = j := by ring
  have g2 : (1 - (1 - (i : ℝ) / 99)) * 99 = i := by ring
  rw [g1, g2, Nat.floor_natCast, Nat.floor_natCast, inf_eq_left.mpr hj, sub_self]
  rcases Nat.lt_or_ge 98 i with h | h
  · have : i = 99 := by omega
    subst this
    have : ((99 : ℕ) : ℝ) - ((99 ⊓ 98 : ℕ) : ℝ) = 1 := by norm_num
    rw [this, (triInterp_corner _ _ _ _ _).2]
    norm_num
  · rw [inf_eq_left.mpr h, sub_self, (triInterp_corner _ _ _ _ _).1]

/-- **C44** (transform of the kernel, and its registration): at the nodes `u = nyq (2j/99 - 1)`,
`v = nyq (1 - 2i/99)` of the lookup grid the value is the modulus of the kernel's transform, but taken at
`(j-50)/100` and `(i-50)/100` cycles per pixel, whereas the node is at `u * ifov = (j-49.5)/99` cycles per pixel. -/
theorem C44_sampled (diag : ℕ → ℕ → Bool) {k : Kernel} (hk : Fits k) {ifov : Scal} {a : ℝ} (hi : ifov.val = .fin a)
    (ha : a ≠ 0) (m : ℕ) (i j : ℕ → ℕ) (h1 : ∀ l, 1 ≤ i l) (h2 : ∀ l, i l ≤ 99) (h3 : ∀ l, j l ≤ 98) :
    filterOTF diag (vec m fun l => ((j l : ℝ) - 49.5) / 99 / a) (vec m fun l => -(((i l : ℝ) - 49.5) / 99 / a)) k ifov
      = .ok (vec m fun l => kernelSpectrum k ((j l - 50) / 100) ((i l - 50) / 100)) := by
  rw [filterOTF_vec diag k hi ha]
  congr 2
  funext l
  have hn : (0.5 : ℝ) / a ≠ 0 := div_ne_zero (by norm_num) ha
  rw [← xferFcn_spectrum hk, ← filterElt_grid diag k hn (h1 l) (h2 l) (h3 l)]
  congr 1 <;> ring

theorem filterElt_dc (diag : ℕ → ℕ → Bool) (k : Kernel) {n : ℝ} (hn : n ≠ 0) :
    filterElt diag k n 0 0 = if diag 49 49 then (xferFcn k 49 49 + xferFcn k 50 50) / 2
      else (xferFcn k 49 50 + xferFcn k 50 49) / 2 := by
  unfold filterElt
  dsimp only
  rw [xpos hn, ypos hn]
  have e1 : (0 + n) / (2 * n) = 1 / 2 := by rw [zero_add]; field_simp
  have f1 : Int.fract ((1 : ℝ) / 2) = 1 / 2 := by
    rw [Int.fract_eq_self]; norm_num
  rw [e1, f1]
  have g : (1 - (1 : ℝ) / 2) * 99 = 1 / 2 * 99 := by ring
  have hfl : ⌊(1 : ℝ) / 2 * 99⌋₊ = 49 := by
    rw [Nat.floor_eq_iff (by norm_num)]; norm_num
  rw [g, hfl]
  have hm : (49 ⊓ 98 : ℕ) = 49 := by norm_num
  rw [hm]
  have hh : (1 : ℝ) / 2 * 99 - (49 : ℕ) = 1 / 2 := by norm_num
  rw [hh]
  unfold triInterp
  cases diag 49 49 <;> norm_num <;> ring

/-- **C44** (zero frequency): the value is the mean of two of the four neighbouring samples, of which only
one diagonal contains the kernel's sum (`kernelSpectrum k 0 0`). -/
theorem C44_dc (diag : ℕ → ℕ → Bool) {k : Kernel} (hk : Fits k) {ifov : Scal} {a : ℝ} (hi : ifov.val = .fin a)
    (ha : a ≠ 0) :
    filterOTF diag [.fin 0] [.fin 0] k ifov
      = .ok [.fin (if diag 49 49 then (kernelSpectrum k (-0.01) (-0.01) + kernelSpectrum k 0 0) / 2
          else (kernelSpectrum k 0 (-0.01) + kernelSpectrum k (-0.01) 0) / 2)] := by
  have h := filterOTF_vec diag k hi ha 1 (fun _ => 0) (fun _ => 0)
  refine h.trans ?_
  rw [filterElt_dc diag k (div_ne_zero (by norm_num) ha)]
  simp only [xferFcn_spectrum hk]
  norm_num [vec]

theorem kernelSpectrum_sharpen (fx fy : ℝ) :
    kernelSpectrum [[-1], [2]] fx fy ^ 2 = 5 - 4 * Real.cos (2 * Real.pi * fy) := by
  have h : kernelSpectrum [[-1], [2]] fx fy
      = ‖(-1 : ℂ) + 2 * Complex.exp (((-2 * Real.pi * fy : ℝ) : ℂ) * Complex.I)‖ := by
    unfold kernelSpectrum entry
    simp only [List.length_cons, List.length_nil, Finset.sum_range_succ, Finset.range_zero, Finset.sum_empty,
      List.getD_cons_zero, List.getD_cons_succ, zero_add]
    congr 2
    · simp
    · push_cast
      congr 2
      ring
  rw [h, ← Complex.normSq_eq_norm_sq, Complex.exp_mul_I, ← Complex.ofReal_cos, ← Complex.ofReal_sin,
    Complex.normSq_apply]
  simp only [Complex.add_re, Complex.neg_re, Complex.one_re, Complex.mul_re, Complex.re_ofNat, Complex.im_ofNat,
    Complex.ofReal_re, Complex.ofReal_im, Complex.I_re, Complex.I_im, Complex.add_im, Complex.neg_im,
    Complex.one_im, Complex.mul_im]
  have e : -2 * Real.pi * fy = -(2 * Real.pi * fy) := by ring
  rw [e, Real.cos_neg, Real.sin_neg]
  nlinarith [Real.sin_sq_add_cos_sq (2 * Real.pi * fy)]

/-- **C44** (finding): a kernel that sums to one does not have filter OTF one at zero frequency, whatever the
triangulation. -/
theorem C44_dc_not_one (diag : ℕ → ℕ → Bool) {ifov : Scal} {a : ℝ} (hi : ifov.val = .fin a) (ha : a ≠ 0) :
    (([[-1], [2]] : Kernel).flatten).sum = 1
    ∧ ∃ h : ℝ, filterOTF diag [.fin 0] [.fin 0] [[-1], [2]] ifov = .ok [.fin h] ∧ 1 < h := by
  refine ⟨by norm_num, _, C44_dc diag ⟨by norm_num, by simp⟩ hi ha, ?_⟩
  have h0 : ∀ fx, kernelSpectrum [[-1], [2]] fx 0 = 1 := by
    intro fx
    have := kernelSpectrum_sharpen fx 0
    rw [mul_zero, Real.cos_zero] at this
    have hn : 0 ≤ kernelSpectrum [[-1], [2]] fx 0 := norm_nonneg _
    nlinarith
  have h1 : ∀ fx, 1 < kernelSpectrum [[-1], [2]] fx (-0.01) := by
    intro fx
    have := kernelSpectrum_sharpen fx (-0.01)
    have hc : Real.cos (2 * Real.pi * -0.01) < 1 := by
      rw [show 2 * Real.pi * (-0.01) = -(Real.pi * 0.02) by ring, Real.cos_neg, ← Real.cos_zero]
      have := Real.pi_pos
      exact Real.cos_lt_cos_of_nonneg_of_le_pi le_rfl (by linarith) (by positivity)
    have hn : 0 ≤ kernelSpectrum [[-1], [2]] fx (-0.01) := norm_nonneg _
    nlinarith
  have a1 := h1 (-0.01)
  have a2 := h1 0
  split_ifs
  · rw [h0]; linarith
  · rw [h0]; linarith

/-- **C44** (errors): for equally shaped frequency arrays the only exception is ZeroDivisionError, for the
Python number zero as field of view. -/
theorem C44_errors (diag : ℕ → ℕ → Bool) (k : Kernel) (ifov : Scal) {us vs : List XR} (h : us.length = vs.length) (e : PyErr) :
    filterOTF diag us vs k ifov = .error e ↔ ifov.IsPy ∧ ifov.val = .fin 0 ∧ e = .zeroDivisionError := by
  have key : ifov.val = .fin 0 ↔ XR.eq ifov.val 0 := by
    cases ifov.val with
    | fin x => simp [XR.zero_def, XR.fin_eq]
    | pinf => simp [XR.eq]
    | ninf => simp [XR.eq]
    | nan => simp [XR.eq]
  unfold filterOTF
  rw [key]
  cases hd : Scal.div (.py 0.5) ifov with
  | ok q =>
    rw [ok_bind, bc2_eq h]
    simp only [reduceCtorEq, false_iff]
    rintro ⟨h1, h2, -⟩
    have := (Scal.div_error_iff (.py 0.5) ifov .zeroDivisionError).mpr ⟨rfl, trivial, h1, h2⟩
    rw [hd] at this
    cases this
  | error er =>
    rw [error_bind, Except.error.injEq]
    obtain ⟨h1, -, h2, h3⟩ := (Scal.div_error_iff _ _ _).mp hd
    rw [h1]
    exact ⟨fun h => ⟨h2, h3, h.symm⟩, fun h => h.2.2.symm⟩

/-- Non-vacuity: a 3x3 sharpening kernel and a field of view of 10 microradians. -/
example : Fits [[0, -1, 0], [-1, 5, -1], [0, -1, 0]]
    ∧ ∃ H : ℕ → ℝ, filterOTF (fun _ _ => true) (vec 4 fun i => 1000 * i) (vec 4 fun _ => 7)
        [[0, -1, 0], [-1, 5, -1], [0, -1, 0]] (.py (.fin 1e-5)) = .ok (vec 4 H) ∧ ∀ j, 0 ≤ H j ∧ H j ≤ 9 := by
  refine ⟨⟨by norm_num, by simp⟩, ?_⟩
  obtain ⟨H, h1, h2⟩ := C44_bounded (fun _ _ => true) [[0, -1, 0], [-1, 5, -1], [0, -1, 0]]
    (ifov := .py (.fin 1e-5)) (a := 1e-5) rfl (by norm_num) 4 (fun i => 1000 * i) (fun _ => 7)
  refine ⟨H, h1, fun j => ?_⟩
  have := h2 j
  norm_num [absSum] at this
  exact this

end PyBSM
