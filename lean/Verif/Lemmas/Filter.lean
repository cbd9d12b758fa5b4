import Verif.Spec.Filter
import Verif.Model.Otf

/-!
# Lemmas about `filter_OTF`
-/

noncomputable section

open Classical

namespace PyBSM

open Spec

theorem sum_getD_le {f : ℝ → ℝ} (hf : ∀ x, 0 ≤ f x) (h0 : f 0 = 0) : ∀ (row : List ℝ) (n : ℕ),
    ∑ c ∈ Finset.range n, f (row.getD c 0) ≤ (row.map f).sum
  | [], n => by simp [h0]
  | x :: row, 0 => by
    simp only [Finset.range_zero, Finset.sum_empty]
    apply List.sum_nonneg
    intro y hy
    obtain ⟨z, -, rfl⟩ := List.mem_map.mp hy
    exact hf z
  | x :: row, n + 1 => by
    rw [Finset.sum_range_succ', List.map_cons, List.sum_cons, add_comm]
    have := sum_getD_le hf h0 row n
    simpa using this

theorem sum_rows_le : ∀ (k : Kernel) (m n : ℕ),
    ∑ r ∈ Finset.range m, ∑ c ∈ Finset.range n, |paddedKernel k r c| ≤ absSum k
  | [], m, n => by simp [paddedKernel, absSum]
  | row :: k, 0, n => by
    simp only [Finset.range_zero, Finset.sum_empty]
    apply List.sum_nonneg
    intro y hy
    obtain ⟨z, -, rfl⟩ := List.mem_map.mp hy
    exact abs_nonneg z
  | row :: k, m + 1, n => by
    rw [Finset.sum_range_succ']
    have h1 := sum_rows_le k m n
    have h2 := sum_getD_le abs_nonneg abs_zero row n
    have e : absSum (row :: k) = (row.map fun x => |x|).sum + absSum k := by
      simp [absSum]
    rw [e]
    have e1 : ∀ r c, paddedKernel (row :: k) (r + 1) c = paddedKernel k r c := fun r c => rfl
    have e2 : ∀ c, paddedKernel (row :: k) 0 c = row.getD c 0 := fun c => rfl
    simp only [e1, e2]
    linarith

theorem norm_expI (x : ℝ) : ‖Complex.exp (-2 * Real.pi * Complex.I * x)‖ = 1 := by
  rw [show (-2 * Real.pi * Complex.I * x : ℂ) = ((-2 * Real.pi * x : ℝ) : ℂ) * Complex.I by push_cast; ring]
  exact Complex.norm_exp_ofReal_mul_I _

theorem xferFcn_nonneg (k : Kernel) (i j : ℕ) : 0 ≤ xferFcn k i j := norm_nonneg _

theorem xferFcn_le (k : Kernel) (i j : ℕ) : xferFcn k i j ≤ absSum k := by
  refine le_trans ?_ (sum_rows_le k 100 100)
  unfold xferFcn kernelDFT
  refine (norm_sum_le _ _).trans (Finset.sum_le_sum fun r _ => ?_)
  refine (norm_sum_le _ _).trans (Finset.sum_le_sum fun c _ => ?_)
  rw [norm_mul]
  have := norm_expI ((((i + 50) % 100 : ℕ) * r + ((j + 50) % 100 : ℕ) * c) / 100)
  push_cast at this
  rw [← mul_div_assoc] at this
  push_cast
  rw [this, mul_one, Complex.norm_real, Real.norm_eq_abs]

theorem triInterp_bounds {lo hi z00 z01 z10 z11 s t : ℝ} (d : Bool) (hs : 0 ≤ s) (hs1 : s ≤ 1) (ht : 0 ≤ t)
    (ht1 : t ≤ 1) (h1 : lo ≤ z00 ∧ z00 ≤ hi) (h2 : lo ≤ z01 ∧ z01 ≤ hi) (h3 : lo ≤ z10 ∧ z10 ≤ hi)
    (h4 : lo ≤ z11 ∧ z11 ≤ hi) :
    lo ≤ triInterp d z00 z01 z10 z11 s t ∧ triInterp d z00 z01 z10 z11 s t ≤ hi := by
  obtain ⟨a1, b1⟩ := h1
  obtain ⟨a2, b2⟩ := h2
  obtain ⟨a3, b3⟩ := h3
  obtain ⟨a4, b4⟩ := h4
  have key : ∀ a b c p q r : ℝ, 0 ≤ a → 0 ≤ b → 0 ≤ c → a + b + c = 1 → lo ≤ p → p ≤ hi → lo ≤ q → q ≤ hi →
      lo ≤ r → r ≤ hi → lo ≤ a * p + b * q + c * r ∧ a * p + b * q + c * r ≤ hi := by
    intro a b c p q r ha hb hc hs x1 x2 y1 y2 w1 w2
    have e : ∀ t : ℝ, t = a * t + b * t + c * t := fun t => by rw [← add_mul, ← add_mul, hs, one_mul]
    constructor
    · rw [e lo]; gcongr
    · rw [e hi]; gcongr
  unfold triInterp
  split_ifs with h h' h'
  · have := key (1 - s) (s - t) t z00 z01 z11 (by linarith) (by linarith) ht (by ring) a1 b1 a2 b2 a4 b4
    constructor <;> nlinarith [this.1, this.2]
  · push Not at h'
    have := key (1 - t) (t - s) s z00 z10 z11 (by linarith) (by linarith) hs (by ring) a1 b1 a3 b3 a4 b4
    constructor <;> nlinarith [this.1, this.2]
  · have := key (1 - s - t) s t z00 z01 z10 (by linarith) hs ht (by ring) a1 b1 a2 b2 a3 b3
    constructor <;> nlinarith [this.1, this.2]
  · push Not at h'
    have := key (s + t - 1) (1 - s) (1 - t) z11 z10 z01 (by linarith) (by linarith) (by linarith) (by ring)
      a4 b4 a3 b3 a2 b2
    constructor <;> nlinarith [this.1, this.2]

theorem xpos {n : ℝ} (hn : n ≠ 0) (u : ℝ) :
    (wrapVal u n + n) / (2 * n) = Int.fract ((u + n) / (2 * n)) := by
  unfold wrapVal
  rw [← Int.self_sub_floor]
  field_simp
  ring

theorem ypos {n : ℝ} (hn : n ≠ 0) (v : ℝ) :
    (n - wrapVal v n) / (2 * n) = 1 - Int.fract ((v + n) / (2 * n)) := by
  rw [← xpos hn]
  field_simp
  ring

theorem wrap_periodic {n : ℝ} (hn : n ≠ 0) (u : ℝ) (k : ℤ) : wrapVal (u + k * (2 * n)) n = wrapVal u n := by
  unfold wrapVal
  have : (u + k * (2 * n) + n) / (2 * n) = (u + n) / (2 * n) + k := by field_simp; ring
  rw [this, Int.floor_add_intCast]
  push_cast
  ring

theorem cell_bounds {x : ℝ} (h0 : 0 ≤ x) (h1 : x ≤ 99) :
    0 ≤ x - ((⌊x⌋₊ ⊓ 98 : ℕ) : ℝ) ∧ x - ((⌊x⌋₊ ⊓ 98 : ℕ) : ℝ) ≤ 1 := by
  have hf := Nat.floor_le h0
  have hl := Nat.lt_floor_add_one x
  rcases le_total ⌊x⌋₊ 98 with h | h
  · rw [inf_eq_left.mpr h]
    constructor <;> linarith
  · rw [inf_eq_right.mpr h]
    have : (98 : ℝ) ≤ ⌊x⌋₊ := by exact_mod_cast h
    push_cast
    constructor <;> linarith

theorem filterElt_bounds {lo hi : ℝ} (diag : ℕ → ℕ → Bool) (k : Kernel) {n : ℝ} (hn : n ≠ 0)
    (h : ∀ i j, lo ≤ xferFcn k i j ∧ xferFcn k i j ≤ hi) (u v : ℝ) :
    lo ≤ filterElt diag k n u v ∧ filterElt diag k n u v ≤ hi := by
  unfold filterElt
  dsimp only
  rw [xpos hn, ypos hn]
  have hu := Int.fract_nonneg ((u + n) / (2 * n))
  have hu1 := (Int.fract_lt_one ((u + n) / (2 * n))).le
  have hv := Int.fract_nonneg ((v + n) / (2 * n))
  have hv1 := (Int.fract_lt_one ((v + n) / (2 * n))).le
  obtain ⟨a, b⟩ := cell_bounds (x := Int.fract ((u + n) / (2 * n)) * 99) (by positivity) (by linarith)
  obtain ⟨c, d⟩ := cell_bounds (x := (1 - Int.fract ((v + n) / (2 * n))) * 99)
    (by have : 0 ≤ 1 - Int.fract ((v + n) / (2 * n)) := by linarith
        positivity) (by linarith)
  exact triInterp_bounds _ a b c d (h _ _) (h _ _) (h _ _) (h _ _)

theorem paddedKernel_of_le_rows (k : Kernel) {r : ℕ} (h : k.length ≤ r) (c : ℕ) : paddedKernel k r c = 0 := by
  unfold paddedKernel
  rw [List.getD_eq_default _ _ h]
  simp

/-- The zero-padded transform samples the spectrum. -/
theorem xferFcn_spectrum {k : Kernel} (hk : Fits k) (i j : ℕ) :
    xferFcn k i j = kernelSpectrum k ((j - 50) / 100) ((i - 50) / 100) := by
  unfold xferFcn kernelSpectrum kernelDFT
  congr 1
  have hexp : ∀ a r : ℕ, Complex.exp (-2 * Real.pi * Complex.I * ((((a + 50) % 100 : ℕ) : ℂ) * r / 100))
      = Complex.exp (-2 * Real.pi * Complex.I * (((a : ℝ) - 50) / 100 * r)) := by
    intro a r
    obtain ⟨q, hq⟩ : ∃ q : ℕ, a + 50 = 100 * q + (a + 50) % 100 := ⟨_, (Nat.div_add_mod (a + 50) 100).symm⟩
    generalize (a + 50) % 100 = p at hq
    have h : (p : ℂ) = (a : ℂ) + 50 - 100 * q := by
      have h2 : ((a + 50 : ℕ) : ℂ) = ((100 * q + p : ℕ) : ℂ) := by rw [hq]
      push_cast at h2
      linear_combination -h2
    rw [Complex.exp_eq_exp_iff_exists_int]
    refine ⟨(q : ℤ) * r - r, ?_⟩
    rw [h]
    push_cast
    ring
  have hterm : ∀ r c : ℕ, Complex.exp (-2 * Real.pi * Complex.I
        * ((((i + 50) % 100 : ℕ) : ℂ) * r + (((j + 50) % 100 : ℕ) : ℂ) * c) / 100)
      = Complex.exp (-2 * Real.pi * Complex.I * ((((i : ℝ) - 50) / 100 : ℝ) * r + (((j : ℝ) - 50) / 100 : ℝ) * c)) := by
    intro r c
    rw [show (-2 * Real.pi * Complex.I * ((((i + 50) % 100 : ℕ) : ℂ) * r + (((j + 50) % 100 : ℕ) : ℂ) * c) / 100 : ℂ)
      = -2 * Real.pi * Complex.I * ((((i + 50) % 100 : ℕ) : ℂ) * r / 100)
        + -2 * Real.pi * Complex.I * ((((j + 50) % 100 : ℕ) : ℂ) * c / 100) by ring, Complex.exp_add, hexp, hexp,
      ← Complex.exp_add]
    congr 1
    push_cast
    ring
  simp only [hterm]
  rw [← Finset.sum_subset (Finset.range_mono hk.1)]
  · apply Finset.sum_congr rfl
    intro r hr
    have hr : r < k.length := Finset.mem_range.mp hr
    have hrow : (k.getD r []).length ≤ 100 := by
      rw [List.getD_eq_getElem _ _ hr]
      exact hk.2 _ (List.getElem_mem hr)
    rw [← Finset.sum_subset (Finset.range_mono hrow)]
    · rfl
    · intro c _ hc
      rw [Finset.mem_range, not_lt] at hc
      have : paddedKernel k r c = 0 := by
        unfold paddedKernel
        rw [List.getD_eq_default _ _ hc]
      rw [this]; simp
  · intro r _ hr
    rw [Finset.mem_range, not_lt] at hr
    apply Finset.sum_eq_zero
    intro c _
    rw [paddedKernel_of_le_rows k hr]; simp

end PyBSM
