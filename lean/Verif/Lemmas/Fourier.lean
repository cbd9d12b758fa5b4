import Verif.Spec.Image
import Mathlib.RingTheory.RootsOfUnity.Complex

/-!
# Lemmas about the discrete Fourier transform in `otf_to_psf`
-/

noncomputable section

open Classical

namespace PyBSM

open Spec

theorem fftshiftIdx_lt {n : ℕ} (hn : 0 < n) (i : ℕ) : fftshiftIdx n i < n := Nat.mod_lt _ hn

theorem fftshift_eq_zero {n i : ℕ} (hi : i < n) : fftshiftIdx n i = 0 ↔ i = n / 2 := by
  unfold fftshiftIdx
  rcases Nat.lt_or_ge (i + (n - n / 2)) n with h | h
  · rw [Nat.mod_eq_of_lt h]; omega
  · rw [Nat.mod_eq_sub_mod h, Nat.mod_eq_of_lt (by omega)]; omega

/-- The character `exp(2 pi i a / M)` only depends on `a` modulo `M`. -/
theorem exp_mod {M : ℕ} (hM : 0 < M) {a b : ℤ} (h : (M : ℤ) ∣ a - b) :
    Complex.exp (2 * Real.pi * Complex.I * ((a : ℂ) / M)) = Complex.exp (2 * Real.pi * Complex.I * ((b : ℂ) / M)) := by
  obtain ⟨c, hc⟩ := h
  have hM' : (M : ℂ) ≠ 0 := by exact_mod_cast hM.ne'
  rw [Complex.exp_eq_exp_iff_exists_int]
  refine ⟨c, ?_⟩
  have : (a : ℂ) = b + M * c := by
    have h2 : ((a - b : ℤ) : ℂ) = ((M * c : ℤ) : ℂ) := by rw [hc]
    push_cast at h2
    linear_combination h2
  rw [this]
  field_simp

theorem sum_exp {M : ℕ} (hM : 0 < M) {m : ℕ} (hm : m < M) :
    ∑ k ∈ Finset.range M, Complex.exp (2 * Real.pi * Complex.I * ((k * m : ℂ) / M)) = if m = 0 then (M : ℂ) else 0 := by
  split_ifs with h
  · subst h; simp
  · have hp := Complex.isPrimitiveRoot_exp M hM.ne'
    set z := Complex.exp (2 * Real.pi * Complex.I / M) with hz
    have e : ∀ k ∈ Finset.range M, Complex.exp (2 * Real.pi * Complex.I * ((k * m : ℂ) / M)) = (z ^ m) ^ k := by
      intro k _
      rw [hz, ← Complex.exp_nat_mul, ← Complex.exp_nat_mul]
      congr 1
      ring
    rw [Finset.sum_congr rfl e]
    have h1 : z ^ m ≠ 1 := hp.pow_ne_one_of_pos_of_lt h hm
    rw [geom_sum_eq h1, ← pow_mul, mul_comm, pow_mul, hp.pow_eq_one, one_pow, sub_self, zero_div]

theorem sum_shift {M : ℕ} (hM : 0 < M) (f : ℕ → ℂ) :
    ∑ k ∈ Finset.range M, f (fftshiftIdx M k) = ∑ k ∈ Finset.range M, f k := by
  refine Finset.sum_nbij' (fun k => fftshiftIdx M k) (fun k => (k + M / 2) % M) ?_ ?_ ?_ ?_ ?_
  · intro k _; exact Finset.mem_coe.mpr (Finset.mem_range.mpr (fftshiftIdx_lt hM k))
  · intro k _; exact Finset.mem_coe.mpr (Finset.mem_range.mpr (Nat.mod_lt _ hM))
  · intro k hk
    have hk : k < M := Finset.mem_range.mp hk
    unfold fftshiftIdx
    rw [Nat.mod_add_mod, show k + (M - M / 2) + M / 2 = k + M by omega, Nat.add_mod_right, Nat.mod_eq_of_lt hk]
  · intro k hk
    have hk : k < M := Finset.mem_range.mp hk
    unfold fftshiftIdx
    rw [Nat.mod_add_mod, show k + M / 2 + (M - M / 2) = k + M by omega, Nat.add_mod_right, Nat.mod_eq_of_lt hk]
  · intro k _; rfl

theorem shift_cong {M : ℕ} (i : ℕ) : (M : ℤ) ∣ (fftshiftIdx M i : ℤ) - ((i : ℤ) - (M / 2 : ℕ)) := by
  unfold fftshiftIdx
  have h := Nat.div_add_mod (i + (M - M / 2)) M
  refine ⟨1 - ((i + (M - M / 2)) / M : ℕ), ?_⟩
  have h' : (M : ℤ) * ((i + (M - M / 2)) / M : ℕ) + ((i + (M - M / 2)) % M : ℕ) = ((i + (M - M / 2) : ℕ) : ℤ) := by
    exact_mod_cast h
  have h2 : ((i + (M - M / 2) : ℕ) : ℤ) = i + M - (M / 2 : ℕ) := by omega
  rw [h2] at h'
  linear_combination h'

theorem unshift_cong {M : ℕ} (k : ℕ) : (M : ℤ) ∣ (k : ℤ) - ((fftshiftIdx M k : ℤ) - (M - M / 2 : ℕ)) := by
  have h := shift_cong (M := M) k
  have h2 : ((M - M / 2 : ℕ) : ℤ) = M - (M / 2 : ℕ) := by omega
  have : (k : ℤ) - ((fftshiftIdx M k : ℤ) - (M - M / 2 : ℕ))
      = M - ((fftshiftIdx M k : ℤ) - ((k : ℤ) - (M / 2 : ℕ))) := by rw [h2]; ring
  rw [this]
  exact dvd_sub dvd_rfl h

theorem exp_shift {M : ℕ} (hM : 0 < M) (k i : ℕ) :
    Complex.exp (2 * Real.pi * Complex.I * (((k : ℂ) * (fftshiftIdx M i : ℕ)) / M))
      = Complex.exp (2 * Real.pi * Complex.I
          * ((((fftshiftIdx M k : ℕ) : ℂ) - (M - M / 2 : ℕ)) * ((i : ℂ) - (M / 2 : ℕ)) / M)) := by
  have h := exp_mod hM (a := (k : ℤ) * (fftshiftIdx M i : ℕ))
    (b := (((fftshiftIdx M k : ℕ) : ℤ) - (M - M / 2 : ℕ)) * ((i : ℤ) - (M / 2 : ℕ))) (by
      have h1 := unshift_cong (M := M) k
      have h2 := shift_cong (M := M) i
      have : (k : ℤ) * (fftshiftIdx M i : ℕ)
            - (((fftshiftIdx M k : ℕ) : ℤ) - (M - M / 2 : ℕ)) * ((i : ℤ) - (M / 2 : ℕ))
          = ((k : ℤ) - ((fftshiftIdx M k : ℤ) - (M - M / 2 : ℕ))) * (fftshiftIdx M i : ℕ)
            + (((fftshiftIdx M k : ℕ) : ℤ) - (M - M / 2 : ℕ))
              * ((fftshiftIdx M i : ℤ) - ((i : ℤ) - (M / 2 : ℕ))) := by ring
      rw [this]
      exact dvd_add (Dvd.dvd.mul_right h1 _) (Dvd.dvd.mul_left h2 _))
  push_cast at h ⊢
  exact h

theorem ifft_shift {M N : ℕ} (hM : 0 < M) (hN : 0 < N) (otf : ℕ → ℕ → ℂ) (i j : ℕ) :
    ifft2 M N (fun k l => otf (fftshiftIdx M k) (fftshiftIdx N l)) (fftshiftIdx M i) (fftshiftIdx N j)
      = centredPsf M N otf i j * Complex.exp (-(2 * Real.pi * Complex.I)
          * (((M % 2 : ℕ) : ℂ) * ((i : ℂ) - (M / 2 : ℕ)) / M + ((N % 2 : ℕ) : ℂ) * ((j : ℂ) - (N / 2 : ℕ)) / N)) := by
  have hM' : (M : ℂ) ≠ 0 := by exact_mod_cast hM.ne'
  have hN' : (N : ℂ) ≠ 0 := by exact_mod_cast hN.ne'
  unfold ifft2 centredPsf
  rw [mul_assoc (1 / ((M : ℂ) * N)), Finset.sum_mul]
  congr 1
  have e1 : ∀ k l : ℕ, Complex.exp (2 * Real.pi * Complex.I
        * (((k : ℂ) * (fftshiftIdx M i : ℕ)) / M + ((l : ℂ) * (fftshiftIdx N j : ℕ)) / N))
      = Complex.exp (2 * Real.pi * Complex.I
          * ((((fftshiftIdx M k : ℕ) : ℂ) - (M - M / 2 : ℕ)) * ((i : ℂ) - (M / 2 : ℕ)) / M))
        * Complex.exp (2 * Real.pi * Complex.I
          * ((((fftshiftIdx N l : ℕ) : ℂ) - (N - N / 2 : ℕ)) * ((j : ℂ) - (N / 2 : ℕ)) / N)) := by
    intro k l
    rw [mul_add, Complex.exp_add, exp_shift hM, exp_shift hN]
  simp only [e1]
  rw [sum_shift hM (fun k => ∑ l ∈ Finset.range N, otf k (fftshiftIdx N l)
    * (Complex.exp (2 * Real.pi * Complex.I * (((k : ℂ) - (M - M / 2 : ℕ)) * ((i : ℂ) - (M / 2 : ℕ)) / M))
      * Complex.exp (2 * Real.pi * Complex.I
          * ((((fftshiftIdx N l : ℕ) : ℂ) - (N - N / 2 : ℕ)) * ((j : ℂ) - (N / 2 : ℕ)) / N))))]
  apply Finset.sum_congr rfl
  intro k _
  rw [sum_shift hN (fun l => otf k l
    * (Complex.exp (2 * Real.pi * Complex.I * (((k : ℂ) - (M - M / 2 : ℕ)) * ((i : ℂ) - (M / 2 : ℕ)) / M))
      * Complex.exp (2 * Real.pi * Complex.I * (((l : ℂ) - (N - N / 2 : ℕ)) * ((j : ℂ) - (N / 2 : ℕ)) / N)))),
    Finset.sum_mul]
  apply Finset.sum_congr rfl
  intro l _
  rw [mul_assoc (otf k l), ← Complex.exp_add, ← Complex.exp_add]
  congr 2
  have hh : ∀ n : ℕ, ((n - n / 2 : ℕ) : ℂ) = (n / 2 : ℕ) + (n % 2 : ℕ) := by
    intro n
    have : n - n / 2 = n / 2 + n % 2 := by omega
    rw [this]; push_cast; rfl
  rw [hh M, hh N]
  ring

theorem ifft2_ones {M N : ℕ} (hM : 0 < M) (hN : 0 < N) {m n : ℕ} (hm : m < M) (hn : n < N) :
    ifft2 M N (fun _ _ => 1) m n = if m = 0 ∧ n = 0 then 1 else 0 := by
  have hM' : (M : ℂ) ≠ 0 := by exact_mod_cast hM.ne'
  have hN' : (N : ℂ) ≠ 0 := by exact_mod_cast hN.ne'
  unfold ifft2
  have : ∀ k l : ℕ, (1 : ℂ) * Complex.exp (2 * Real.pi * Complex.I * ((k * m : ℂ) / M + (l * n : ℂ) / N))
      = Complex.exp (2 * Real.pi * Complex.I * ((k * m : ℂ) / M))
        * Complex.exp (2 * Real.pi * Complex.I * ((l * n : ℂ) / N)) := by
    intro k l; rw [one_mul, mul_add, Complex.exp_add]
  simp only [this, ← Finset.mul_sum, sum_exp hN hn, ← Finset.sum_mul, sum_exp hM hm]
  by_cases h1 : m = 0 <;> by_cases h2 : n = 0
  · rw [if_pos h1, if_pos h2, if_pos ⟨h1, h2⟩]; field_simp
  · simp [h2]
  · simp [h1]
  · simp [h1]

/-- The samples of the inverse transform add up to the sample at the origin. -/
theorem ifft2_sum {M N : ℕ} (hM : 0 < M) (hN : 0 < N) (X : ℕ → ℕ → ℂ) :
    ∑ m ∈ Finset.range M, ∑ n ∈ Finset.range N, ifft2 M N X m n = X 0 0 := by
  have hM' : (M : ℂ) ≠ 0 := by exact_mod_cast hM.ne'
  have hN' : (N : ℂ) ≠ 0 := by exact_mod_cast hN.ne'
  unfold ifft2
  simp only [← Finset.mul_sum]
  have key : ∑ m ∈ Finset.range M, ∑ n ∈ Finset.range N, ∑ k ∈ Finset.range M, ∑ l ∈ Finset.range N,
      X k l * Complex.exp (2 * Real.pi * Complex.I * ((k * m : ℂ) / M + (l * n : ℂ) / N))
      = ∑ k ∈ Finset.range M, ∑ l ∈ Finset.range N, X k l
        * ((if k = 0 then (M : ℂ) else 0) * (if l = 0 then (N : ℂ) else 0)) := by
    have e : ∀ m n k l : ℕ, X k l * Complex.exp (2 * Real.pi * Complex.I * ((k * m : ℂ) / M + (l * n : ℂ) / N))
        = X k l * (Complex.exp (2 * Real.pi * Complex.I * ((m * k : ℂ) / M))
          * Complex.exp (2 * Real.pi * Complex.I * ((n * l : ℂ) / N))) := by
      intro m n k l
      rw [mul_add, Complex.exp_add, mul_comm (k : ℂ), mul_comm (l : ℂ)]
    simp only [e]
    calc _ = ∑ m ∈ Finset.range M, ∑ k ∈ Finset.range M, ∑ n ∈ Finset.range N, ∑ l ∈ Finset.range N,
          X k l * (Complex.exp (2 * Real.pi * Complex.I * ((m * k : ℂ) / M))
            * Complex.exp (2 * Real.pi * Complex.I * ((n * l : ℂ) / N))) :=
          Finset.sum_congr rfl fun m _ => Finset.sum_comm
      _ = ∑ k ∈ Finset.range M, ∑ m ∈ Finset.range M, ∑ n ∈ Finset.range N, ∑ l ∈ Finset.range N,
          X k l * (Complex.exp (2 * Real.pi * Complex.I * ((m * k : ℂ) / M))
            * Complex.exp (2 * Real.pi * Complex.I * ((n * l : ℂ) / N))) := Finset.sum_comm
      _ = _ := by
          apply Finset.sum_congr rfl
          intro k hk
          have hk : k < M := Finset.mem_range.mp hk
          calc _ = ∑ m ∈ Finset.range M, ∑ l ∈ Finset.range N, ∑ n ∈ Finset.range N,
                X k l * (Complex.exp (2 * Real.pi * Complex.I * ((m * k : ℂ) / M))
                  * Complex.exp (2 * Real.pi * Complex.I * ((n * l : ℂ) / N))) :=
                Finset.sum_congr rfl fun m _ => Finset.sum_comm
            _ = ∑ l ∈ Finset.range N, ∑ m ∈ Finset.range M, ∑ n ∈ Finset.range N,
                X k l * (Complex.exp (2 * Real.pi * Complex.I * ((m * k : ℂ) / M))
                  * Complex.exp (2 * Real.pi * Complex.I * ((n * l : ℂ) / N))) := Finset.sum_comm
            _ = _ := by
                apply Finset.sum_congr rfl
                intro l hl
                have hl : l < N := Finset.mem_range.mp hl
                simp only [← Finset.mul_sum, sum_exp hN hl, ← Finset.sum_mul, sum_exp hM hk]
  rw [key, Finset.sum_eq_single 0, Finset.sum_eq_single 0]
  · simp only [if_true]; field_simp
  · intro l _ hl; rw [if_neg hl]; simp
  · intro h; exact absurd (Finset.mem_range.mpr hN) h
  · intro k _ hk
    apply Finset.sum_eq_zero
    intro l _
    rw [if_neg hk]; simp
  · intro h; exact absurd (Finset.mem_range.mpr hM) h

end PyBSM
