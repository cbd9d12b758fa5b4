import Verif.Model.DoubleGrd
import Verif.Props.DoubleTrueImage
import Verif.Props.DoubleSimulate
import Verif.Props.Grd

/-!
# Ground resolved distance in double precision (C149)
-/

noncomputable section

open Classical

namespace PyBSM

open Spec

variable {fl : ℝ → ℝ}

theorem grdFreqD_close (hfl : RoundsToNearest fl) {m : ℕ → ℝ} {df t : ℝ} (hdf : 0 ≤ df) : ∀ {n : ℕ}, m n ≤ t →
    |grdFreqD fl m df t n - grdFreq m df t n| ≤ 2e-14 * (df * n)
  | 0, _ => by
    unfold grdFreqD grdFreq grdNodeD
    simp [hfl.zero]
  | n + 1, h => by
    unfold grdFreqD grdFreq
    have n0 : (0 : ℝ) ≤ n := Nat.cast_nonneg n
    have A0 : 0 ≤ df * ((n + 1 : ℕ) : ℝ) := by positivity
    by_cases hlt : t < m n
    · rw [if_pos hlt, if_pos hlt]
      have hd : 0 < m n - m (n + 1) := by linarith
      have ea := hfl.error (df * ((n + 1 : ℕ) : ℝ))
      have eb := hfl.error (df * (n : ℝ))
      rw [abs_of_nonneg A0] at ea
      rw [abs_of_nonneg (by positivity : 0 ≤ df * (n : ℝ))] at eb
      have BA : df * (n : ℝ) ≤ df * ((n + 1 : ℕ) : ℝ) := by push_cast; nlinarith
      have yb0 : 0 ≤ fl (df * n) := rounded_nonneg hfl (by positivity)
      have yab := hfl.mono BA
      unfold grdNodeD
      by_cases he : t = m (n + 1)
      · rw [if_pos he, he, div_self hd.ne']
        rw [show df * ((n : ℝ) + 1) = df * ((n + 1 : ℕ) : ℝ) by push_cast; ring]
        exact ea.trans (mul_le_mul_of_nonneg_right (by norm_num) A0)
      · rw [if_neg he]
        have seg := segmentD_error hfl (a := m (n + 1)) (ya := fl (df * ((n + 1 : ℕ) : ℝ))) (b := m n) (yb := fl (df * n)) (by linarith) t
        obtain ⟨r, hr⟩ : ∃ r, r = (t - m (n + 1)) / (m n - m (n + 1)) := ⟨_, rfl⟩
        have r0 : 0 ≤ r := by rw [hr]; exact div_nonneg (by linarith) hd.le
        have r1 : r ≤ 1 := by rw [hr, div_le_one hd]; linarith
        have el : line (m (n + 1)) (fl (df * ((n + 1 : ℕ) : ℝ))) (m n) (fl (df * n)) t
            = fl (df * ((n + 1 : ℕ) : ℝ)) + r * (fl (df * n) - fl (df * ((n + 1 : ℕ) : ℝ))) := by
          unfold line
          rw [hr]
          ring
        have ee : df * (n + (m n - t) / (m n - m (n + 1))) = df * ((n + 1 : ℕ) : ℝ) + r * (df * n - df * ((n + 1 : ℕ) : ℝ)) := by
          have : (m n - t) / (m n - m (n + 1)) = 1 - r := by
            rw [hr, eq_sub_iff_add_eq, ← add_div, div_eq_one_iff_eq hd.ne']
            ring
          rw [this]
          push_cast
          ring
        rw [ee]
        rw [el] at seg
        generalize segmentD fl (m (n + 1)) (fl (df * ((n + 1 : ℕ) : ℝ))) (m n) (fl (df * n)) t = s at *
        generalize fl (df * ((n + 1 : ℕ) : ℝ)) = ya at *
        generalize fl (df * (n : ℝ)) = yb at *
        generalize df * ((n + 1 : ℕ) : ℝ) = A at *
        generalize df * (n : ℝ) = B at *
        obtain ⟨a1, a2⟩ := abs_le.mp ea
        obtain ⟨b1, b2⟩ := abs_le.mp eb
        have ya0 : 0 ≤ ya := yb0.trans yab
        have size : |ya + r * (yb - ya) - ya| ≤ ya := by
          rw [add_sub_cancel_left, abs_le]
          constructor <;> nlinarith
        rw [abs_of_nonneg ya0] at seg
        have seg' : |s - (ya + r * (yb - ya))| ≤ 1.61e-14 * A := by
          refine seg.trans ?_
          linarith
        have mid : |ya + r * (yb - ya) - (A + r * (B - A))| ≤ 1.2e-16 * A := by
          have e : ya + r * (yb - ya) - (A + r * (B - A)) = (1 - r) * (ya - A) + r * (yb - B) := by ring
          rw [e]
          refine (abs_add_le _ _).trans ?_
          rw [abs_mul, abs_mul, abs_of_nonneg r0, abs_of_nonneg (by linarith : (0 : ℝ) ≤ 1 - r)]
          have : |yb - B| ≤ 1.2e-16 * A := eb.trans (mul_le_mul_of_nonneg_left BA (by norm_num))
          nlinarith
        have := abs_sub_le s (ya + r * (yb - ya)) (A + r * (B - A))
        linarith
    · rw [if_neg hlt, if_neg hlt]
      refine (grdFreqD_close hfl hdf (not_lt.mp hlt)).trans ?_
      push_cast
      nlinarith

theorem grdCrossD_close (hfl : RoundsToNearest fl) {n : ℕ} (hn : 1 ≤ n) {m : ℕ → ℝ} {df t : ℝ} (hdf : 0 ≤ df) :
    |grdCrossD fl n m df t - grdCross n m df t| ≤ 2e-14 * (df * (n - 1)) := by
  have hc : ((n - 1 : ℕ) : ℝ) = n - 1 := by rw [Nat.cast_sub hn]; simp
  unfold grdCrossD grdCross
  by_cases h : t < m (n - 1)
  · rw [if_pos h, if_pos h]
    unfold grdNodeD
    rw [← hc]
    have A0 : 0 ≤ df * ((n - 1 : ℕ) : ℝ) := by positivity
    have := hfl.error (df * ((n - 1 : ℕ) : ℝ))
    rw [abs_of_nonneg A0] at this
    exact this.trans (mul_le_mul_of_nonneg_right (by norm_num) A0)
  · rw [if_neg h, if_neg h, ← hc]
    exact grdFreqD_close hfl hdf (not_lt.mp h)

theorem grd_of_cutoff (hfl : RoundsToNearest fl) {ifov slant v v' η : ℝ} (hi : 0 ≤ ifov) (hsl : 0 ≤ slant) (v0 : 0 < v) (η0 : 0 ≤ η)
    (η1 : η ≤ 1e13) (h2' : |v' - v| ≤ (2.1e-14 * η + 2.5e-16) * v) :
    |max (fl (slant * fl (1 / v'))) (fl (slant * fl (2 * ifov))) - max (slant / v) (slant * (2 * ifov))|
      ≤ (4e-14 * η + 2e-15) * max (slant / v) (slant * (2 * ifov)) := by
  obtain ⟨l1, l2⟩ := abs_le.mp h2'
  have vp : 0.75 * v ≤ v' := by nlinarith
  have v'0 : 0 < v' := by nlinarith
  have h3 : |1 / v' - 1 / v| ≤ (2.9e-14 * η + 4e-16) * (1 / v) := by
    have e : 1 / v' - 1 / v = (v - v') / v' * (1 / v) := by field_simp
    rw [e, abs_mul, abs_of_pos (by positivity : 0 < 1 / v)]
    refine mul_le_mul_of_nonneg_right ?_ (by positivity)
    rw [abs_div, abs_of_pos v'0, div_le_iff₀ v'0, abs_sub_comm]
    refine h2'.trans ?_
    nlinarith
  have h4 := fl_relative hfl (by positivity) h3
  have h5 : |slant * fl (1 / v') - slant / v| ≤ (3e-14 * η + 6e-16) * (slant / v) := by
    have e : slant * fl (1 / v') - slant / v = slant * (fl (1 / v') - 1 / v) := by ring
    rw [e, abs_mul, abs_of_nonneg hsl, show (3e-14 * η + 6e-16) * (slant / v) = slant * ((3e-14 * η + 6e-16) * (1 / v)) by ring]
    exact mul_le_mul_of_nonneg_left (h4.trans (mul_le_mul_of_nonneg_right (by nlinarith) (by positivity))) hsl
  have s0 : 0 ≤ slant / v := div_nonneg hsl v0.le
  have h6 := fl_relative hfl s0 h5
  have h7 := fl_relative hfl (ε := 0) (x' := 2 * ifov) (x := 2 * ifov) (by positivity) (by simp)
  have h8 : |slant * fl (2 * ifov) - slant * (2 * ifov)| ≤ 1.2e-16 * (slant * (2 * ifov)) := by
    rw [← mul_sub, abs_mul, abs_of_nonneg hsl, show 1.2e-16 * (slant * (2 * ifov)) = slant * (1.2e-16 * (2 * ifov)) by ring]
    exact mul_le_mul_of_nonneg_left (h7.trans (le_of_eq (by ring))) hsl
  have g0 : 0 ≤ slant * (2 * ifov) := by positivity
  have h9 := fl_relative hfl g0 h8
  refine (abs_max_sub_max_le_max _ _ _ _).trans (max_le ?_ ?_)
  · have hM : slant / v ≤ max (slant / v) (slant * (2 * ifov)) := le_max_left _ _
    have k : (4e-14 * η + 2e-15) * (slant / v) ≤ (4e-14 * η + 2e-15) * max (slant / v) (slant * (2 * ifov)) :=
      mul_le_mul_of_nonneg_left hM (by positivity)
    refine le_trans (h6.trans (mul_le_mul_of_nonneg_right ?_ s0)) k
    nlinarith
  · have hM : slant * (2 * ifov) ≤ max (slant / v) (slant * (2 * ifov)) := le_max_right _ _
    have k : (4e-14 * η + 2e-15) * (slant * (2 * ifov)) ≤ (4e-14 * η + 2e-15) * max (slant / v) (slant * (2 * ifov)) :=
      mul_le_mul_of_nonneg_left hM (by positivity)
    refine le_trans (h9.trans (mul_le_mul_of_nonneg_right ?_ g0)) k
    nlinarith

theorem grd_of_frequency (hfl : RoundsToNearest fl) {ifov slant u u' W : ℝ} (hi : 0 ≤ ifov) (hsl : 0 ≤ slant) (u0 : 0 ≤ u) (W0 : 0 ≤ W)
    (c : |u' - u| ≤ 2e-14 * W) (hu : 1e-13 * W ≤ u + 1e-12) :
    |max (fl (slant * fl (1 / fl (u' + fl 1e-12)))) (fl (slant * fl (2 * ifov))) - max (slant / (u + 1e-12)) (slant * (2 * ifov))|
      ≤ (4e-14 * W / (u + 1e-12) + 2e-15) * max (slant / (u + 1e-12)) (slant * (2 * ifov)) := by
  have v0 : 0 < u + 1e-12 := by linarith
  obtain ⟨η, hη⟩ : ∃ η, η = W / (u + 1e-12) := ⟨_, rfl⟩
  have η0 : 0 ≤ η := by rw [hη]; exact div_nonneg W0 v0.le
  have ηW : W = η * (u + 1e-12) := by rw [hη, div_mul_cancel₀ _ v0.ne']
  have η1 : η ≤ 1e13 := by
    rw [hη, div_le_iff₀ v0]
    linarith
  have e12 := hfl.error 1e-12
  rw [abs_of_pos (by norm_num : (0 : ℝ) < 1e-12)] at e12
  have h1 : |u' + fl 1e-12 - (u + 1e-12)| ≤ (2e-14 * η + 1.2e-16) * (u + 1e-12) := by
    have : u' + fl 1e-12 - (u + 1e-12) = (u' - u) + (fl 1e-12 - 1e-12) := by ring
    rw [this]
    refine (abs_add_le _ _).trans ?_
    rw [ηW] at c
    nlinarith
  have h2 := fl_relative hfl v0.le h1
  have h2' : |fl (u' + fl 1e-12) - (u + 1e-12)| ≤ (2.1e-14 * η + 2.5e-16) * (u + 1e-12) :=
    h2.trans (mul_le_mul_of_nonneg_right (by nlinarith) v0.le)
  have ed : 4e-14 * W / (u + 1e-12) = 4e-14 * η := by rw [hη]; ring
  rw [ed]
  exact grd_of_cutoff hfl hi hsl v0 η0 η1 h2'

/-- **C149** (ground resolved distance): the distance computed in double precision is the one that exact arithmetic gives for a
signal-to-noise ratio changed by at most 2e-16 of itself, with a relative error of 4e-14 times the last frequency of the slice over the
resolved frequency `u`, plus 2e-15. `Crossing` says what the resolved frequency is. -/
theorem C149_value (hfl : RoundsToNearest fl) {n : ℕ} (hn : 1 ≤ n) {m : ℕ → ℝ} {df s ifov slant : ℝ} (hdf : 0 ≤ df)
    (hm : ∀ i j, i ≤ j → j < n → m j ≤ m i) (hs : 0 < s) (hi : 0 ≤ ifov) (hsl : 0 ≤ slant) :
    ∃ s', |s' - s| ≤ 2e-16 * s ∧ ∃ u d, Crossing n m df (3 / s') u
      ∧ groundResolvedDistance (vec n m) (.fin df) (.np (.fin s')) (.fin ifov) (.fin slant) = .ok (.fin d)
      ∧ (1e-13 * (df * (n - 1)) ≤ u + 1e-12
        → |grdD fl n m df s ifov slant - d| ≤ (4e-14 * (df * (n - 1)) / (u + 1e-12) + 2e-15) * d) := by
  have q0 : 0 < 3 / s := by positivity
  have et := hfl.error (3 / s)
  rw [abs_of_pos q0] at et
  obtain ⟨t1, t2⟩ := abs_le.mp et
  obtain ⟨t, ht⟩ : ∃ t, t = fl (3 / s) := ⟨_, rfl⟩
  rw [← ht] at t1 t2
  have tp : 0 < t := by linarith
  have e3 : 3 / (3 / t) = t := by field_simp
  refine ⟨3 / t, ?_, grdCross n m df t, _, ?_, grd_value hn hdf (snr := .np (.fin (3 / t))) rfl (by positivity) ifov slant, ?_⟩
  · have e : 3 / t - s = s * ((3 / s - t) / t) := by field_simp
    rw [e, abs_mul, abs_of_pos hs, mul_comm]
    refine mul_le_mul_of_nonneg_right ?_ hs.le
    rw [abs_div, abs_of_pos tp, div_le_iff₀ tp, abs_le]
    constructor <;> linarith
  · rw [e3]
    exact grdCross_crossing hn df hm t
  · rw [e3]
    intro hu
    have c := grdCrossD_close hfl hn (m := m) (t := t) hdf
    have u0 := (grdCross_range hn m t hdf).1
    have W0 : 0 ≤ df * ((n : ℝ) - 1) := by
      have : (1 : ℝ) ≤ n := by exact_mod_cast hn
      exact mul_nonneg hdf (by linarith)
    unfold grdD
    dsimp only
    rw [← ht]
    generalize grdCrossD fl n m df t = u' at *
    generalize grdCross n m df t = u at *
    generalize df * ((n : ℝ) - 1) = W at *
    exact grd_of_frequency hfl hi hsl u0 W0 c hu

/-- **C149** (two samples): however noisy the slice and whatever its shape, the distance computed in double precision is not below two
sample distances by more than 3e-16 of them. -/
theorem C149_two_samples (hfl : RoundsToNearest fl) (n : ℕ) (m : ℕ → ℝ) (df s : ℝ) {ifov slant : ℝ} (hi : 0 ≤ ifov) (hsl : 0 ≤ slant) :
    (1 - 3e-16) * (2 * ifov * slant) ≤ grdD fl n m df s ifov slant := by
  have h7 := fl_relative hfl (ε := 0) (x' := 2 * ifov) (x := 2 * ifov) (by positivity) (by simp)
  have h8 : |slant * fl (2 * ifov) - slant * (2 * ifov)| ≤ 1.2e-16 * (slant * (2 * ifov)) := by
    rw [← mul_sub, abs_mul, abs_of_nonneg hsl, show 1.2e-16 * (slant * (2 * ifov)) = slant * (1.2e-16 * (2 * ifov)) by ring]
    exact mul_le_mul_of_nonneg_left (h7.trans (le_of_eq (by ring))) hsl
  have g0 : 0 ≤ slant * (2 * ifov) := by positivity
  have h9 := (abs_le.mp (fl_relative hfl g0 h8)).1
  refine le_trans ?_ (le_max_right _ _)
  nlinarith

/-! ## Concrete cases -/

/-- A slice that falls from 1 in four steps of a quarter, a signal-to-noise ratio of 6: half the cutoff frequency is resolved
(C149_value). -/
example : ∃ s', |s' - 6| ≤ 2e-16 * 6 ∧ ∃ u d, Crossing 5 (fun i => 1 - i / 4) 1000 (3 / s') u
    ∧ groundResolvedDistance (vec 5 fun i => 1 - i / 4) (.fin 1000) (.np (.fin s')) (.fin 1e-5) (.fin 2000) = .ok (.fin d)
    ∧ |grdD roundDouble 5 (fun i => 1 - i / 4) 1000 6 1e-5 2000 - d| ≤ 1e-12 * d := by
  obtain ⟨s', h1, u, d, h2, h3, h4⟩ := C149_value roundDouble_rounds (n := 5) (by norm_num) (m := fun i => 1 - i / 4) (df := 1000) (s := 6)
    (ifov := 1e-5) (slant := 2000) (by norm_num)
    (fun i j hij _ => by
      have : (i : ℝ) ≤ j := by exact_mod_cast hij
      linarith) (by norm_num) (by norm_num) (by norm_num)
  have d0 : 0 ≤ d := by
    have := C56_at_least_two_samples _ _ _ _ _ h3
    rcases this with h | h | ⟨x, h, hx⟩
    · cases h
    · cases h
    · injection h with h
      rw [h]
      exact le_trans (by norm_num) hx
  have hu : 1000 ≤ u := by
    obtain ⟨a, b⟩ := abs_le.mp h1
    have sp : 0 < s' := by linarith
    have q1 : 0.49 < 3 / s' := by rw [lt_div_iff₀ sp]; linarith
    have q2 : 3 / s' < 0.51 := by rw [div_lt_iff₀ sp]; linarith
    rcases lt_trichotomy (3 / s') (1 / 2) with g | g | g
    · have := h2.between 2 (by norm_num) (by norm_num; linarith) (by norm_num; linarith)
      rw [this]
      norm_num
      linarith
    · have := h2.node 2 (by norm_num) (by norm_num [g]) (by
        intro i hi
        have : i ≤ 1 := by omega
        have : (i : ℝ) ≤ 1 := by exact_mod_cast this
        rw [g]
        linarith)
      rw [this]
      norm_num
    · have := h2.between 1 (by norm_num) (by norm_num; linarith) (by norm_num; linarith)
      rw [this]
      norm_num
      linarith
  refine ⟨s', h1, u, d, h2, h3, (h4 (by norm_num; linarith)).trans (mul_le_mul_of_nonneg_right ?_ d0)⟩
  have : 4e-14 * (1000 * (((5 : ℕ) : ℝ) - 1)) / (u + 1e-12) ≤ 2e-13 := by
    rw [div_le_iff₀ (by linarith)]
    norm_num
    linarith
  linarith

/-- The bound of two samples for a camera of 10 µrad at 2 km (C149_two_samples). -/
example : 0.0399 ≤ grdD roundDouble 5 (fun i => 1 - i / 4) 1000 6 1e-5 2000 := by
  refine le_trans ?_ (C149_two_samples roundDouble_rounds 5 (fun i => 1 - i / 4) 1000 6 (ifov := 1e-5) (slant := 2000) (by norm_num) (by norm_num))
  norm_num

end PyBSM
