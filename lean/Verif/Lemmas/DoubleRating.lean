import Verif.Props.DoubleSlices

/-!
# Lemmas for ratings in double precision

A crude bound for the computed system MTF at frequencies where the obscuration may be misjudged; the computed frequencies on
and off the axes.
-/

noncomputable section

open Classical

namespace PyBSM

open Spec

variable {fl cosD acosD : ℝ → ℝ} {L : MathLib}

theorem fl_size (hfl : RoundsToNearest fl) {x B : ℝ} (h : |x| ≤ B) : |fl x| ≤ 1.0001 * B := by
  have h1 := fl_close hfl h
  have h2 := abs_sub_abs_le_abs_sub (fl x) x
  have : 0 ≤ B := (abs_nonneg _).trans h
  linarith

/-- A running sum of doubles is not much larger than the sum of their absolute values. -/
theorem fold_size (hfl : RoundsToNearest fl) (l : List ℝ) : ∀ a : ℝ,
    |l.foldl (fun s x => fl (s + x)) a| ≤ (1 + 1.2e-16) ^ l.length * (|a| + (l.map (|·|)).sum) := by
  induction l with
  | nil => intro a; simp
  | cons x l ih =>
    intro a
    simp only [List.foldl_cons, List.length_cons, List.map_cons, List.sum_cons]
    refine (ih _).trans ?_
    have hn : 0 ≤ (l.map (|·|)).sum := List.sum_nonneg (by simp only [List.mem_map]; rintro _ ⟨q, _, rfl⟩; positivity)
    have h1 : |fl (a + x)| ≤ (1 + 1.2e-16) * (|a| + |x|) := by
      have e := fl_close hfl (x := a + x) (B := |a| + |x|) (abs_add_le _ _)
      have := abs_sub_abs_le_abs_sub (fl (a + x)) (a + x)
      have := abs_add_le a x
      linarith
    rw [pow_succ, mul_assoc]
    refine mul_le_mul_of_nonneg_left ?_ (by positivity)
    nlinarith

theorem pow_size {n : ℕ} (hn : n ≤ 2000) : (1 + 1.2e-16 : ℝ) ^ n ≤ 1.001 := by
  have h1 : (1 + 1.2e-16 : ℝ) ^ n ≤ Real.exp (n * 1.2e-16) := by
    rw [Real.exp_nat_mul]
    refine pow_le_pow_left₀ (by norm_num) ?_ n
    have := Real.add_one_le_exp (1.2e-16 : ℝ)
    linarith
  have hn' : (n : ℝ) ≤ 2000 := by exact_mod_cast hn
  have h2 : Real.exp (n * 1.2e-16) ≤ Real.exp 1e-4 := Real.exp_le_exp.mpr (by linarith)
  have h3 : Real.exp 1e-4 ≤ 1.001 := by
    have := Real.exp_bound_div_one_sub_of_interval (x := 1e-4) (by norm_num) (by norm_num)
    refine this.trans (by norm_num)
  linarith

/-- A crude bound for a computed weighted mean. -/
theorem weighted_size (hfl : RoundsToNearest fl) {order : SumTree} {pairs : List (ℝ × ℝ)} {F : ℝ → ℝ} {K : ℝ}
    (ho : order.leaves.Perm (List.range pairs.length)) (hd : order.depth ≤ 2000) (hn : pairs.length ≤ 2000)
    (hw : ∀ p ∈ pairs, 0 ≤ p.2) (ht : 0 < (pairs.map (·.2)).sum) (hK : ∀ p ∈ pairs, |F p.1| ≤ K) :
    |weightedD fl order pairs F| ≤ 1.2 * K := by
  have hsum := sumD_close hfl (f := fun i => (pairs.getD i (0, 0)).2) order (by
    intro i hi
    have hi' : i < pairs.length := List.mem_range.mp (ho.mem_iff.mp hi)
    have : pairs.getD i (0, 0) = pairs[i] := by simp [List.getD_eq_getElem?_getD, hi']
    show 0 ≤ (pairs.getD i (0, 0)).2
    rw [this]
    exact hw _ (List.getElem_mem hi')) hd
  rw [(ho.map _).sum_eq, range_getD] at hsum
  have hT := hsum.2
  have hdep : (order.depth : ℝ) ≤ 2000 := by exact_mod_cast hd
  have hcons : pairs ≠ [] := by rintro rfl; simp at ht
  have hK0 : 0 ≤ K := by
    obtain ⟨p, hp⟩ := List.exists_mem_of_ne_nil _ hcons
    exact (abs_nonneg _).trans (hK p hp)
  unfold weightedD
  dsimp only
  generalize order.sumD fl (fun i => (pairs.getD i (0, 0)).2) = T' at *
  generalize hTt : (pairs.map (·.2)).sum = T at *
  have hT2 : |T' - T| ≤ 3.1e-13 * T := hT.trans (by nlinarith)
  obtain ⟨t1, t2⟩ := abs_le.mp hT2
  have hT'0 : 0 < T' := by nlinarith
  have term : ∀ p ∈ pairs, |fl (fl (p.2 / T') * F p.1)| ≤ 1.1 * K * (p.2 / T) := by
    intro p hp
    have hp0 := hw p hp
    have hq0 : 0 ≤ p.2 / T := by positivity
    have hq : |p.2 / T'| ≤ 1.01 * (p.2 / T) := by
      rw [abs_of_nonneg (by positivity), div_le_iff₀ hT'0]
      have e : 1.01 * (p.2 / T) * T' = p.2 * (1.01 * T' / T) := by field_simp
      rw [e]
      have : 1 ≤ 1.01 * T' / T := by rw [le_div_iff₀ ht]; linarith
      nlinarith
    generalize p.2 / T = q at *
    have h1 := fl_size hfl hq
    have h2 : |fl (p.2 / T') * F p.1| ≤ 1.0001 * (1.01 * q) * K := by
      rw [abs_mul]
      exact mul_le_mul h1 (hK p hp) (abs_nonneg _) (by positivity)
    have h3 := fl_size hfl h2
    have : 0 ≤ q * K := by positivity
    nlinarith
  have tsum : (pairs.map fun p => p.2 / T).sum = 1 := by
    have : (pairs.map fun p => p.2 / T).sum = (pairs.map (·.2)).sum / T := by
      simp only [div_eq_mul_inv, List.sum_map_mul_right]
    rw [this, hTt, div_self ht.ne']
  have all : (pairs.map fun p => |fl (fl (p.2 / T') * F p.1)|).sum ≤ 1.1 * K := by
    refine (sum_le_of_forall term).trans ?_
    rw [List.sum_map_mul_left, tsum, mul_one]
  cases pairs with
  | nil => exact absurd rfl hcons
  | cons p l =>
    simp only [List.map_cons]
    refine (fold_size hfl _ _).trans ?_
    simp only [List.map_cons, List.sum_cons] at all
    have hlen : l.length ≤ 2000 := by simp only [List.length_cons] at hn; omega
    rw [List.length_map, List.map_map]
    have e : (List.map ((fun x => |x|) ∘ fun p : ℝ × ℝ => fl (fl (p.2 / T') * F p.1)) l)
        = l.map fun p => |fl (fl (p.2 / T') * F p.1)| := rfl
    rw [e]
    have hn0 : 0 ≤ |fl (fl (p.2 / T') * F p.1)| + (l.map fun p => |fl (fl (p.2 / T') * F p.1)|).sum := by
      have : 0 ≤ (l.map fun p => |fl (fl (p.2 / T') * F p.1)|).sum :=
        List.sum_nonneg (by simp only [List.mem_map]; rintro _ ⟨q, _, rfl⟩; positivity)
      positivity
    calc (1 + 1.2e-16) ^ l.length * _ ≤ 1.001 * (1.1 * K) := mul_le_mul (pow_size hlen) all hn0 (by norm_num)
      _ ≤ 1.2 * K := by linarith

/-- A crude bound for the computed system MTF that holds at every frequency, also where the obscuration is misjudged. -/
theorem system_size (hfl : RoundsToNearest fl) (hL : MathLibrary L) {s : RealSensor} {order : SumTree} {pairs : List (ℝ × ℝ)}
    {cn2 vel t : ℝ} {r : ℝ → ℝ} {u v : ℝ} (h : OrdinarySystem { s with eta := 0 } order pairs cn2 vel t r u v)
    (he : s.eta = 0 ∨ 1e-3 ≤ s.eta ∧ s.eta ≤ 0.9) : |systemD fl L order s pairs cn2 vel t r u v| ≤ 14 := by
  have hb := h.band
  have hD : 0 < s.D := h.aperture
  have heta : 0 ≤ s.eta ∧ s.eta < 1 := by
    rcases he with e | ⟨e1, e2⟩
    · rw [e]; norm_num
    · constructor <;> linarith
  have AP := weighted_size hfl h.adds h.rounds h.few hb.weights hb.total (K := 9.6)
    (F := fun l => (apertureD fl L.sq L.acos L.sin L.tan L.atan l s.D s.eta u v).number) (by
      intro p hp
      have hl := hb.positive p hp
      have hr := mtf_range (lam := p.1) hD heta.1 heta.2 u v
      generalize hd : diffractionMTF p.1 s.D s.eta u v = d at *
      rcases he with e | ⟨e1, e2⟩
      · obtain ⟨x, hx, hx'⟩ := C117_clear hfl hL.trig hl hD u v
        rw [e] at hd
        rw [hd] at hx'
        simp only [e, hx, XR.number]
        obtain ⟨a1, a2⟩ := abs_le.mp hx'
        rw [abs_le]; constructor <;> linarith
      · obtain ⟨x, hx, hx'⟩ := C117_obscured hfl hL.trig hl hD e1 e2 u v
        rw [hd] at hx'
        simp only [hx, XR.number]
        have hq : 2 * s.eta ^ 2 / (1 - s.eta ^ 2) ≤ 8.53 := by
          rw [div_le_iff₀ (by nlinarith)]; nlinarith
        have hq0 : 0 ≤ 2 * s.eta ^ 2 / (1 - s.eta ^ 2) := div_nonneg (by positivity) (by nlinarith)
        generalize 2 * s.eta ^ 2 / (1 - s.eta ^ 2) = q at *
        rcases hx' with hx' | ⟨-, hx' | hx'⟩ <;>
        · obtain ⟨a1, a2⟩ := abs_le.mp hx'
          rw [abs_le]; constructor <;> linarith)
  have TU : |(if 0 < cn2 then weightedD fl order pairs fun l => windD fl L l s.D (r l) (fl (t * s.nTdi)) vel u v else 1)| ≤ 1.001 := by
    by_cases hc : 0 < cn2
    · simp only [if_pos hc]
      obtain ⟨t1, t2, t3⟩ := h.turbulence hc
      have := weighted_value hfl h.adds h.rounds h.few hb.weights hb.total (ε := 1e-11)
        (F' := fun l => windD fl L l s.D (r l) (fl (t * s.nTdi)) vel u v)
        (F := fun l => turbMix l s.D (r l) (t * s.nTdi) vel u v)
        (fun p hp => C118_turbulence hfl hL t1 t2 (t3 p hp)) (by norm_num)
      have h2 := abs_sub_abs_le_abs_sub (weightedD fl order pairs fun l => windD fl L l s.D (r l) (fl (t * s.nTdi)) vel u v)
        (wmean pairs fun l => turbMix l s.D (r l) (t * s.nTdi) vel u v)
      linarith [this.1, this.2]
    · simp only [if_neg hc, abs_one]
      norm_num
  have WA : |weightedD fl order pairs fun l => wavefrontD fl L l (fl (s.pv * L.sq (fl (s.pvWavelength / l)))) s.lX s.lY u v| ≤ 1.001 := by
    have := weighted_value hfl h.adds h.rounds h.few hb.weights hb.total (ε := 1e-11)
      (F' := fun l => wavefrontD fl L l (fl (s.pv * L.sq (fl (s.pvWavelength / l)))) s.lX s.lY u v)
      (F := fun l => wavefrontMtf s l u v) (by
        intro p hp
        exact ⟨C118_wavefront hfl hL s h.phase.1 (h.phase.2 p hp) u v, wavefrontMtf_range (s := s) h.phase.1 p.1 u v⟩) (by norm_num)
    have h2 := abs_sub_abs_le_abs_sub
      (weightedD fl order pairs fun l => wavefrontD fl L l (fl (s.pv * L.sq (fl (s.pvWavelength / l)))) s.lX s.lY u v)
      (wmean pairs fun l => wavefrontMtf s l u v)
    linarith [this.1, this.2]
  have DE : |detectorD fl L s.wX s.wY s.f u v| ≤ 1.001 := by
    have h1 := C118_detector hfl hL s h.focal u v
    have h2 : |detectorAt s u v| ≤ 1 := by
      unfold detectorAt
      rw [abs_mul]
      exact mul_le_one₀ (abs_sinc_le _) (abs_nonneg _) (abs_sinc_le _)
    have := abs_sub_abs_le_abs_sub (detectorD fl L s.wX s.wY s.f u v) (detectorAt s u v)
    linarith
  have DR : |driftD fl L (fl (fl (s.daX * t) * s.nTdi)) (fl (fl (s.daY * t) * s.nTdi)) u v| ≤ 1.001 := by
    have h1 := C118_drift hfl hL s t u v
    have h2 : |driftAt s t u v| ≤ 1 := by
      unfold driftAt
      rw [abs_mul]
      exact mul_le_one₀ (abs_sinc_le _) (abs_nonneg _) (abs_sinc_le _)
    have := abs_sub_abs_le_abs_sub (driftD fl L (fl (fl (s.daX * t) * s.nTdi)) (fl (fl (s.daY * t) * s.nTdi)) u v) (driftAt s t u v)
    linarith
  have JI : |jitterD fl L s.sX s.sY u v| ≤ 1.001 := by
    have h1 := C118_jitter hfl hL s u v
    have h2 : |jitterAt s u v| ≤ 1 := by
      unfold jitterAt
      rw [abs_of_pos (Real.exp_pos _)]
      apply Real.exp_le_one_iff.mpr
      have : 0 ≤ 2 * Real.pi ^ 2 * ((s.sX * u) ^ 2 + (s.sY * v) ^ 2) := by positivity
      linarith
    have := abs_sub_abs_le_abs_sub (jitterD fl L s.sX s.sY u v) (jitterAt s u v)
    linarith
  unfold systemD
  dsimp only
  generalize weightedD fl order pairs (fun l => (apertureD fl L.sq L.acos L.sin L.tan L.atan l s.D s.eta u v).number) = a' at *
  generalize (if 0 < cn2 then weightedD fl order pairs fun l => windD fl L l s.D (r l) (fl (t * s.nTdi)) vel u v else 1) = b' at *
  generalize weightedD fl order pairs (fun l => wavefrontD fl L l (fl (s.pv * L.sq (fl (s.pvWavelength / l)))) s.lX s.lY u v) = w' at *
  generalize detectorD fl L s.wX s.wY s.f u v = c' at *
  generalize jitterD fl L s.sX s.sY u v = j' at *
  generalize driftD fl L (fl (fl (s.daX * t) * s.nTdi)) (fl (fl (s.daY * t) * s.nTdi)) u v = d' at *
  have step : ∀ {x y B : ℝ}, |x| ≤ B → |y| ≤ 1.001 → |fl (x * y)| ≤ 1.0012 * B := by
    intro x y B hx hy
    have hB : 0 ≤ B := (abs_nonneg _).trans hx
    have : |x * y| ≤ B * 1.001 := by
      rw [abs_mul]; exact mul_le_mul hx hy (abs_nonneg _) hB
    have := fl_size hfl this
    linarith
  have m6 := step (step (step (step (step (step AP TU) DE) JI) DR) WA) (y := 1) (by norm_num)
  refine m6.trans (by norm_num)

/-! ## The computed frequencies -/

theorem gridAxis_u (hfl : RoundsToNearest fl) {c : ℝ} (hc : 0 < c) {k : ℕ} (hk : k < 50) :
    ∃ κ, WithinFactor 7.2e-14 κ 1 ∧ gridUD fl (fl c) (50 + k) = κ * (k * (c / 50)) := by
  have hcw := fl_within hfl hc
  rcases Nat.eq_zero_or_pos k with rfl | hp
  · refine ⟨1, (WithinFactor.refl one_pos).mono (by norm_num), ?_⟩
    rw [Nat.add_zero, gridU_centre hfl]; simp
  · have hk0 : (0 : ℝ) < k := by exact_mod_cast hp
    have h1 := gridU_right hfl hcw.1 hp hk.le
    have h2 : WithinFactor 1e-15 ((k : ℝ) * (fl c / 50)) (k * (c / 50)) := by
      have := (WithinFactor.refl hk0).mul (hcw.div (WithinFactor.refl (by norm_num : (0:ℝ) < 50)))
      simpa using this
    have h3 := h1.trans h2
    have hne : (0 : ℝ) < k * (c / 50) := by positivity
    refine ⟨gridUD fl (fl c) (50 + k) / (k * (c / 50)), ?_, (div_mul_cancel₀ _ hne.ne').symm⟩
    have := h3.div (WithinFactor.refl hne)
    rw [div_self hne.ne'] at this
    exact this.mono (by norm_num)

theorem gridAxis_v (hfl : RoundsToNearest fl) {c : ℝ} (hc : 0 < c) {k : ℕ} (hk : k < 50) :
    ∃ κ, WithinFactor 7.2e-14 κ 1 ∧ gridVD fl (fl c) (50 - k) = κ * (k * (c / 50)) := by
  have hcw := fl_within hfl hc
  rcases Nat.eq_zero_or_pos k with rfl | hp
  · refine ⟨1, (WithinFactor.refl one_pos).mono (by norm_num), ?_⟩
    rw [Nat.sub_zero, gridV_mirror, gridU_centre hfl.mirror]; simp
  · have hk0 : (0 : ℝ) < k := by exact_mod_cast hp
    have h1 := gridU_left hfl.mirror hcw.1 hp hk.le
    have h2 : WithinFactor 1e-15 ((k : ℝ) * (fl c / 50)) (k * (c / 50)) := by
      have := (WithinFactor.refl hk0).mul (hcw.div (WithinFactor.refl (by norm_num : (0:ℝ) < 50)))
      simpa using this
    have h3 := h1.trans h2
    rw [← gridV_mirror] at h3
    have hne : (0 : ℝ) < k * (c / 50) := by positivity
    refine ⟨gridVD fl (fl c) (50 - k) / (k * (c / 50)), ?_, (div_mul_cancel₀ _ hne.ne').symm⟩
    have := h3.div (WithinFactor.refl hne)
    rw [div_self hne.ne'] at this
    exact this.mono (by norm_num)

theorem grid_size (hfl : RoundsToNearest fl) {c : ℝ} (hc : 0 < c) {j : ℕ} (hj : j ≤ 100) :
    |gridUD fl c j| ≤ 1.00001 * c ∧ (j ≠ 50 → c / 50.1 ≤ |gridUD fl c j|) := by
  have h := gridU_close hfl hc.le hj
  have hj' : (j : ℝ) ≤ 100 := by exact_mod_cast hj
  have hj0 : (0 : ℝ) ≤ j := j.cast_nonneg
  unfold colFreq at h
  rw [show (2 * (j : ℝ) / ((101 : ℕ) - 1) - 1) * c = ((j : ℝ) - 50) / 50 * c by push_cast; ring] at h
  have e : |((j : ℝ) - 50) / 50 * c| = |(j : ℝ) - 50| / 50 * c := by
    rw [abs_mul, abs_div, abs_of_pos hc, abs_of_pos (by norm_num : (0:ℝ) < 50)]
  constructor
  · have h2 := abs_sub_abs_le_abs_sub (gridUD fl c j) (((j : ℝ) - 50) / 50 * c)
    rw [e] at h2
    have : |(j : ℝ) - 50| ≤ 50 := by rw [abs_le]; constructor <;> linarith
    have : |(j : ℝ) - 50| / 50 * c ≤ 1 * c := mul_le_mul_of_nonneg_right (by linarith) hc.le
    linarith
  · intro hne
    have h2 := abs_sub_abs_le_abs_sub (((j : ℝ) - 50) / 50 * c) (gridUD fl c j)
    rw [abs_sub_comm, e] at h2
    have : 1 ≤ |(j : ℝ) - 50| := by
      rcases Nat.lt_or_gt_of_ne hne with hlt | hgt
      · have : (j : ℝ) + 1 ≤ 50 := by exact_mod_cast hlt
        rw [abs_of_nonpos (by linarith)]; linarith
      · have : (50 : ℝ) + 1 ≤ j := by exact_mod_cast hgt
        rw [abs_of_nonneg (by linarith)]; linarith
    have h3 : 1 / 50 * c ≤ |(j : ℝ) - 50| / 50 * c := mul_le_mul_of_nonneg_right (by linarith) hc.le
    have h4 : c / 50.1 = 1 / 50.1 * c := by ring
    rw [h4]
    have : (1 / 50.1 + 6e-16) * c ≤ 1 / 50 * c := mul_le_mul_of_nonneg_right (by norm_num) hc.le
    linarith

theorem grid_radius (hfl : RoundsToNearest fl) {c : ℝ} (hc : 0 < c) {i j : ℕ} (hi : i ≤ 100) (hj : j ≤ 100) :
    Real.sqrt (gridUD fl (fl c) j ^ 2 + gridVD fl (fl c) i ^ 2) = 0
      ∨ c / 51 ≤ Real.sqrt (gridUD fl (fl c) j ^ 2 + gridVD fl (fl c) i ^ 2)
        ∧ Real.sqrt (gridUD fl (fl c) j ^ 2 + gridVD fl (fl c) i ^ 2) ≤ 1.415 * c := by
  have hcw := fl_within hfl hc
  have hce := abs_le.mp (hcw.error (by norm_num))
  obtain ⟨u1, u2⟩ := grid_size hfl hcw.1 hj
  obtain ⟨v1, v2⟩ := grid_size hfl.mirror hcw.1 hi
  rw [gridV_mirror, neg_sq]
  have c1 : fl c ≤ 1.00001 * c := by linarith
  have c2 : 0.99999 * c ≤ fl c := by linarith
  by_cases h : i = 50 ∧ j = 50
  · left
    rw [h.1, h.2, gridU_centre hfl, gridU_centre hfl.mirror]
    simp
  · right
    rw [← sq_abs (gridUD fl (fl c) j), ← sq_abs (gridUD (fun x => -fl (-x)) (fl c) i)]
    have hu0 := abs_nonneg (gridUD fl (fl c) j)
    have hv0 := abs_nonneg (gridUD (fun x => -fl (-x)) (fl c) i)
    generalize |gridUD fl (fl c) j| = a at *
    generalize |gridUD (fun x => -fl (-x)) (fl c) i| = b at *
    have a1 : a ≤ 1.0001 * c := by linarith
    have b1 : b ≤ 1.0001 * c := by linarith
    constructor
    · refine Real.le_sqrt_of_sq_le ?_
      by_cases hj50 : j = 50
      · have hi50 : i ≠ 50 := fun e => h ⟨e, hj50⟩
        have := v2 hi50
        have hb : c / 51 ≤ b := by
          rw [div_le_iff₀ (by norm_num)] at this ⊢
          linarith
        have := pow_le_pow_left₀ (by positivity) hb 2
        have := sq_nonneg a
        linarith
      · have := u2 hj50
        have hb : c / 51 ≤ a := by
          rw [div_le_iff₀ (by norm_num)] at this ⊢
          linarith
        have := pow_le_pow_left₀ (by positivity) hb 2
        have := sq_nonneg b
        linarith
    · rw [Real.sqrt_le_left (by positivity)]
      have p1 := pow_le_pow_left₀ hu0 a1 2
      have p2 := pow_le_pow_left₀ hv0 b1 2
      have : 0 < c ^ 2 := by positivity
      nlinarith

end PyBSM
