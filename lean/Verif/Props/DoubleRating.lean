import Verif.Lemmas.DoubleRating
import Verif.Props.DoubleGeometry
import Verif.Props.DoubleGiqe
import Verif.Props.Noisier

/-!
# C121: ratings with GIQE 5 in double precision
-/

noncomputable section

open Classical

namespace PyBSM

open Spec

variable {fl lgD cosD acosD : ℝ → ℝ} {L : MathLib} {interp : (ℕ → ℕ → ℝ) → ℝ → ℝ → ℝ}

/-! ## Ordinary systems at the computed frequencies -/

theorem same_waves {δw : ℝ} {pairs pairs' : List (ℝ × ℝ)}
    (hw : List.Forall₂ (fun p q : ℝ × ℝ => p.1 = q.1 ∧ WithinFactor δw p.2 q.2) pairs' pairs) :
    (pairs'.map (·.1)) = pairs.map (·.1) ∧ pairs'.length = pairs.length ∧ ∀ p ∈ pairs', 0 < p.2 ∧ ∃ q ∈ pairs, q.1 = p.1 := by
  induction hw with
  | nil => simp
  | @cons p q l' l h _ ih =>
    obtain ⟨i1, i2, i3⟩ := ih
    refine ⟨by simp only [List.map_cons, h.1, i1], by simp [i2], ?_⟩
    intro r hr
    rcases List.mem_cons.mp hr with rfl | hr
    · exact ⟨h.2.1, q, List.mem_cons_self, h.1.symm⟩
    · obtain ⟨a, r', b, e⟩ := i3 r hr
      exact ⟨a, r', List.mem_cons_of_mem _ b, e⟩

theorem same_band {δw : ℝ} {pairs pairs' : List (ℝ × ℝ)} (hb : Band pairs)
    (hw : List.Forall₂ (fun p q : ℝ × ℝ => p.1 = q.1 ∧ WithinFactor δw p.2 q.2) pairs' pairs) : Band pairs' := by
  obtain ⟨h1, h2, h3⟩ := same_waves hw
  refine ⟨by rw [h1]; exact hb.distinct, fun p hp => ?_, fun p hp => (h3 p hp).1.le, ?_⟩
  · obtain ⟨-, q, hq, e⟩ := h3 p hp
    rw [← e]; exact hb.positive q hq
  · cases pairs' with
    | nil =>
      have : pairs = [] := by
        simp only [List.length_nil] at h2
        exact List.length_eq_zero_iff.mp h2.symm
      exact absurd hb.total (by rw [this]; simp)
    | cons p l =>
      simp only [List.map_cons, List.sum_cons]
      have : 0 ≤ (l.map (·.2)).sum := List.sum_nonneg (by
        simp only [List.mem_map]
        rintro _ ⟨q, hq, rfl⟩
        exact (h3 q (List.mem_cons_of_mem _ hq)).1.le)
      have := (h3 p List.mem_cons_self).1
      linarith

theorem minD_mem : ∀ {l : List ℝ}, l ≠ [] → minD l ∈ l ∧ ∀ x ∈ l, minD l ≤ x := by
  have key : ∀ (l : List ℝ) (a : ℝ), (l.foldl min a = a ∨ l.foldl min a ∈ l) ∧ l.foldl min a ≤ a ∧ ∀ x ∈ l, l.foldl min a ≤ x := by
    intro l
    induction l with
    | nil => intro a; simp
    | cons b l ih =>
      intro a
      obtain ⟨i1, i2, i3⟩ := ih (min a b)
      simp only [List.foldl_cons]
      refine ⟨?_, i2.trans (min_le_left _ _), ?_⟩
      · rcases i1 with e | m
        · rcases min_choice a b with h | h
          · left; rw [e, h]
          · right; rw [e, h]; exact List.mem_cons_self
        · right; exact List.mem_cons_of_mem _ m
      · intro x hx
        rcases List.mem_cons.mp hx with rfl | hx
        · exact i2.trans (min_le_right _ _)
        · exact i3 x hx
  intro l hl
  cases l with
  | nil => exact absurd rfl hl
  | cons a l =>
    obtain ⟨i1, i2, i3⟩ := key l a
    refine ⟨?_, ?_⟩
    · rcases i1 with e | m
      · show l.foldl min a ∈ a :: l
        rw [e]; exact List.mem_cons_self
      · exact List.mem_cons_of_mem _ m
    · intro x hx
      rcases List.mem_cons.mp hx with rfl | hx
      · exact i2
      · exact i3 x hx

/-- The cutoff frequency the program uses. -/
theorem cutoff_computed {s : RealSensor} {g : RealScene} {order : SumTree} {pairs pairs' : List (ℝ × ℝ)} {t c δw : ℝ}
    (h : OrdinaryRating s g order pairs t c)
    (hw : List.Forall₂ (fun p q : ℝ × ℝ => p.1 = q.1 ∧ WithinFactor δw p.2 q.2) pairs' pairs) :
    s.D / minD (pairs'.map (·.1)) = c := by
  obtain ⟨p, hp, hc⟩ := h.shortest
  rw [(same_waves hw).1]
  have hne : pairs.map (·.1) ≠ [] := by
    intro e
    rw [List.map_eq_nil_iff] at e
    rw [e] at hp
    exact absurd hp List.not_mem_nil
  obtain ⟨m1, m2⟩ := minD_mem hne
  obtain ⟨q, hq, e⟩ := List.mem_map.mp m1
  have hD := h.aperture
  have h1 : minD (pairs.map (·.1)) ≤ p.1 := m2 _ (List.mem_map.mpr ⟨p, hp, rfl⟩)
  have hp0 := h.band.positive p hp
  have hq0 := h.band.positive q hq
  have h2 := (h.octave q hq).1
  rw [← e] at h1 ⊢
  have : p.1 ≤ q.1 := by
    rw [hc, div_mul_eq_mul_div, le_div_iff₀ hp0] at h2
    exact le_of_mul_le_mul_left h2 hD
  rw [hc, le_antisymm h1 this]

/-- Away from misjudged obscurations, everything is ordinary at every frequency up to the corners of the grid. -/
theorem ordinary_clear {s : RealSensor} {g : RealScene} {order : SumTree} {pairs pairs' : List (ℝ × ℝ)} {t t' c δw δt u v : ℝ}
    (h : OrdinaryRating s g order pairs t c)
    (hw : List.Forall₂ (fun p q : ℝ × ℝ => p.1 = q.1 ∧ WithinFactor δw p.2 q.2) pairs' pairs) (ht : WithinFactor δt t' t)
    (hr : Real.sqrt (u ^ 2 + v ^ 2) = 0 ∨ c / 51 ≤ Real.sqrt (u ^ 2 + v ^ 2) ∧ Real.sqrt (u ^ 2 + v ^ 2) ≤ 1.415 * c) :
    OrdinarySystem { s with eta := 0 } order pairs' g.cn2 g.aircraftSpeed t' (fried g.altitude g.groundRange g.windSpeed g.cn2) u v
      ∧ (0 < g.cn2 → ∀ p ∈ pairs', Ordinary p.1 ∧ (Real.sqrt (u ^ 2 + v ^ 2) = 0
      ∨ 1e-29 ≤ p.1 * Real.sqrt (u ^ 2 + v ^ 2) / fried g.altitude g.groundRange g.windSpeed g.cn2 p.1
        ∧ p.1 * Real.sqrt (u ^ 2 + v ^ 2) / fried g.altitude g.groundRange g.windSpeed g.cn2 p.1 ≤ 1e29)) := by
  obtain ⟨w1, w2, w3⟩ := same_waves hw
  have hD := h.aperture
  have hc : 0 < c := by linarith [h.large]
  generalize hρe : Real.sqrt (u ^ 2 + v ^ 2) = ρ at *
  have core : 0 < g.cn2 → ∀ p ∈ pairs', 0 < p.1 ∧ Ordinary p.1 ∧ 0 < fried g.altitude g.groundRange g.windSpeed g.cn2 p.1
      ∧ (ρ = 0 ∨ (1e-29 ≤ p.1 * ρ / fried g.altitude g.groundRange g.windSpeed g.cn2 p.1
        ∧ p.1 * ρ / fried g.altitude g.groundRange g.windSpeed g.cn2 p.1 ≤ 1e29) ∧ 1 / 51 ≤ p.1 * ρ / s.D ∧ p.1 * ρ / s.D ≤ 3) := by
    intro c0 p hp
    obtain ⟨-, q, hq, e⟩ := w3 p hp
    rw [← e]
    obtain ⟨-, -, h3⟩ := h.turbulence c0
    obtain ⟨o, f1, f2⟩ := h3 q hq
    have q0 := h.band.positive q hq
    obtain ⟨k1, k2⟩ := h.octave q hq
    have hf : 0 < fried g.altitude g.groundRange g.windSpeed g.cn2 q.1 := by
      by_contra hn
      have : s.D / fried g.altitude g.groundRange g.windSpeed g.cn2 q.1 ≤ 0 := div_nonpos_of_nonneg_of_nonpos hD.le (not_lt.mp hn)
      linarith
    refine ⟨q0, o, hf, ?_⟩
    rcases hr with hr | ⟨r1, r2⟩
    · exact Or.inl hr
    · right
      generalize fried g.altitude g.groundRange g.windSpeed g.cn2 q.1 = f at *
      have a1 : 1 / 51 ≤ q.1 * ρ / s.D := by
        rw [le_div_iff₀ hD]
        have : q.1 * (c / 51) ≤ q.1 * ρ := mul_le_mul_of_nonneg_left r1 q0.le
        nlinarith
      have a2 : q.1 * ρ / s.D ≤ 2.9 := by
        rw [div_le_iff₀ hD]
        have : q.1 * ρ ≤ q.1 * (1.415 * c) := mul_le_mul_of_nonneg_left r2 q0.le
        nlinarith
      have e2 : q.1 * ρ / f = q.1 * ρ / s.D * (s.D / f) := by field_simp
      rw [e2]
      generalize q.1 * ρ / s.D = x at *
      generalize s.D / f = y at *
      refine ⟨⟨?_, ?_⟩, a1, by linarith⟩
      · have : 1 / 51 * 1e-20 ≤ x * y := mul_le_mul a1 f1 (by norm_num) (by linarith)
        refine le_trans (by norm_num) this
      · have : x * y ≤ 2.9 * 1e20 := mul_le_mul a2 f2 (by linarith) (by norm_num)
        exact this.trans (by norm_num)
  refine ⟨{ band := same_band h.band hw, few := by rw [w2]; exact h.few, adds := by rw [w2]; exact h.adds, rounds := h.rounds,
            aperture := hD, focal := h.focal.ne', obscuration := Or.inl rfl, phase := ⟨h.phase.1, fun p hp => ?_⟩,
            turbulence := fun c0 => ⟨(h.turbulence c0).1, mul_nonneg ht.1.le (h.turbulence c0).2.1, fun p hp => ?_⟩ }, ?_⟩
  · obtain ⟨-, q, hq, e⟩ := w3 p hp
    rw [← e]; exact h.phase.2 q hq
  · obtain ⟨b1, b2, b3, b4⟩ := core c0 p hp
    show OrdinaryTurbulence p.1 s.D (fried g.altitude g.groundRange g.windSpeed g.cn2 p.1) (Real.sqrt (u ^ 2 + v ^ 2))
    rw [hρe]
    refine ⟨b1, hD, b3, ?_⟩
    rcases b4 with b4 | ⟨b4, b5, b6⟩
    · exact Or.inl b4
    · exact Or.inr ⟨⟨(by norm_num : (1e-30 : ℝ) ≤ 1e-29).trans b4.1, b4.2.trans (by norm_num)⟩, ⟨(by norm_num : (1e-30 : ℝ) ≤ 1 / 51).trans b5, b6.trans (by norm_num)⟩, b6⟩
  · intro c0 p hp
    obtain ⟨b1, b2, b3, b4⟩ := core c0 p hp
    exact ⟨b2, b4.imp id fun b => b.1⟩

/-- On the axes the computed frequencies keep away from a misjudged obscuration. -/
theorem ordinary_axis {s : RealSensor} {g : RealScene} {order : SumTree} {pairs pairs' : List (ℝ × ℝ)} {t t' c δw δt : ℝ}
    (h : OrdinaryRating s g order pairs t c)
    (hw : List.Forall₂ (fun p q : ℝ × ℝ => p.1 = q.1 ∧ WithinFactor δw p.2 q.2) pairs' pairs) (ht : WithinFactor δt t' t)
    {k : ℕ} (hk : k < 50) {κ u v : ℝ} (hκ : WithinFactor 7.2e-14 κ 1) (hρ : Real.sqrt (u ^ 2 + v ^ 2) = κ * (k * (c / 50))) :
    OrdinarySystem s order pairs' g.cn2 g.aircraftSpeed t' (fried g.altitude g.groundRange g.windSpeed g.cn2) u v
      ∧ (0 < g.cn2 → ∀ p ∈ pairs', Ordinary p.1 ∧ (Real.sqrt (u ^ 2 + v ^ 2) = 0
      ∨ 1e-29 ≤ p.1 * Real.sqrt (u ^ 2 + v ^ 2) / fried g.altitude g.groundRange g.windSpeed g.cn2 p.1
        ∧ p.1 * Real.sqrt (u ^ 2 + v ^ 2) / fried g.altitude g.groundRange g.windSpeed g.cn2 p.1 ≤ 1e29)) := by
  obtain ⟨w1, w2, w3⟩ := same_waves hw
  have hD := h.aperture
  have hc : 0 < c := by linarith [h.large]
  have hκe := abs_le.mp (hκ.error (by norm_num))
  have hk' : (k : ℝ) ≤ 49 := by exact_mod_cast (by omega : k ≤ 49)
  have hk0 : (0 : ℝ) ≤ k := k.cast_nonneg
  have hρ' : Real.sqrt (u ^ 2 + v ^ 2) = 0 ∨ c / 51 ≤ Real.sqrt (u ^ 2 + v ^ 2) ∧ Real.sqrt (u ^ 2 + v ^ 2) ≤ 1.415 * c := by
    rw [hρ]
    rcases Nat.eq_zero_or_pos k with rfl | hp
    · left; simp
    · right
      have h1 : (1 : ℝ) ≤ k := by exact_mod_cast hp
      have b1 : 0.999 ≤ κ := by linarith [hκe.1]
      have b2 : κ ≤ 1.001 := by linarith [hκe.2]
      have c1 : c / 50 ≤ k * (c / 50) := by nlinarith
      have c2 : k * (c / 50) ≤ 49 * (c / 50) := by nlinarith
      constructor
      · calc c / 51 ≤ 0.999 * (c / 50) := by linarith
          _ ≤ κ * (k * (c / 50)) := mul_le_mul b1 c1 (by positivity) (by linarith)
      · calc κ * (k * (c / 50)) ≤ 1.001 * (49 * (c / 50)) := mul_le_mul b2 c2 (by positivity) (by norm_num)
          _ ≤ 1.415 * c := by linarith
  obtain ⟨o1, o2⟩ := ordinary_clear h hw ht hρ'
  refine ⟨{ band := o1.band, few := o1.few, adds := o1.adds, rounds := o1.rounds, aperture := hD, focal := o1.focal,
            obscuration := ?_, phase := o1.phase, turbulence := o1.turbulence }, o2⟩
  rcases h.obscuration with e | ⟨e1, e2, e3⟩
  · exact Or.inl e
  · refine Or.inr ⟨e1, e2, fun p hp => ?_⟩
    obtain ⟨-, q, hq, e⟩ := w3 p hp
    rw [← e, hρ]
    have m := e3 q hq k hk
    have q0 := h.band.positive q hq
    rw [show κ * ((k : ℝ) * (c / 50)) / (s.D / q.1) = κ * ((k : ℝ) * (c / 50) / (s.D / q.1)) by ring]
    have x0 : 0 ≤ (k : ℝ) * (c / 50) / (s.D / q.1) := by positivity
    have x1 : (k : ℝ) * (c / 50) / (s.D / q.1) ≤ 2 := by
      rw [div_le_iff₀ (by positivity), ← mul_div_assoc 2, le_div_iff₀ q0]
      have := (h.octave q hq).2
      have h5 : (k : ℝ) / 50 * (c * q.1) ≤ 1 * (2 * s.D) := mul_le_mul (by linarith) this (by positivity) (by norm_num)
      calc (k : ℝ) * (c / 50) * q.1 = (k : ℝ) / 50 * (c * q.1) := by ring
        _ ≤ 1 * (2 * s.D) := h5
        _ = 2 * s.D := one_mul _
    generalize (k : ℝ) * (c / 50) / (s.D / q.1) = x at *
    have h6 : |κ * x - x| ≤ 1.5e-13 := by
      rw [show κ * x - x = (κ - 1) * x by ring, abs_mul, abs_of_nonneg x0]
      have : |κ - 1| ≤ 7.4e-14 := by rw [abs_le]; constructor <;> linarith [hκe.1, hκe.2]
      calc |κ - 1| * x ≤ 7.4e-14 * 2 := mul_le_mul this x1 x0 (by norm_num)
        _ ≤ 1.5e-13 := by norm_num
    have := abs_sub_le x (κ * x) ((1 - s.eta) / 2)
    rw [abs_sub_comm x (κ * x)] at this
    linarith

/-! ## The MTF and its slices -/

/-- **C121** (MTF). The system MTF that `niirs5` computes is within `1.4 · 10^-6 + 0.125 / d² + 11 δt + 7 δw` of the exact one at
every sample of the two slices, when the weights and the exposure time are off by factors `exp δw` and `exp δt`; `d` is the
slant range in metres. It is at most 14 everywhere on the grid. -/
theorem C121_mtf (hfl : RoundsToNearest fl) (hc : IsCosine cosD) (ha : IsArccos acosD) (hL : MathLibrary L) (hT : TenthPower L)
    {s : RealSensor} {g : RealScene} {order order' : SumTree} {pairs pairs' : List (ℝ × ℝ)} {t t' c δw δt : ℝ}
    (h : OrdinaryRating s g order pairs t c)
    (hw : List.Forall₂ (fun p q : ℝ × ℝ => p.1 = q.1 ∧ WithinFactor δw p.2 q.2) pairs' pairs) (ht : WithinFactor δt t' t)
    (hdw : δw ≤ 0.02) (hdt : δt ≤ 0.0004) (ho : order'.leaves.Perm (List.range 9999)) (hr : order'.depth ≤ 2000) :
    (∀ k < 50, |mtfGridD fl cosD acosD L order order' s g pairs' t' (fl c) 50 (50 + k) - abs (opticsAt s g pairs t (k * (c / 50)) 0)|
          ≤ 1.4e-6 + 0.125 / g.slant ^ 2 + 11 * δt + 7 * δw
        ∧ |mtfGridD fl cosD acosD L order order' s g pairs' t' (fl c) (50 - k) 50 - abs (opticsAt s g pairs t 0 (k * (c / 50)))|
          ≤ 1.4e-6 + 0.125 / g.slant ^ 2 + 11 * δt + 7 * δw)
      ∧ ∀ i j : ℕ, i ≤ 100 → j ≤ 100 → |mtfGridD fl cosD acosD L order order' s g pairs' t' (fl c) i j| ≤ 14 := by
  have hc0 : 0 < c := by linarith [h.large]
  have hD := h.aperture
  have heta : s.eta = 0 ∨ 1e-3 ≤ s.eta ∧ s.eta ≤ 0.9 := h.obscuration.imp id fun e => ⟨e.1, e.2.1⟩
  have heta' : s.eta = 0 ∨ 0 < s.eta ∧ s.eta ≤ 0.9 := heta.imp id fun e => ⟨by linarith [e.1], e.2⟩
  have key : ∀ k : ℕ, k < 50 → ∀ κ u v : ℝ, WithinFactor 7.2e-14 κ 1 → Real.sqrt (u ^ 2 + v ^ 2) = k * (c / 50) →
      |(|systemD fl L order s pairs' g.cn2 g.aircraftSpeed t'
          (fun l => (friedD fl cosD acosD L order' g.altitude g.groundRange g.windSpeed g.cn2 l).number) (κ * u) (κ * v)|)
        - abs (opticsAt s g pairs t u v)| ≤ 1.4e-6 + 0.125 / g.slant ^ 2 + 11 * δt + 7 * δw := by
    intro k hk κ u v hκ hρ
    have hρ2 : Real.sqrt ((κ * u) ^ 2 + (κ * v) ^ 2) = κ * (k * (c / 50)) := by rw [radius_scale hκ.1, hρ]
    obtain ⟨o1, o2⟩ := ordinary_axis h hw ht hk hκ hρ2
    have A := C119_system hfl hc ha hL hT o1 ho hr h.altitude.1 h.altitude.2 h.range.1 h.range.2 h.wind.1 h.wind.2 h.ground o2
    have hk' : (k : ℝ) ≤ 49 := by exact_mod_cast (by omega : k ≤ 49)
    have hk0 : (0 : ℝ) ≤ k := k.cast_nonneg
    have B := system_change (r := fried g.altitude g.groundRange g.windSpeed g.cn2) (cn2 := g.cn2) (vel := g.aircraftSpeed) (u := u) (v := v)
      hκ ht (by linarith) hdw h.band hw hD heta' h.phase.1 h.phase.2 (by
        intro p hp
        rw [hρ, div_le_iff₀ hD]
        have := (h.octave p hp).2
        have p0 := h.band.positive p hp
        have h5 : (k : ℝ) / 50 * (c * p.1) ≤ 1 * (2 * s.D) := mul_le_mul (by linarith) this (by positivity) (by norm_num)
        calc p.1 * ((k : ℝ) * (c / 50)) = (k : ℝ) / 50 * (c * p.1) := by ring
          _ ≤ 1 * (2 * s.D) := h5
          _ ≤ 2.9 * s.D := by linarith) (by
        intro c0
        refine ⟨(h.turbulence c0).1, (h.turbulence c0).2.1, fun p hp => ?_⟩
        have := ((h.turbulence c0).2.2 p hp).2.1
        by_contra hn
        have h6 : s.D / fried g.altitude g.groundRange g.windSpeed g.cn2 p.1 ≤ 0 := div_nonpos_of_nonneg_of_nonpos hD.le (not_lt.mp hn)
        linarith)
    rw [systemAt_optics, systemAt_optics] at B
    refine (abs_abs_sub_abs_le _ _).trans ((abs_sub_le _ _ _).trans ((add_le_add A B).trans ?_))
    linarith
  have c50 : ∀ k : ℕ, Real.sqrt (((k : ℝ) * (c / 50)) ^ 2 + 0 ^ 2) = k * (c / 50) := by
    intro k
    rw [zero_pow two_ne_zero, add_zero, Real.sqrt_sq (by positivity)]
  have c50' : ∀ k : ℕ, Real.sqrt ((0 : ℝ) ^ 2 + ((k : ℝ) * (c / 50)) ^ 2) = k * (c / 50) := by
    intro k
    rw [zero_pow two_ne_zero, zero_add, Real.sqrt_sq (by positivity)]
  have zu : gridUD fl (fl c) 50 = 0 := gridU_centre hfl _
  have zv : gridVD fl (fl c) 50 = 0 := by rw [gridV_mirror, gridU_centre hfl.mirror, neg_zero]
  refine ⟨fun k hk => ⟨?_, ?_⟩, fun i j hi hj => ?_⟩
  · obtain ⟨κ, h1, h2⟩ := gridAxis_u hfl hc0 hk
    have := key k hk κ _ 0 h1 (c50 k)
    unfold mtfGridD
    rw [h2, zv]
    rw [mul_zero] at this
    exact this
  · obtain ⟨κ, h1, h2⟩ := gridAxis_v hfl hc0 hk
    have := key k hk κ 0 _ h1 (c50' k)
    unfold mtfGridD
    rw [h2, zu]
    rw [mul_zero] at this
    exact this
  · unfold mtfGridD
    rw [abs_abs]
    obtain ⟨o1, o2⟩ := ordinary_clear h hw ht (grid_radius hfl hc0 hi hj)
    have hs2 := scene_slant_small h.altitude.1
    have o3 := o1.change (δ := 1e-8 + 0.11 / g.slant ^ 2)
      (r' := fun l => (friedD fl cosD acosD L order' g.altitude g.groundRange g.windSpeed g.cn2 l).number)
      (fun c0 p hp => scene_fried hfl hc ha hL hT ho hr h.altitude.1 h.altitude.2 h.range.1 h.range.2 h.wind.1 h.wind.2 h.ground c0
        (o2 c0 p hp).1) (by linarith) (fun c0 p hp => (o2 c0 p hp).2)
    exact system_size hfl hL o3 heta

/-- **C121** (edges). So are the relative edge responses: with `q` the number of cycles of the cutoff frequency per pixel,
within `2 · 10^-10 (1 + q) + 2.1 (1.4 · 10^-6 + 0.125 / d² + 11 δt + 7 δw) q`. -/
theorem C121_edges (hfl : RoundsToNearest fl) (hc : IsCosine cosD) (ha : IsArccos acosD) (hL : MathLibrary L) (hT : TenthPower L)
    (hI : Interpolates interp) {s : RealSensor} {g : RealScene} {order order' order'' : SumTree} {pairs pairs' : List (ℝ × ℝ)}
    {t t' c δw δt : ℝ} (h : OrdinaryRating s g order pairs t c)
    (hw : List.Forall₂ (fun p q : ℝ × ℝ => p.1 = q.1 ∧ WithinFactor δw p.2 q.2) pairs' pairs) (ht : WithinFactor δt t' t)
    (hdw : δw ≤ 0.02) (hdt : δt ≤ 0.0004) (ho : order'.leaves.Perm (List.range 9999)) (hr : order'.depth ≤ 2000)
    (ho' : order''.leaves.Perm (List.range (sliceCountD fl 101 - 1))) (hr' : order''.depth ≤ 600) (hx : 0 < s.pX) (hy : 0 < s.pY) :
    let rer := giqe5RerD fl cosD L.sin order'' interp (mtfGridD fl cosD acosD L order order' s g pairs' t' (fl c)) (stepD fl (fl c))
      (fl (s.pX / s.f)) (fl (s.pY / s.f))
    let M : ℝ → ℝ → ℝ := fun u v => |opticsAt s g pairs t u v|
    |rer.1 - rerOf (alongU M (c / 50)) (c / 50) (s.pX / s.f)| ≤ 2e-10 * (1 + s.pX / s.f * c)
          + 2.1 * (1.4e-6 + 0.125 / g.slant ^ 2 + 11 * δt + 7 * δw) * (s.pX / s.f * c)
      ∧ |rer.2 - rerOf (alongV M (c / 50)) (c / 50) (s.pY / s.f)| ≤ 2e-10 * (1 + s.pY / s.f * c)
          + 2.1 * (1.4e-6 + 0.125 / g.slant ^ 2 + 11 * δt + 7 * δw) * (s.pY / s.f * c) := by
  intro rer M
  have hc0 : 0 < c := by linarith [h.large]
  have hf := h.focal
  have hlarge := h.large
  obtain ⟨h1, h2⟩ := C121_mtf hfl hc ha hL hT h hw ht hdw hdt ho hr
  have hcw := fl_within hfl hc0
  have hce := abs_le.mp (hcw.error (by norm_num))
  set E := 1.4e-6 + 0.125 / g.slant ^ 2 + 11 * δt + 7 * δw with hE
  have hE0 : 0 ≤ E := (abs_nonneg _).trans (h1 0 (by norm_num)).1
  have hE1 : E ≤ 0.9 := by
    have := scene_slant_small h.altitude.1
    have e : 0.125 / g.slant ^ 2 = 0.125 / 0.11 * (0.11 / g.slant ^ 2) := by ring
    rw [hE, e]
    linarith
  have hlarge' : 1e-4 ≤ fl c := by linarith [hce.1]
  have hmu : ∀ k < 50, |alongU M (c / 50) k| ≤ 15 ∧ |alongV M (c / 50) k| ≤ 15 := by
    intro k hk
    obtain ⟨a1, a2⟩ := h1 k hk
    have b1 := h2 50 (50 + k) (by norm_num) (by omega)
    have b2 := h2 (50 - k) 50 (by omega) (by norm_num)
    rw [abs_sub_comm] at a1 a2
    have t1 := abs_sub_abs_le_abs_sub (abs (opticsAt s g pairs t (k * (c / 50)) 0))
      (mtfGridD fl cosD acosD L order order' s g pairs' t' (fl c) 50 (50 + k))
    have t2 := abs_sub_abs_le_abs_sub (abs (opticsAt s g pairs t 0 (k * (c / 50))))
      (mtfGridD fl cosD acosD L order order' s g pairs' t' (fl c) (50 - k) 50)
    constructor
    · show |abs (opticsAt s g pairs t (k * (c / 50)) 0)| ≤ 15
      linarith
    · show |abs (opticsAt s g pairs t 0 (k * (c / 50)))| ≤ 15
      linarith
  obtain ⟨k1, k2⟩ := C120_edges hfl hc hL.trig.sin hI ho' hr' (G := mtfGridD fl cosD acosD L order order' s g pairs' t' (fl c)) (M := 14)
    (ε := E) (c := fl c) h2 hlarge' (mu := alongU M (c / 50)) (mv := alongV M (c / 50)) (fun k hk => (h1 k hk).1) (fun k hk => (h1 k hk).2)
    (ix := s.pX / s.f) (iy := s.pY / s.f) (by positivity) (by positivity)
  have fin : ∀ (m : ℕ → ℝ) (i r : ℝ), 0 < i → (∀ k < 50, |m k| ≤ 15) →
      |r - rerOf m (fl c / 50) i| ≤ 1e-11 * (1 + 14 * (i * fl c)) + 2.1 * E * (i * fl c) →
      |r - rerOf m (c / 50) i| ≤ 2e-10 * (1 + i * c) + 2.1 * E * (i * c) := by
    intro m i r hi hm hr
    have w : WithinFactor 1e-15 (fl c / 50) (c / 50) := by
      have := hcw.div (WithinFactor.refl (by norm_num : (0:ℝ) < 50))
      rwa [add_zero] at this
    have S := C120_sensitivity (n := 50) (m := m) (M := 15) w (WithinFactor.refl hi) (by norm_num) hm 0.5
    rw [abs_of_pos (by norm_num : (0:ℝ) < 0.5)] at S
    simp only [Nat.reduceSub, add_zero] at S
    rw [rerOf_eq] at hr ⊢
    generalize edge 50 m (fl c / 50) i 0.5 = e1 at *
    generalize edge 50 m (c / 50) i 0.5 = e2 at *
    have q0 : 0 ≤ i * c := by positivity
    have hq : i * fl c ≤ (1 + 1.1e-15) * (i * c) := by
      have : fl c ≤ (1 + 1.1e-15) * c := by linarith [hce.2]
      nlinarith
    have S' : |e1 - e2| ≤ 1e-12 * (i * c) := by
      refine S.trans ?_
      have e : 11 * 15 * i * 0.5 * (((49 : ℕ) : ℝ) * (c / 50)) * 1e-15 = 11 * 15 * 0.5 * 49 / 50 * 1e-15 * (i * c) := by push_cast; ring
      rw [e]
      exact mul_le_mul_of_nonneg_right (by norm_num) q0
    have t1 := abs_sub_le r (2 * e1 - 1) (2 * e2 - 1)
    have t2 : |2 * e1 - 1 - (2 * e2 - 1)| = 2 * |e1 - e2| := by
      rw [show 2 * e1 - 1 - (2 * e2 - 1) = 2 * (e1 - e2) by ring, abs_mul, abs_of_pos (by norm_num : (0:ℝ) < 2)]
    have t3 : 2.1 * E * (i * fl c) ≤ 2.1 * E * (i * c) + 1e-14 * (i * c) := by
      have : 2.1 * E * (i * fl c) ≤ 2.1 * E * ((1 + 1.1e-15) * (i * c)) := mul_le_mul_of_nonneg_left hq (by positivity)
      have : E * (i * c) ≤ 0.9 * (i * c) := mul_le_mul_of_nonneg_right hE1 q0
      linarith
    linarith
  exact ⟨fin _ _ _ (by positivity) (fun k hk => (hmu k hk).1) k1, fin _ _ _ (by positivity) (fun k hk => (hmu k hk).2) k2⟩

/-! ## The geometry -/

theorem half_pi_computed (hfl : RoundsToNearest fl) : fl (fl Real.pi / 2) ≤ Real.pi / 2 := by
  have h1 := Real.pi_gt_d20
  have h2 := Real.pi_lt_d20
  have a := hfl.le_of_lt (m := 7074237752028440) (by norm_num) (by norm_num) (-51) (x := Real.pi) (by norm_num; linarith)
  have b : fl Real.pi / 2 ≤ ((7074237752028440 : ℤ) : ℝ) * (2 : ℝ) ^ (-52 : ℤ) := by
    refine (div_le_div_of_nonneg_right a (by norm_num)).trans (le_of_eq ?_)
    norm_num
  have c := hfl.mono b
  rw [hfl.self (isDouble_dyadic (-52) (by norm_num))] at c
  refine c.trans ?_
  norm_num
  linarith

theorem slant_le {g : RealScene} (h0 : 4 ≤ g.altitude) (h1 : g.altitude ≤ 1000000) (g0 : 1 ≤ g.groundRange) (g1 : g.groundRange ≤ 1000000) :
    g.slant ≤ 1500000 := by
  rw [scene_slant, slant_sq2, Real.sqrt_le_left (by norm_num)]
  have hcos := Real.one_sub_sq_div_two_le_cos (x := g.groundRange / R)
  have hR : R = 6378164 := rfl
  have hg2 : g.groundRange ^ 2 ≤ 1000000 ^ 2 := pow_le_pow_left₀ (by linarith) g1 2
  have hh2 : g.altitude ^ 2 ≤ 1000000 ^ 2 := pow_le_pow_left₀ (by linarith) h1 2
  have e : sq2 0 g.altitude g.groundRange = g.altitude ^ 2 + 2 * (R + g.altitude) * R * (1 - Real.cos (g.groundRange / R)) := by
    unfold sq2; ring
  rw [e]
  have h3 : 2 * (R + g.altitude) * R * (1 - Real.cos (g.groundRange / R)) ≤ 2 * (R + g.altitude) * R * ((g.groundRange / R) ^ 2 / 2) :=
    mul_le_mul_of_nonneg_left (by linarith) (by rw [hR]; positivity)
  have h4 : 2 * (R + g.altitude) * R * ((g.groundRange / R) ^ 2 / 2) = (R + g.altitude) / R * g.groundRange ^ 2 := by
    rw [hR]; field_simp
  have h5 : (R + g.altitude) / R * g.groundRange ^ 2 ≤ 1.2 * 1000000 ^ 2 := by
    refine mul_le_mul ?_ hg2 (by positivity) (by norm_num)
    rw [hR, div_le_iff₀ (by norm_num)]; linarith
  linarith

/-- The elevation angle is at least the altitude over the slant range. -/
theorem elevation_ge {g : RealScene} (hg : g.Viewing) (ha : 0 < g.altitude) {φ : ℝ}
    (h : IsAngle 0 (pointAt g.altitude 0) (pointAt 0 g.groundRange) φ) : g.altitude / g.slant ≤ Real.pi / 2 - φ := by
  obtain ⟨e0, e1⟩ := elev_range hg ha h
  refine le_trans ?_ (Real.sin_le e0.le)
  rw [Real.sin_pi_div_two_sub]
  obtain ⟨-, -, h⟩ := h
  have hR : (0 : ℝ) < R := by unfold R; norm_num
  have hd : 0 < g.slant := slant_pos_of hg
  have hp : pdist (pointAt g.altitude 0) 0 = R + g.altitude := by
    have : pdist (pointAt g.altitude 0) 0 = |R + g.altitude| := by
      unfold pdist pointAt
      simp [Real.sqrt_sq_eq_abs]
    rw [this, abs_of_pos (by linarith)]
  have hdot : (R + g.altitude) * g.altitude ≤ dot (0 - pointAt g.altitude 0) (pointAt 0 g.groundRange - pointAt g.altitude 0) := by
    unfold dot pointAt
    simp only [zero_div, Real.sin_zero, Real.cos_zero, mul_zero, mul_one, Prod.fst_sub, Prod.snd_sub,
      add_zero, sub_zero, zero_sub, zero_mul, zero_add, Prod.fst_neg, Prod.snd_neg, neg_zero]
    have hc := Real.cos_le_one (g.groundRange / R)
    have : R * Real.cos (g.groundRange / R) ≤ R := by nlinarith
    nlinarith
  rw [← h, hp] at hdot
  have e : pdist (pointAt g.altitude 0) (pointAt 0 g.groundRange) = g.slant := rfl
  rw [e] at hdot
  rw [div_le_iff₀ hd]
  have : (R + g.altitude) * g.altitude ≤ (R + g.altitude) * (Real.cos φ * g.slant) := by linarith
  exact le_of_mul_le_mul_left this (by linarith)

/-- **C121** (geometry). The slant range that `niirs5` computes is within a factor `exp (0.2 / d²)` of the exact one and the
elevation angle within a factor `exp (0.8 / (g h) + 2 · 10^-9)`, for the slant range `d`, the ground range `g` and the altitude
`h` in metres. -/
theorem C121_geometry (hfl : RoundsToNearest fl) (hc : IsCosine cosD) (ha : IsArccos acosD) {g : RealScene} (h0 : 4 ≤ g.altitude)
    (h1 : g.altitude ≤ 1000000) (g0 : 1 ≤ g.groundRange) (g1 : g.groundRange ≤ 1000000) {φ : ℝ}
    (hφ : IsAngle 0 (pointAt g.altitude 0) (pointAt 0 g.groundRange) φ) :
    ∃ b e, slantRangeD fl cosD 0 g.altitude g.groundRange = .fin b ∧ WithinFactor (0.2 / g.slant ^ 2) b g.slant
      ∧ elevationD fl (nadirAngleD fl acosD 0 g.altitude (.fin b)) = .fin e ∧ e ≤ Real.pi / 2
      ∧ WithinFactor (0.8 / (g.groundRange * g.altitude) + 2e-9) e (Real.pi / 2 - φ) := by
  have hR : R = 6378164 := rfl
  have hsl := scene_slant_ge h0
  have hview : g.Viewing := ⟨by rw [hR]; linarith, by
    show g.slant ≠ 0
    linarith⟩
  obtain ⟨d, η, b, η', k1, k2, k3, k4, k5, k6, k7⟩ := C106_off_nadir hfl hc ha (by linarith : 2 ≤ g.altitude) h1 g0 g1
  have hd : d = g.slant := by
    have := slant_fin 0 g.altitude g.groundRange
    rw [show (XR.fin 0) = 0 from rfl, k1] at this
    unfold RealScene.slant
    rw [pdist_pointAt]
    simpa using this
  obtain ⟨φ', l1, l2⟩ := C11_angle_at_sensor (ht := 0) (hs := g.altitude) (g := g.groundRange) hview.above hview.away
    (sH := .py 0) (sS := .py (.fin g.altitude)) (sB := .np (.fin d)) rfl rfl k1.symm
  rw [k3] at l1
  obtain rfl : η = φ' := by simpa using l1
  obtain rfl := view_unique hview hφ l2
  subst hd
  have hη : 0 ≤ η' := by
    unfold nadirAngleD at k6
    simp only at k6
    split at k6
    · cases k6
    · split at k6
      · rename_i hx
        obtain rfl : acosD (cosNadirD fl 0 g.altitude b) = η' := by simpa using k6
        have a1 := ha.accurate _ hx
        have a2 := Real.arccos_nonneg (cosNadirD fl 0 g.altitude b)
        have a3 : (2 : ℝ) ^ (-50 : ℤ) * Real.arccos (cosNadirD fl 0 g.altitude b) ≤ 1 * Real.arccos (cosNadirD fl 0 g.altitude b) :=
          mul_le_mul_of_nonneg_right (by norm_num) a2
        have := (abs_le.mp (a1.trans a3)).1
        linarith
      · cases k6
  have hpi := fl_half_pi hfl
  have hpi' := half_pi_computed hfl
  have hel := elevation_ge hview (by linarith) hφ
  obtain ⟨e0, e1⟩ := elev_range hview (by linarith) hφ
  have hs := slant_le h0 h1 g0 g1
  have hs0 : 0 < g.slant := by linarith
  have hpl := Real.pi_le_four
  refine ⟨b, fl (fl (fl Real.pi / 2) - η'), k4, ?_, ?_, ?_, ?_⟩
  · refine (within_of_rel (ε := 0.1 / g.slant ^ 2) hs0 ?_ ?_).mono (le_of_eq (by ring))
    · rw [div_le_iff₀ (by positivity)]; nlinarith
    · refine k5.trans (le_of_eq ?_)
      field_simp
  · rw [k6]; rfl
  · have := hfl.mono (show fl (fl Real.pi / 2) - η' ≤ fl (fl Real.pi / 2) by linarith)
    have h2 : fl (fl (fl Real.pi / 2)) = fl (fl Real.pi / 2) := hfl.self (hfl _).1
    linarith
  · have hg0 : 0 < g.groundRange := by linarith
    have hh0 : 0 < g.altitude := by linarith
    refine (within_of_rel (ε := 0.4 / (g.groundRange * g.altitude) + 1e-9) e0 ?_ ?_).mono (le_of_eq (by ring))
    · have : 0.4 / (g.groundRange * g.altitude) ≤ 0.1 := by
        rw [div_le_iff₀ (by positivity)]; nlinarith
      linarith
    · set x := fl (fl Real.pi / 2) with hx
      have a1 : |x - η' - (Real.pi / 2 - η)| ≤ 8e-16 + 0.4 / (g.groundRange * g.slant) := by
        rw [show x - η' - (Real.pi / 2 - η) = (x - Real.pi / 2) - (η' - η) by ring]
        exact (abs_sub _ _).trans (add_le_add hpi k7)
      have small : 0.4 / (g.groundRange * g.slant) ≤ 0.1 := by
        rw [div_le_iff₀ (by positivity)]; nlinarith
      have a2 : |x - η'| ≤ 3 := by
        obtain ⟨q1, q2⟩ := abs_le.mp a1
        rw [abs_le]; constructor <;> linarith
      have a3 := fl_close hfl a2
      have a4 := abs_sub_le (fl (x - η')) (x - η') (Real.pi / 2 - η)
      have a5 : 0.4 / (g.groundRange * g.slant) = 0.4 / (g.groundRange * g.altitude) * (g.altitude / g.slant) := by field_simp
      have a6 : 2e-15 ≤ 1e-9 * (g.altitude / g.slant) := by
        rw [← mul_div_assoc, le_div_iff₀ hs0]; linarith
      have a7 : (0.4 / (g.groundRange * g.altitude) + 1e-9) * (g.altitude / g.slant)
          ≤ (0.4 / (g.groundRange * g.altitude) + 1e-9) * (Real.pi / 2 - η) := mul_le_mul_of_nonneg_left hel (by positivity)
      linarith

/-! ## The score -/

/-- `niirs5` reports a number whose relative edge responses, ground sample distance, signal-to-noise ratio and elevation angle
are the exact ones, and rounding errors of the equation itself are `2.1 · 10^-14` of its terms. -/
theorem score_near (hfl : RoundsToNearest fl) (hlib : Accurate lgD L.sin L.exp L.pow) {a b g s el a' b' g' s' el' δ : ℝ} (hd : δ ≤ 0.01)
    (ha : WithinFactor δ a' a) (hb : WithinFactor δ b' b) (hg : WithinFactor δ g' g) (hs : WithinFactor δ s' s)
    (hel : WithinFactor δ el' el) (h1 : el' ≤ Real.pi / 2) (h2 : el ≤ Real.pi / 2) :
    let r := rer5 a b
    let gw := projectedGsd (1 / 4) g el
    |giqe5D fl lgD L.sin L.exp L.pow a' b' g' s' el' - Spec.niirs5 a b g s el|
      ≤ (3.3 + 1.4 * |lg r| + 3.6 * |lg r| ^ 3 + 1.9 / s) * δ
        + 2.1e-14 * (17 + 3.4 * |lg (gw / 0.0254)| + 3.4 * |lg r| + 2 * (1 + |lg r|) ^ 4 + 1.8 / s) := by
  intro r gw
  obtain ⟨y, y', gw1, gw', r1, r', k1, k2, k3, k4, k5⟩ := C108_giqe5_sensitivity hd ha hb hg hs hel h1 h2
  obtain ⟨y2, gw2, r2, l1, l2, -, -⟩ := C108_giqe5_rounding hfl hlib ha.1 hb.1 hg.1 hs.1 hel.1 h1
  rw [giqe5_fin rfl ha.2.1 hb.2.1 hg.2.1 hs.2.1.ne' (sin_pos_elev hel.2.1 h2)] at k1
  rw [k2] at l1
  simp only [Except.ok.injEq, Prod.mk.injEq, XR.fin.injEq] at k1 l1
  obtain ⟨rfl, rfl, rfl⟩ := k1
  obtain ⟨rfl, rfl, rfl⟩ := l1
  have e1 := k3.lg
  have e2 := (k4.div (WithinFactor.refl (x := 0.0254) (by norm_num))).lg
  have e3 := (((WithinFactor.refl (x := 1.8) (by norm_num)).div hs).mono (δ' := δ) (by linarith)).error (by linarith)
  have hs0 : 0 ≤ 1.8 / s := by have := hs.2.1; positivity
  have f1 : |lg r'| ≤ |lg r| + 0.0044 := by
    have := abs_sub_abs_le_abs_sub (lg r') (lg r)
    linarith
  have f2 : |lg (gw' / 0.0254)| ≤ |lg (gw / 0.0254)| + 0.0055 := by
    have := abs_sub_abs_le_abs_sub (lg (gw' / 0.0254)) (lg (gw / 0.0254))
    linarith
  have f3 : 1.8 / s' ≤ 1.02 * (1.8 / s) := by
    have q1 := (abs_le.mp e3).2
    have q2 : 1.02 * δ * (1.8 / s) ≤ 0.02 * (1.8 / s) := mul_le_mul_of_nonneg_right (by linarith) hs0
    linarith
  have l0 := abs_nonneg (lg r)
  have f4 : (1 + |lg r'|) ^ 4 ≤ 1.02 * (1 + |lg r|) ^ 4 := by
    refine (pow_le_pow_left₀ (by positivity) (show 1 + |lg r'| ≤ 1.0044 * (1 + |lg r|) by linarith) 4).trans ?_
    rw [mul_pow]
    exact mul_le_mul_of_nonneg_right (by norm_num) (by positivity)
  have l1 := abs_nonneg (lg (gw / 0.0254))
  have l4 : 0 ≤ (1 + |lg r|) ^ 4 := by positivity
  have f5 : 2e-14 * (17 + 3.4 * |lg (gw' / 0.0254)| + 3.4 * |lg r'| + 2 * (1 + |lg r'|) ^ 4 + 1.8 / s')
      ≤ 2.1e-14 * (17 + 3.4 * |lg (gw / 0.0254)| + 3.4 * |lg r| + 2 * (1 + |lg r|) ^ 4 + 1.8 / s) := by
    linarith
  have := abs_sub_le (giqe5D fl lgD L.sin L.exp L.pow a' b' g' s' el') y' (Spec.niirs5 a b g s el)
  linarith

/-- **C121** (score). The score that `niirs5` computes in double precision, for weights, an exposure time and a signal-to-noise
ratio within factors `exp δw`, `exp δt` and `exp δs` of the exact ones, is within `(3.3 + 1.4 |lg r| + 3.6 |lg r|³ + 1.9 / snr) δ`
of the score that the model computes with real numbers, up to `2.1 · 10^-14` of the terms of the equation, where `r` is the
combined relative edge response; `δ` is any number that exceeds the relative errors of the relative edge responses (`b1`, `b2`),
of the elevation angle (`b3`), of the slant range (`b4`) and of the signal-to-noise ratio (`b5`). -/
theorem C121_score (hfl : RoundsToNearest fl) (hlib : Accurate lgD L.sin L.exp L.pow) (hc : IsCosine cosD) (ha : IsArccos acosD)
    (hL : MathLibrary L) (hT : TenthPower L) (hI : Interpolates interp) {env : Env} {s : RealSensor} {g : RealScene} {sc : Scenario}
    {near : Bool} {B : List (Fin 6 → ℝ)} (him : Imaging env s g sc near B) {order order' order'' : SumTree} {pairs : List (ℝ × ℝ)}
    {t snr c δw δt δs δ ru rv : ℝ} (h : OrdinaryRating s g order (s.band B) (s.exposure B) c) (hframes : 0 < s.frameStacks)
    (hw : List.Forall₂ (fun p q : ℝ × ℝ => p.1 = q.1 ∧ WithinFactor δw p.2 q.2) pairs (s.band B)) (hdw : δw ≤ 0.02)
    (ht : WithinFactor δt t (s.exposure B)) (hdt : δt ≤ 0.0004) (hs : WithinFactor δs snr (s.contrastSNR B))
    (ho : order'.leaves.Perm (List.range 9999)) (hr : order'.depth ≤ 2000)
    (ho' : order''.leaves.Perm (List.range (sliceCountD fl 101 - 1))) (hr' : order''.depth ≤ 600)
    (hu : ru = rerOf (alongU (s.mtf g B fun _ _ => 1) (c / 50)) (c / 50) (s.pX / s.f))
    (hv : rv = rerOf (alongV (s.mtf g B fun _ _ => 1) (c / 50)) (c / 50) (s.pY / s.f)) (hu0 : 0 < ru) (hv0 : 0 < rv) (hd : δ ≤ 0.01)
    (b1 : 4e-10 * (1 + s.pX / s.f * c) + 4.2 * (1.4e-6 + 0.125 / g.slant ^ 2 + 11 * δt + 7 * δw) * (s.pX / s.f * c) ≤ δ * ru)
    (b2 : 4e-10 * (1 + s.pY / s.f * c) + 4.2 * (1.4e-6 + 0.125 / g.slant ^ 2 + 11 * δt + 7 * δw) * (s.pY / s.f * c) ≤ δ * rv)
    (b3 : 0.8 / (g.groundRange * g.altitude) + 2e-9 ≤ δ) (b4 : 0.2 / g.slant ^ 2 + 1e-14 ≤ δ) (b5 : δs + 1e-14 ≤ δ) :
    ∃ (m : Metrics) (x y gw r : ℝ), (niirs5 env s.toSensor sc near).1 = .ok m ∧ m.niirs = .fin y
      ∧ m.giqe5 = some (.fin ru, .fin rv, .fin gw, .fin r)
      ∧ niirs5D fl lgD cosD acosD L interp order order' order'' s g pairs t snr = .fin x
      ∧ |x - y| ≤ (3.3 + 1.4 * |lg r| + 3.6 * |lg r| ^ 3 + 1.9 / (Real.sqrt s.frameStacks * s.contrastSNR B)) * δ
        + 2.1e-14 * (17 + 3.4 * |lg (gw / 0.0254)| + 3.4 * |lg r| + 2 * (1 + |lg r|) ^ 4
          + 1.8 / (Real.sqrt s.frameStacks * s.contrastSNR B)) := by
  obtain ⟨m, c', ru', rv', φ, snr', k1, k2, k3, k4, k5, k6, k7, k8⟩ := C71_value him
  have hcut : s.Cutoff (B) c := by
    obtain ⟨p, hp, e⟩ := h.shortest
    refine ⟨p.1, ⟨p, hp, rfl⟩, fun q hq => ?_, e⟩
    have hp0 : 0 < p.1 := h.band.positive p hp
    have h1 := (h.octave q hq).1
    have hD := h.aperture
    rw [e, div_mul_eq_mul_div, le_div_iff₀ hp0] at h1
    exact le_of_mul_le_mul_left h1 hD
  obtain rfl : c' = c := cutoff_same hcut k2
  rw [← hu] at k3
  rw [← hv] at k4
  subst k3
  subst k4
  have hpx := him.pitchX
  have hpy := him.pitchY
  have hf := h.focal
  have hM : (fun u v => |opticsAt s g (s.band B) (s.exposure B) u v|) = s.mtf g B fun _ _ => 1 := by
    funext u v
    simp [RealSensor.mtf]
  obtain ⟨E1, E2⟩ := C121_edges hfl hc ha hL hT hI h hw ht hdw hdt ho hr ho' hr' hpx hpy
  rw [hM, ← hu] at E1
  rw [hM, ← hv] at E2
  have alt0 : 0 < g.altitude := by linarith [h.altitude.1]
  have W : ∀ {r' r₀ e : ℝ}, 0 < r₀ → |r' - r₀| ≤ e → 2 * e ≤ δ * r₀ → WithinFactor δ r' r₀ := by
    intro r' r₀ e h0 h1 h2
    exact (within_of_rel (ε := δ / 2) h0 (by linarith) (by linarith)).mono (by linarith)
  have w1 := W hu0 E1 (by linarith)
  have w2 := W hv0 E2 (by linarith)
  obtain ⟨b, e, g1, g2, g3, g4, g5⟩ := C121_geometry hfl hc ha h.altitude.1 h.altitude.2 h.range.1 h.range.2 k5
  have w3 : WithinFactor δ (fl (fl (s.pX / s.f) * b)) (s.pX / s.f * g.slant) :=
    (((fl_within hfl (div_pos hpx hf)).mul g2).round hfl).mono (by linarith)
  have w4 : WithinFactor δ (fl (fl (Real.sqrt s.frameStacks) * snr)) (Real.sqrt s.frameStacks * s.contrastSNR B) :=
    (((fl_within hfl (Real.sqrt_pos.mpr hframes)).mul hs).round hfl).mono (by linarith)
  have S := score_near hfl hlib hd w1 w2 w3 w4 (g5.mono b3) g4 (elev_range him.viewing alt0 k5).2
  rw [← k6] at S ⊢
  obtain ⟨v1, v2⟩ := k8 hu0 hv0 alt0 (by rw [k6]; exact w4.2.1.ne')
  refine ⟨m, _, _, _, _, k1, v1, v2, ?_, S⟩
  unfold niirs5D
  simp only [cutoff_computed h hw, g1, g3]

/-! ## Well sampled sensors -/

/-- The relative edge response of a well sampled sensor is at least 0.6 of the product of the frequency step and the field of view
of a detector. -/
theorem rer_ge {M : ℕ → ℝ} {df ifov : ℝ} (h0 : M 0 = 1) (hM : ∀ k, 0 ≤ M k) (hdf : 0 < df) (hi : 0 < ifov)
    (hs : ifov * (df * 49 + 1e-6) ≤ 1) (h3 : ifov * 1e-6 ≤ 1 / 2) : 0.6 * (df * ifov) ≤ rerOf M df ifov := by
  have hpi := Real.pi_pos
  have hw : ∀ i : ℕ, (0 : ℝ) < df * i + 1e-6 := fun i => by positivity
  have hsin : ∀ i : ℕ, i < 50 → 0 ≤ Real.sin (2 * Real.pi * (df * i + 1e-6) * (ifov * (1 / 2))) := by
    intro i hi'
    apply Real.sin_nonneg_of_nonneg_of_le_pi
    · have := hw i; positivity
    · have h1 : (i : ℝ) ≤ 49 := by exact_mod_cast (by omega : i ≤ 49)
      have h2 : df * i + 1e-6 ≤ df * 49 + 1e-6 := by nlinarith
      have h3 : ifov * (df * i + 1e-6) ≤ 1 := le_trans (mul_le_mul_of_nonneg_left h2 hi.le) hs
      nlinarith
  have hnn : ∀ i : ℕ, i < 50 → 0 ≤ M i * Real.sin (2 * Real.pi * (df * i + 1e-6) * (ifov * (1 / 2))) / (df * i + 1e-6) :=
    fun i hi' => div_nonneg (mul_nonneg (hM i) (hsin i hi')) (hw i).le
  have hfirst : 2 * ifov ≤ M 0 * Real.sin (2 * Real.pi * (df * (0 : ℕ) + 1e-6) * (ifov * (1 / 2))) / (df * (0 : ℕ) + 1e-6) := by
    rw [h0, one_mul, Nat.cast_zero, mul_zero, zero_add, le_div_iff₀ (by norm_num)]
    have := Real.mul_le_sin (x := 2 * Real.pi * 1e-6 * (ifov * (1 / 2))) (by positivity) (by nlinarith)
    refine le_trans (le_of_eq ?_) this
    field_simp
  have htrap : df * ifov ≤ trap 50 (fun i : ℕ => df * i + 1e-6)
      (fun i : ℕ => M i * Real.sin (2 * Real.pi * (df * i + 1e-6) * (ifov * (1 / 2))) / (df * i + 1e-6)) := by
    unfold trap
    refine le_trans ?_ (Finset.single_le_sum (f := fun i : ℕ => ((df * ((i + 1 : ℕ) : ℝ) + 1e-6) - (df * i + 1e-6))
      * ((M i * Real.sin (2 * Real.pi * (df * i + 1e-6) * (ifov * (1 / 2))) / (df * i + 1e-6)
        + M (i + 1) * Real.sin (2 * Real.pi * (df * ((i + 1 : ℕ) : ℝ) + 1e-6) * (ifov * (1 / 2))) / (df * ((i + 1 : ℕ) : ℝ) + 1e-6)) / 2))
      (fun i hi' => ?_) (Finset.mem_range.mpr (by norm_num : 0 < 49)))
    · have h2 := hnn 1 (by omega)
      have h3 : (df * ((0 + 1 : ℕ) : ℝ) + 1e-6) - (df * (0 : ℕ) + 1e-6) = df := by push_cast; ring
      rw [h3]
      simp only [zero_add] at *
      nlinarith
    · have hi' : i < 49 := by simpa using hi'
      have h1 := hnn i (by omega)
      have h2 := hnn (i + 1) (by omega)
      have h3 : (0 : ℝ) ≤ (df * ((i + 1 : ℕ) : ℝ) + 1e-6) - (df * i + 1e-6) := by push_cast; nlinarith
      positivity
  unfold rerOf
  rw [edge_neg]
  unfold edge
  dsimp only
  generalize trap 50 _ _ = T at *
  have : 0.3 * (df * ifov) ≤ T / Real.pi := by
    rw [le_div_iff₀ hpi]
    have := Real.pi_lt_d2
    have := mul_pos hdf hi
    nlinarith
  linarith

/-- **C121** (well sampled). If the detectors sample the cutoff frequency at least once per cycle, and not more than a hundred
times, the line of sight is at least a kilometre long and the altitude times the ground range at least 2000 square metres, `δ = 0.0006`
will do: a score with a combined relative edge response between 0.1 and 10, a signal-to-noise ratio of at least 1.9 and a
ground sample distance between `10^-10` and `10^10` inches is computed to within 0.006. -/
theorem C121_well_sampled (hfl : RoundsToNearest fl) (hlib : Accurate lgD L.sin L.exp L.pow) (hc : IsCosine cosD) (ha : IsArccos acosD)
    (hL : MathLibrary L) (hT : TenthPower L) (hI : Interpolates interp) {env : Env} {s : RealSensor} {g : RealScene} {sc : Scenario}
    {near : Bool} {B : List (Fin 6 → ℝ)} (him : Imaging env s g sc near B) {order order' order'' : SumTree} {pairs : List (ℝ × ℝ)}
    {t snr c δw δt δs : ℝ} (h : OrdinaryRating s g order (s.band B) (s.exposure B) c) (hframes : 0 < s.frameStacks)
    (hw : List.Forall₂ (fun p q : ℝ × ℝ => p.1 = q.1 ∧ WithinFactor δw p.2 q.2) pairs (s.band B))
    (ht : WithinFactor δt t (s.exposure B)) (hd : 11 * δt + 7 * δw ≤ 1.5e-7) (hs : WithinFactor δs snr (s.contrastSNR B)) (hds : δs ≤ 5e-4)
    (ho : order'.leaves.Perm (List.range 9999)) (hr : order'.depth ≤ 2000)
    (ho' : order''.leaves.Perm (List.range (sliceCountD fl 101 - 1))) (hr' : order''.depth ≤ 600)
    (q1 : 0.01 ≤ s.pX / s.f * c) (q2 : s.pX / s.f * c ≤ 1) (q3 : 0.01 ≤ s.pY / s.f * c) (q4 : s.pY / s.f * c ≤ 1)
    (hfar : 1000 ≤ g.slant) (harea : 2000 ≤ g.groundRange * g.altitude) :
    ∃ (m : Metrics) (x y ru rv gw r : ℝ), (niirs5 env s.toSensor sc near).1 = .ok m ∧ m.niirs = .fin y
      ∧ m.giqe5 = some (.fin ru, .fin rv, .fin gw, .fin r)
      ∧ niirs5D fl lgD cosD acosD L interp order order' order'' s g pairs t snr = .fin x
      ∧ |x - y| ≤ (3.3 + 1.4 * |lg r| + 3.6 * |lg r| ^ 3 + 1.9 / (Real.sqrt s.frameStacks * s.contrastSNR B)) * 0.0006
        + 2.1e-14 * (17 + 3.4 * |lg (gw / 0.0254)| + 3.4 * |lg r| + 2 * (1 + |lg r|) ^ 4
          + 1.8 / (Real.sqrt s.frameStacks * s.contrastSNR B))
      ∧ (0.1 ≤ r → r ≤ 10 → 1.9 ≤ Real.sqrt s.frameStacks * s.contrastSNR B → 1e-10 ≤ gw / 0.0254 → gw / 0.0254 ≤ 1e10 → |x - y| ≤ 0.006) := by
  have hc0 : 0 < c := by linarith [h.large]
  have hlarge := h.large
  have hpx := div_pos him.pitchX h.focal
  have hpy := div_pos him.pitchY h.focal
  have hb := imaging_band him.wavelengths him.distinct him.signal
  have hM0 : s.mtf g B (fun _ _ => 1) 0 0 = 1 := by
    unfold RealSensor.mtf
    rw [opticsAt_zero him.optical g hb]; simp
  have lo : ∀ {i : ℝ}, 0 < i → i * c ≤ 1 → i * (c / 50 * 49 + 1e-6) ≤ 1 ∧ i * 1e-6 ≤ 1 / 2 := by
    intro i hi hq
    have : i * 1e-3 ≤ i * c := mul_le_mul_of_nonneg_left hlarge hi.le
    constructor <;> linarith
  have r1 := rer_ge (M := alongU (s.mtf g B fun _ _ => 1) (c / 50)) (by unfold alongU; rw [Nat.cast_zero, zero_mul, hM0])
    (fun k => abs_nonneg _) (by positivity : 0 < c / 50) hpx (lo hpx q2).1 (lo hpx q2).2
  have r2 := rer_ge (M := alongV (s.mtf g B fun _ _ => 1) (c / 50)) (by unfold alongV; rw [Nat.cast_zero, zero_mul, hM0])
    (fun k => abs_nonneg _) (by positivity : 0 < c / 50) hpy (lo hpy q4).1 (lo hpy q4).2
  have hw0 : 0 ≤ δw := by
    obtain ⟨p, hp, -⟩ := h.shortest
    generalize s.band B = l at hw hp
    cases hw with
    | nil => cases hp
    | cons a _ => exact a.2.nonneg
  have ht0 := ht.nonneg
  have sm : 0.2 / g.slant ^ 2 ≤ 2e-7 := by
    rw [div_le_iff₀ (by positivity)]
    nlinarith
  have sm' : 0.125 / g.slant ^ 2 ≤ 1.25e-7 := by
    have e : 0.125 / g.slant ^ 2 = 0.625 * (0.2 / g.slant ^ 2) := by ring
    linarith
  have sm'' : 0.8 / (g.groundRange * g.altitude) ≤ 0.0004 := by
    rw [div_le_iff₀ (by linarith)]
    linarith
  have bud : ∀ {q r : ℝ}, 0.01 ≤ q → 0.6 * (q / 50) ≤ r →
      4e-10 * (1 + q) + 4.2 * (1.4e-6 + 0.125 / g.slant ^ 2 + 11 * δt + 7 * δw) * q ≤ 0.0006 * r := by
    intro q r h1 h2
    have : (1.4e-6 + 0.125 / g.slant ^ 2 + 11 * δt + 7 * δw) * q ≤ 1.675e-6 * q := mul_le_mul_of_nonneg_right (by linarith) (by linarith)
    linarith
  have e1 : c / 50 * (s.pX / s.f) = s.pX / s.f * c / 50 := by ring
  have e2 : c / 50 * (s.pY / s.f) = s.pY / s.f * c / 50 := by ring
  rw [e1] at r1
  rw [e2] at r2
  obtain ⟨m, x, y, gw, r, k1, k2, k3, k4, k5⟩ := C121_score hfl hlib hc ha hL hT hI him (δ := 0.0006) h hframes hw (by linarith) ht
    (by linarith) hs ho hr ho' hr' rfl rfl (lt_of_lt_of_le (by linarith) r1) (lt_of_lt_of_le (by linarith) r2) (by norm_num)
    (bud q1 r1) (bud q3 r2) (by linarith) (by linarith) (by linarith)
  refine ⟨m, x, y, _, _, gw, r, k1, k2, k3, k4, k5, fun a1 a2 a3 a4 a5 => k5.trans ?_⟩
  have ten : (1 : ℝ) < 10 := by norm_num
  have lgs : ∀ {z : ℝ} {n : ℕ}, ((10 : ℝ) ^ n)⁻¹ ≤ z → z ≤ 10 ^ n → |lg z| ≤ n := by
    intro z n h1 h2
    have hz : 0 < z := lt_of_lt_of_le (by positivity) h1
    unfold lg
    rw [abs_le]
    constructor
    · rw [Real.le_logb_iff_rpow_le ten hz, Real.rpow_neg (by norm_num), Real.rpow_natCast]
      exact h1
    · rw [Real.logb_le_iff_le_rpow ten hz, Real.rpow_natCast]
      exact h2
  have l1 : |lg r| ≤ 1 := by simpa using lgs (n := 1) (by norm_num at a1 ⊢; linarith) (by norm_num; linarith)
  have l2 : |lg (gw / 0.0254)| ≤ 10 := by simpa using lgs (n := 10) (by norm_num at a4 ⊢; linarith) (by norm_num at a5 ⊢; linarith)
  have s1 : 1.9 / (Real.sqrt s.frameStacks * s.contrastSNR B) ≤ 1 := (div_le_one (by linarith)).mpr a3
  have s2 : 1.8 / (Real.sqrt s.frameStacks * s.contrastSNR B) ≤ 1 := (div_le_one (by linarith)).mpr (by linarith)
  have l3 : |lg r| ^ 3 ≤ 1 := pow_le_one₀ (abs_nonneg _) l1
  have l4 : (1 + |lg r|) ^ 4 ≤ 16 := by
    have := pow_le_pow_left₀ (by positivity) (show 1 + |lg r| ≤ 2 by linarith) 4
    linarith
  linarith

end PyBSM
