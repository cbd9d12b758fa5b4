import Verif.Spec.Noisier
import Verif.Props.Compare

/-!
# C110: noise and the ratings of `niirs`
-/

noncomputable section

open Classical

namespace PyBSM

open Spec

theorem overshoot_same {M : ℕ → ℝ} {df ifov e e' : ℝ} (h : IsOvershoot M df ifov e) (h' : IsOvershoot M df ifov e') :
    e' = e := by
  unfold IsOvershoot at h h'
  dsimp only at h h'
  by_cases c : ∀ i : ℕ, i < 8 → edge 50 M df ifov (1 + (i : ℝ) / 4) < edge 50 M df ifov (1 + ((i + 1 : ℕ) : ℝ) / 4)
  · rw [h.1 c, h'.1 c]
  · obtain ⟨⟨i, hi, rfl⟩, h2⟩ := h.2 c
    obtain ⟨⟨j, hj, rfl⟩, h2'⟩ := h'.2 c
    exact le_antisymm (h2 j hj) (h2' i hi)

theorem cutoff_same {s : RealSensor} {B : List (Fin 6 → ℝ)} {c c' : ℝ} (h : s.Cutoff B c) (h' : s.Cutoff B c') : c' = c := by
  obtain ⟨l, ⟨p, hp, rfl⟩, hl, rfl⟩ := h
  obtain ⟨l', ⟨p', hp', rfl⟩, hl', rfl⟩ := h'
  rw [le_antisymm (hl p' hp') (hl' p hp)]

theorem view_unique {g : RealScene} (hg : g.Viewing) {φ ψ : ℝ}
    (h : IsAngle 0 (pointAt g.altitude 0) (pointAt 0 g.groundRange) φ)
    (h' : IsAngle 0 (pointAt g.altitude 0) (pointAt 0 g.groundRange) ψ) : ψ = φ := by
  have hq0 : pdist (pointAt g.altitude 0) 0 ≠ 0 := by
    have : pdist (pointAt g.altitude 0) 0 = |R + g.altitude| := by
      unfold pdist pointAt
      simp [Real.sqrt_sq_eq_abs]
    rw [this, abs_ne_zero]
    exact hg.above.ne'
  exact isAngle_unique h' h hq0 hg.away

/-- How the ratings of `niirs` depend on the parameters of the read-out. -/
theorem niirs_noise {env : Env} {s : RealSensor} {g : RealScene} {sc : Scenario} {interp : Bool}
    {B : List (Fin 6 → ℝ)} (h : Imaging env s g sc interp B) (hk : s.filterKernel.flatten.sum = 1)
    (he : s.Edges g B env.diag) (ha : 0 < g.altitude) :
    ∃ a b n : ℝ, 0 < n ∧ ∀ (r : ℝ) (o : List ℝ) (d f : ℝ) (s' : RealSensor),
      s' = { s with readNoise := r, otherNoise := o, bitDepth := d, frameStacks := f } →
      Imaging env s' g sc interp B → Real.sqrt f * s'.contrastSNR B ≠ 0 →
      ∃ m, (niirs env s'.toSensor sc interp).1 = .ok m ∧ Radiometry s' g B m
        ∧ Rated m (a - n / (Real.sqrt f * s'.contrastSNR B)) (b - 0.334 * n / (Real.sqrt f * s'.contrastSNR B)) := by
  obtain ⟨m, c, eu, ev, φ, rer, eho, n4, gp, -, -, h3, -, -, h6, -, h8, h9, -⟩ := niirs_value h hk
  obtain ⟨r1, r2, e1, e2⟩ := he c _ h3.isCutoff (sharpening_filterAt env.diag h.focal.ne' (fun _ => h.pitchX.ne'))
  have hsl := slant_pos_of h.viewing
  have g0 : 0 < Real.sqrt ((s.pX / s.f * g.slant) * (s.pY / s.f * g.slant)) := by
    have := h.pitchX; have := h.pitchY; have := h.focal; positivity
  have hn0 : 0 < (s.filterKernel.flatten.map (· ^ 2)).sum := by
    rcases (List.sum_nonneg (l := s.filterKernel.flatten.map (· ^ 2))
      (by intro x hx; obtain ⟨y, -, rfl⟩ := List.mem_map.mp hx; positivity)).lt_or_eq with h0 | h0
    · exact h0
    · exfalso
      have hz : ∀ x ∈ s.filterKernel.flatten, x = 0 := by
        intro x hx
        have := List.all_zero_of_le_zero_le_of_sum_eq_zero (l := s.filterKernel.flatten.map (· ^ 2))
          (by intro x hx; obtain ⟨y, -, rfl⟩ := List.mem_map.mp hx; positivity) h0.symm (List.mem_map.mpr ⟨x, hx, rfl⟩)
        exact pow_eq_zero_iff (two_ne_zero) |>.mp this
      have : s.filterKernel.flatten.sum = 0 := List.sum_eq_zero hz
      linarith
  generalize hru : rerOf (alongU (s.mtf g B (filterAt env.diag s)) (c / 50)) (c / 50) (s.pX / s.f) = ru at *
  generalize hrv : rerOf (alongV (s.mtf g B (filterAt env.diag s)) (c / 50)) (c / 50) (s.pY / s.f) = rv at *
  generalize hG : Real.sqrt ((s.pX / s.f * g.slant) * (s.pY / s.f * g.slant)) = G at *
  set Q := Real.sqrt (ru * rv) with hQ
  set E := Real.sqrt (eu * ev) with hE
  have Q0 : 0 < Q := Real.sqrt_pos.mpr (mul_pos r1 r2)
  refine ⟨11.81 + 3.32 * lg (Q / (G / 0.0254)) - 1.48 * E,
    if 0.9 ≤ Q then 10.251 - 3.32 * lg (projectedGsd (1 / 2) G (Real.pi / 2 - φ) / 0.0254) + 1.559 * lg Q - 0.656 * E
      else 10.251 - 3.16 * lg (projectedGsd (1 / 2) G (Real.pi / 2 - φ) / 0.0254) + 2.817 * lg Q - 0.656 * E,
    _, Real.sqrt_pos.mpr hn0, ?_⟩
  intro r o d f s' hs' h' hsnr
  obtain ⟨m', c', eu', ev', φ', rer', eho', n4', gp', f1, f2, f3, -, -, f6, -, f8, f9, f10, f11, f12, f13, f14⟩ :=
    niirs_value h' (by rw [hs']; exact hk)
  refine ⟨m', f1, f2, ?_⟩
  have hcc : c' = c := by
    have := f3.isCutoff
    rw [hs'] at this
    exact cutoff_same h3.isCutoff this
  subst hcc
  have hφ : φ' = φ := view_unique h.viewing h6 f6
  subst hφ
  have hm : s'.mtf g B (filterAt env.diag s') = s.mtf g B (filterAt env.diag s) := by rw [hs']; rfl
  have px : s'.pX = s.pX := by rw [hs']
  have py : s'.pY = s.pY := by rw [hs']
  have pf : s'.f = s.f := by rw [hs']
  have pk : s'.filterKernel = s.filterKernel := by rw [hs']
  have pF : s'.frameStacks = f := by rw [hs']
  rw [hm, px, pf] at f8
  rw [hm, py, pf] at f9
  have hu := overshoot_same h8 f8
  have hv := overshoot_same h9 f9
  subst hu hv
  rw [hm, px, py, pf, hru, hrv, XR.fin_sqrt (mul_pos r1 r2).le] at f10
  rw [XR.fin_sqrt (mul_nonneg (e1 _ h8) (e2 _ h9))] at f11
  rw [f10, f11, px, py, pf, pk, pF, hG] at f13 f14
  rw [giqe3_fin rfl rfl rfl rfl rfl Q0 g0 hsnr, Except.ok.injEq] at f13
  rw [giqe4_fin rfl rfl rfl rfl rfl Q0 g0 hsnr (sin_elev_pos h.viewing ha h6), Except.ok.injEq, Prod.mk.injEq] at f14
  have e4 : n4' = .fin ((if 0.9 ≤ Q then
        10.251 - 3.32 * lg (projectedGsd (1 / 2) G (Real.pi / 2 - φ') / 0.0254) + 1.559 * lg Q - 0.656 * E
      else 10.251 - 3.16 * lg (projectedGsd (1 / 2) G (Real.pi / 2 - φ') / 0.0254) + 2.817 * lg Q - 0.656 * E)
      - 0.334 * Real.sqrt (s.filterKernel.flatten.map (· ^ 2)).sum / (Real.sqrt f * s'.contrastSNR B)) := by
    rw [← f14.1]
    split_ifs <;> rfl
  rw [e4] at f12
  exact ⟨f13.symm, _, _, _, _, _, _, f12⟩

theorem moreNoise_refl {s : RealSensor} (hb : 0 < s.bitDepth) (hf : 0 < s.frameStacks) : MoreNoise s s :=
  ⟨rfl, le_rfl, le_rfl, hb, le_rfl, hf, le_rfl⟩

theorem noisy_contrast {s s' : RealSensor} {B : List (Fin 6 → ℝ)} (m : MoreNoise s s') :
    s'.cut B * (s'.electrons B s'.targetAt - s'.electrons B s'.backgroundAt)
      = s.cut B * (s.electrons B s.targetAt - s.electrons B s.backgroundAt) := by
  have es : ∀ {β : Sort _} (F : RealSensor → β), F s' = F { s with readNoise := s'.readNoise, otherNoise := s'.otherNoise, bitDepth := s'.bitDepth, frameStacks := s'.frameStacks } :=
    fun F => congrArg F m.same
  exact es fun t => t.cut B * (t.electrons B t.targetAt - t.electrons B t.backgroundAt)

theorem noise_strict {s s' : RealSensor} {B : List (Fin 6 → ℝ)} (b : MoreNoise s s') (hM : 0 < s.maxN)
    (hlt : |s.readNoise| < |s'.readNoise|) (p0 : 0 < s'.noise B) : s.noise B < s'.noise B := by
  let t : RealSensor := { s' with readNoise := s.readNoise }
  have ht : MoreNoise s t := by
    refine ⟨?_, le_rfl, b.otherNoise, b.bits0, b.bits, b.frames0, b.frames⟩
    show ({ s' with readNoise := s.readNoise } : RealSensor) = _
    conv_lhs => rw [b.same]
  refine (noise_mono ht hM B).trans_lt ?_
  unfold RealSensor.noise at p0 ⊢
  rw [Real.sqrt_lt_sqrt_iff_of_pos (Real.sqrt_pos.mp p0)]
  have := sq_lt_sq.mpr hlt
  show s'.cut B * s'.brightest B + (s'.maxN / (Real.sqrt 12 * ((2 : ℝ) ^ s'.bitDepth - 1))) ^ 2 + s.readNoise ^ 2
    + (s'.otherNoise.map (· ^ 2)).sum < _
  linarith

/-- **C110** (noise): where the target is brighter than the background, more read-out noise, more other noise, fewer
bits or fewer stacked frames never improve the GIQE 3 and GIQE 4 ratings that `niirs` reports, whatever the sharpening
kernel. -/
theorem C110_noise {env : Env} {s s' : RealSensor} {g : RealScene} {sc : Scenario} {interp : Bool}
    {B : List (Fin 6 → ℝ)} (h : Imaging env s g sc interp B) (hk : s.filterKernel.flatten.sum = 1)
    (he : s.Edges g B env.diag) (hc : Contrast s g B) (b : MoreNoise s s') :
    ∃ (m m' : Metrics) (x x' y y' : ℝ), (niirs env s.toSensor sc interp).1 = .ok m
      ∧ (niirs env s'.toSensor sc interp).1 = .ok m' ∧ Rated m x y ∧ Rated m' x' y' ∧ x' ≤ x ∧ y' ≤ y := by
  obtain ⟨a, b', n, n0, H⟩ := niirs_noise h hk he hc.altitude
  have hn := noise_mono b h.well B
  have p0 := noise_pos h.well h.fill h.bits h.counts
  have k0 : 0 < s.cut B * (s.electrons B s.targetAt - s.electrons B s.backgroundAt) :=
    mul_pos hc.cut (sub_pos.mpr hc.brighter)
  have hS : Real.sqrt s'.frameStacks * s'.contrastSNR B ≤ Real.sqrt s.frameStacks * s.contrastSNR B := by
    unfold RealSensor.contrastSNR
    rw [noisy_contrast b]
    exact mul_le_mul (Real.sqrt_le_sqrt b.frames) (div_le_div_of_nonneg_left k0.le p0 hn)
      (div_nonneg k0.le (p0.le.trans hn)) (Real.sqrt_nonneg _)
  have h0 : 0 < Real.sqrt s'.frameStacks * s'.contrastSNR B := by
    unfold RealSensor.contrastSNR
    rw [noisy_contrast b]
    exact mul_pos (Real.sqrt_pos.mpr b.frames0) (div_pos k0 (p0.trans_le hn))
  obtain ⟨m, e1, -, e2⟩ := H _ _ _ _ s rfl h (h0.trans_le hS).ne'
  obtain ⟨m', f1, -, f2⟩ := H _ _ _ _ s' b.same (b.imaging h) h0.ne'
  refine ⟨m, m', _, _, _, _, e1, f1, e2, f2, ?_, ?_⟩
  · have := div_le_div_of_nonneg_left n0.le h0 hS
    linarith
  · have := div_le_div_of_nonneg_left (by positivity : 0 ≤ 0.334 * n) h0 hS
    linarith

/-- **C110** (dark target): where the background is brighter it is the other way round: more noise never lowers the
ratings, and more read-out noise with everything else equal raises them. -/
theorem C110_dark_target {env : Env} {s s' : RealSensor} {g : RealScene} {sc : Scenario} {interp : Bool}
    {B : List (Fin 6 → ℝ)} (h : Imaging env s g sc interp B) (hk : s.filterKernel.flatten.sum = 1)
    (he : s.Edges g B env.diag) (hc : DarkTarget s g B) (b : MoreNoise s s') :
    ∃ (m m' : Metrics) (x x' y y' : ℝ), (niirs env s.toSensor sc interp).1 = .ok m
      ∧ (niirs env s'.toSensor sc interp).1 = .ok m' ∧ Rated m x y ∧ Rated m' x' y' ∧ x ≤ x' ∧ y ≤ y'
      ∧ (|s.readNoise| < |s'.readNoise| → x < x' ∧ y < y') := by
  obtain ⟨a, b', n, n0, H⟩ := niirs_noise h hk he hc.altitude
  have hn := noise_mono b h.well B
  have p0 := noise_pos h.well h.fill h.bits h.counts
  have k0 : 0 < s.cut B * (s.electrons B s.backgroundAt - s.electrons B s.targetAt) :=
    mul_pos hc.cut (sub_pos.mpr hc.darker)
  have h' := b.imaging h
  have p0' := noise_pos h'.well h'.fill h'.bits h'.counts
  have f0 := Real.sqrt_pos.mpr b.frames0
  have f1 := Real.sqrt_le_sqrt b.frames
  have snr_eq : ∀ t : RealSensor, MoreNoise s t → 0 < t.noise B → ∀ c : ℝ, c / (Real.sqrt t.frameStacks * t.contrastSNR B)
      = -(c * (t.noise B / (Real.sqrt t.frameStacks * (s.cut B * (s.electrons B s.backgroundAt - s.electrons B s.targetAt))))) := by
    intro t ht hp c
    unfold RealSensor.contrastSNR
    rw [noisy_contrast ht, show s.cut B * (s.electrons B s.targetAt - s.electrons B s.backgroundAt)
      = -(s.cut B * (s.electrons B s.backgroundAt - s.electrons B s.targetAt)) by ring]
    have := Real.sqrt_pos.mpr ht.frames0
    field_simp
  have ne0 : ∀ t : RealSensor, MoreNoise s t → 0 < t.noise B → Real.sqrt t.frameStacks * t.contrastSNR B ≠ 0 := by
    intro t ht hp
    unfold RealSensor.contrastSNR
    rw [noisy_contrast ht, show s.cut B * (s.electrons B s.targetAt - s.electrons B s.backgroundAt)
      = -(s.cut B * (s.electrons B s.backgroundAt - s.electrons B s.targetAt)) by ring]
    exact mul_ne_zero (Real.sqrt_pos.mpr ht.frames0).ne' (div_ne_zero (neg_ne_zero.mpr k0.ne') hp.ne')
  have hrefl := moreNoise_refl h.bits hc.frames
  obtain ⟨m, e1, -, e2⟩ := H _ _ _ _ s rfl h (ne0 s hrefl p0)
  obtain ⟨m', g1, -, g2⟩ := H _ _ _ _ s' b.same h' (ne0 s' b p0')
  rw [snr_eq s hrefl p0, snr_eq s hrefl p0] at e2
  rw [snr_eq s' b p0', snr_eq s' b p0'] at g2
  have fs := Real.sqrt_pos.mpr hc.frames
  generalize s.cut B * (s.electrons B s.backgroundAt - s.electrons B s.targetAt) = k at *
  have hle : s.noise B / (Real.sqrt s.frameStacks * k) ≤ s'.noise B / (Real.sqrt s'.frameStacks * k) :=
    div_le_div₀ p0'.le hn (mul_pos f0 k0) (mul_le_mul_of_nonneg_right f1 k0.le)
  refine ⟨m, m', _, _, _, _, e1, g1, e2, g2, ?_, ?_, fun hlt => ?_⟩
  · have := mul_le_mul_of_nonneg_left hle n0.le
    linarith
  · have := mul_le_mul_of_nonneg_left hle (by positivity : 0 ≤ 0.334 * n)
    linarith
  · have hs : s.noise B < s'.noise B := noise_strict b h.well hlt p0'
    have hlt' : s.noise B / (Real.sqrt s.frameStacks * k) < s'.noise B / (Real.sqrt s'.frameStacks * k) :=
      (div_lt_div_of_pos_right hs (mul_pos fs k0)).trans_le
        (div_le_div_of_nonneg_left p0'.le (mul_pos f0 k0) (mul_le_mul_of_nonneg_right f1 k0.le))
    have h1 := mul_lt_mul_of_pos_left hlt' n0
    have h2 := mul_lt_mul_of_pos_left hlt' (by positivity : 0 < 0.334 * n)
    constructor <;> linarith

/-- **C110** (no bound): and then the ratings exceed every number, if only the read-out noise is large enough. -/
theorem C110_unbounded {env : Env} {s : RealSensor} {g : RealScene} {sc : Scenario} {interp : Bool}
    {B : List (Fin 6 → ℝ)} (h : Imaging env s g sc interp B) (hk : s.filterKernel.flatten.sum = 1)
    (he : s.Edges g B env.diag) (hc : DarkTarget s g B) (N : ℝ) :
    ∃ (r x y : ℝ) (m : Metrics), (niirs env { s with readNoise := r }.toSensor sc interp).1 = .ok m
      ∧ Rated m x y ∧ N < x ∧ N < y := by
  obtain ⟨a, b, n, n0, H⟩ := niirs_noise h hk he hc.altitude
  set k := s.cut B * (s.electrons B s.backgroundAt - s.electrons B s.targetAt) with hk'
  have k0 : 0 < k := mul_pos hc.cut (sub_pos.mpr hc.darker)
  have fs := Real.sqrt_pos.mpr hc.frames
  obtain ⟨r, r0, r1, r2⟩ : ∃ r : ℝ, |s.readNoise| ≤ r
      ∧ N < a + n * (r / (Real.sqrt s.frameStacks * k)) ∧ N < b + 0.334 * n * (r / (Real.sqrt s.frameStacks * k)) := by
    have hd : 0 < Real.sqrt s.frameStacks * k := mul_pos fs k0
    have hd1 : 0 < n / (Real.sqrt s.frameStacks * k) := div_pos n0 hd
    have hd2 : 0 < 0.334 * n / (Real.sqrt s.frameStacks * k) := div_pos (by positivity) hd
    refine ⟨|s.readNoise| + (|N - a| + 1) / (n / (Real.sqrt s.frameStacks * k))
      + (|N - b| + 1) / (0.334 * n / (Real.sqrt s.frameStacks * k)), ?_, ?_, ?_⟩
    · have h1 := div_nonneg (by positivity : 0 ≤ |N - a| + 1) hd1.le
      have h2 := div_nonneg (by positivity : 0 ≤ |N - b| + 1) hd2.le
      linarith
    · have h1 := div_mul_cancel₀ (|N - a| + 1) hd1.ne'
      have h2 := div_nonneg (by positivity : 0 ≤ |N - b| + 1) hd2.le
      have h3 := le_abs_self (N - a)
      have h4 := abs_nonneg s.readNoise
      generalize (|N - a| + 1) / (n / (Real.sqrt s.frameStacks * k)) = p at *
      generalize (|N - b| + 1) / (0.334 * n / (Real.sqrt s.frameStacks * k)) = q at *
      rw [show n * ((|s.readNoise| + p + q) / (Real.sqrt s.frameStacks * k))
        = (|s.readNoise| + q) * (n / (Real.sqrt s.frameStacks * k)) + p * (n / (Real.sqrt s.frameStacks * k)) by ring, h1]
      have := mul_nonneg (add_nonneg h4 h2) hd1.le
      linarith
    · have h1 := div_mul_cancel₀ (|N - b| + 1) hd2.ne'
      have h2 := div_nonneg (by positivity : 0 ≤ |N - a| + 1) hd1.le
      have h3 := le_abs_self (N - b)
      have h4 := abs_nonneg s.readNoise
      generalize (|N - a| + 1) / (n / (Real.sqrt s.frameStacks * k)) = p at *
      generalize (|N - b| + 1) / (0.334 * n / (Real.sqrt s.frameStacks * k)) = q at *
      rw [show 0.334 * n * ((|s.readNoise| + p + q) / (Real.sqrt s.frameStacks * k))
        = (|s.readNoise| + p) * (0.334 * n / (Real.sqrt s.frameStacks * k)) + q * (0.334 * n / (Real.sqrt s.frameStacks * k)) by ring, h1]
      have := mul_nonneg (add_nonneg h4 h2) hd2.le
      linarith
  set t : RealSensor := { s with readNoise := r } with ht
  have hr : 0 ≤ r := (abs_nonneg _).trans r0
  have mt : MoreNoise s t := ⟨rfl, by rw [show |t.readNoise| = r from abs_of_nonneg hr]; exact r0, le_rfl, h.bits, le_rfl,
    hc.frames, le_rfl⟩
  have h' := mt.imaging h
  have p0 := noise_pos h'.well h'.fill h'.bits h'.counts
  have hnr : r ≤ t.noise B := by
    have h1 : 0 ≤ s.cut B * s.brightest B := mul_nonneg hc.cut.le h.counts
    have h2 : 0 ≤ (s.otherNoise.map (· ^ 2)).sum := List.sum_nonneg (by
      intro x hx; obtain ⟨y, -, rfl⟩ := List.mem_map.mp hx; positivity)
    have h3 : 0 ≤ (s.maxN / (Real.sqrt 12 * ((2 : ℝ) ^ s.bitDepth - 1))) ^ 2 := sq_nonneg _
    show r ≤ Real.sqrt (s.cut B * s.brightest B + (s.maxN / (Real.sqrt 12 * ((2 : ℝ) ^ s.bitDepth - 1))) ^ 2 + r ^ 2
      + (s.otherNoise.map (· ^ 2)).sum)
    exact Real.le_sqrt_of_sq_le (by linarith)
  have hsnr : Real.sqrt t.frameStacks * t.contrastSNR B = -(Real.sqrt s.frameStacks * k / t.noise B) := by
    unfold RealSensor.contrastSNR
    rw [noisy_contrast mt, show s.cut B * (s.electrons B s.targetAt - s.electrons B s.backgroundAt) = -k by rw [hk']; ring]
    show Real.sqrt s.frameStacks * (-k / t.noise B) = _
    ring
  have hne : Real.sqrt t.frameStacks * t.contrastSNR B ≠ 0 := by
    rw [hsnr]
    exact neg_ne_zero.mpr (div_ne_zero (mul_pos fs k0).ne' p0.ne')
  obtain ⟨m, e1, -, e2⟩ := H _ _ _ _ t rfl h' hne
  change Rated m (a - n / (Real.sqrt t.frameStacks * t.contrastSNR B)) (b - 0.334 * n / (Real.sqrt t.frameStacks * t.contrastSNR B)) at e2
  rw [hsnr] at e2
  have hd : 0 < Real.sqrt s.frameStacks * k := mul_pos fs k0
  have hle := div_le_div_of_nonneg_right hnr hd.le
  have e : ∀ c : ℝ, c / -(Real.sqrt s.frameStacks * k / t.noise B) = -(c * (t.noise B / (Real.sqrt s.frameStacks * k))) := by
    intro c; field_simp
  rw [e, e] at e2
  refine ⟨r, _, _, m, e1, e2, ?_, ?_⟩
  · have := mul_le_mul_of_nonneg_left hle n0.le
    linarith
  · have := mul_le_mul_of_nonneg_left hle (by positivity : 0 ≤ 0.334 * n)
    linarith

/-- How the rating of `niirs5` depends on the parameters of the read-out. -/
theorem niirs5_noise {env : Env} {s : RealSensor} {g : RealScene} {sc : Scenario} {interp : Bool}
    {B : List (Fin 6 → ℝ)} (h : Imaging env s g sc interp B) (hq : s.Sampled B) (ha : 0 < g.altitude) :
    ∃ a r1 r2 gw rer : ℝ, 0 < r1 ∧ 0 < r2 ∧ ∀ (r : ℝ) (o : List ℝ) (d f : ℝ) (s' : RealSensor),
      s' = { s with readNoise := r, otherNoise := o, bitDepth := d, frameStacks := f } →
      Imaging env s' g sc interp B → Real.sqrt f * s'.contrastSNR B ≠ 0 →
      ∃ m, (niirs5 env s'.toSensor sc interp).1 = .ok m ∧ m.giqe5 = some (.fin r1, .fin r2, .fin gw, .fin rer)
        ∧ m.niirs = .fin (a + 3.32 * (1 - Real.exp (-1.9 / (Real.sqrt f * s'.contrastSNR B))) * lg (rer5 r1 r2)
          - 1.8 / (Real.sqrt f * s'.contrastSNR B)) := by
  obtain ⟨m, c, φ, gw, rer, -, -, e3, -, -, e6, -, -, -⟩ := niirs5_value h
  have hc := cutoff_pos h.optical.aperture h.wavelengths e3.isCutoff
  have hb := imaging_band h.wavelengths h.distinct h.signal
  obtain ⟨q1, q2⟩ := hq _ e3.isCutoff
  have ix : 0 < s.pX / s.f := div_pos h.pitchX h.focal
  have iy : 0 < s.pY / s.f := div_pos h.pitchY h.focal
  have hdf : 0 < c / 50 := by positivity
  have hle : c / 50 * 49 + 1e-6 ≤ c + 1e-6 := by linarith
  have qx := (mul_le_mul_of_nonneg_left hle ix.le).trans q1
  have qy := (mul_le_mul_of_nonneg_left hle iy.le).trans q2
  have hM0 : s.mtf g B (fun _ _ => 1) 0 0 = 1 := by
    unfold RealSensor.mtf
    rw [opticsAt_zero h.optical g hb]; simp
  have p1 : 0 < rerOf (alongU (s.mtf g B fun _ _ => 1) (c / 50)) (c / 50) (s.pX / s.f) := by
    refine rerOf_pos ?_ (fun k => abs_nonneg _) hdf ix qx
    unfold alongU; rw [Nat.cast_zero, zero_mul, hM0]; norm_num
  have p2 : 0 < rerOf (alongV (s.mtf g B fun _ _ => 1) (c / 50)) (c / 50) (s.pY / s.f) := by
    refine rerOf_pos ?_ (fun k => abs_nonneg _) hdf iy qy
    unfold alongV; rw [Nat.cast_zero, zero_mul, hM0]; norm_num
  have g0 : 0 < s.pX / s.f * g.slant := mul_pos ix (slant_pos_of h.viewing)
  have hsin := sin_elev_pos h.viewing ha e6
  refine ⟨9.57 - 3.32 * lg (projectedGsd (1 / 4) (s.pX / s.f * g.slant) (Real.pi / 2 - φ) / 0.0254)
    - 2 * lg (rer5 (rerOf (alongU (s.mtf g B fun _ _ => 1) (c / 50)) (c / 50) (s.pX / s.f))
      (rerOf (alongV (s.mtf g B fun _ _ => 1) (c / 50)) (c / 50) (s.pY / s.f))) ^ 4, _, _,
    projectedGsd (1 / 4) (s.pX / s.f * g.slant) (Real.pi / 2 - φ),
    rer5 (rerOf (alongU (s.mtf g B fun _ _ => 1) (c / 50)) (c / 50) (s.pX / s.f))
      (rerOf (alongV (s.mtf g B fun _ _ => 1) (c / 50)) (c / 50) (s.pY / s.f)), p1, p2, ?_⟩
  intro r o d f s' hs' h' hsnr
  obtain ⟨m', c', φ', gw', rer', f1, f2, f3, -, -, f6, -, f8, f9⟩ := niirs5_value h'
  have hcc : c' = c := by
    have := f3.isCutoff
    rw [hs'] at this
    exact cutoff_same e3.isCutoff this
  subst hcc
  have hφ : φ' = φ := view_unique h.viewing e6 f6
  subst hφ
  have hm : s'.mtf g B (fun _ _ => 1) = s.mtf g B (fun _ _ => 1) := by rw [hs']; rfl
  have px : s'.pX = s.pX := by rw [hs']
  have py : s'.pY = s.pY := by rw [hs']
  have pf : s'.f = s.f := by rw [hs']
  have pF : s'.frameStacks = f := by rw [hs']
  rw [hm, px, py, pf] at f8
  rw [hm, px, py, pf, pF, giqe5_fin rfl p1 p2 g0 hsnr hsin, Except.ok.injEq, Prod.mk.injEq, Prod.mk.injEq] at f9
  refine ⟨m', f1, ?_, ?_⟩
  · rw [f8, ← f9.2.1, ← f9.2.2]
  · rw [← f9.1]
    unfold Spec.niirs5
    congr 1
    ring

/-- **C110** (`niirs5`): where the background is brighter, more noise never lowers the GIQE 5 rating either, for relative
edge responses up to 1; and with enough read-out noise it exceeds every number. -/
theorem C110_niirs5 {env : Env} {s : RealSensor} {g : RealScene} {sc : Scenario} {interp : Bool}
    {B : List (Fin 6 → ℝ)} (h : Imaging env s g sc interp B) (hq : s.Sampled B) (hc : DarkTarget s g B) :
    ∃ (r1 r2 gw rer x : ℝ) (m : Metrics), (niirs5 env s.toSensor sc interp).1 = .ok m
      ∧ m.giqe5 = some (.fin r1, .fin r2, .fin gw, .fin rer) ∧ m.niirs = .fin x
      ∧ (∀ s', MoreNoise s s' → ∃ (m' : Metrics) (x' : ℝ), (niirs5 env s'.toSensor sc interp).1 = .ok m'
          ∧ m'.giqe5 = m.giqe5 ∧ m'.niirs = .fin x' ∧ (r1 ≤ 1 → r2 ≤ 1 → x ≤ x'))
      ∧ ∀ N : ℝ, ∃ (r x' : ℝ) (m' : Metrics), (niirs5 env { s with readNoise := r }.toSensor sc interp).1 = .ok m'
          ∧ m'.niirs = .fin x' ∧ (r1 ≤ 1 → r2 ≤ 1 → N < x') := by
  obtain ⟨a, r1, r2, gw, rer, p1, p2, H⟩ := niirs5_noise h hq hc.altitude
  set k := s.cut B * (s.electrons B s.backgroundAt - s.electrons B s.targetAt) with hk'
  have k0 : 0 < k := mul_pos hc.cut (sub_pos.mpr hc.darker)
  have fs := Real.sqrt_pos.mpr hc.frames
  have lneg : r1 ≤ 1 → r2 ≤ 1 → lg (rer5 r1 r2) ≤ 0 := by
    intro l1 l2
    have hb := rer5_between p1 p2
    exact Real.logb_nonpos (by norm_num) ((lt_min p1 p2).le.trans hb.1) (hb.2.trans (max_le l1 l2))
  -- minus the reciprocal of the SNR
  set z : RealSensor → ℝ := fun t => t.noise B / (Real.sqrt t.frameStacks * k) with hz
  have hsnr : ∀ t, MoreNoise s t → Real.sqrt t.frameStacks * t.contrastSNR B = -(z t)⁻¹ := by
    intro t ht
    unfold RealSensor.contrastSNR
    rw [noisy_contrast ht, show s.cut B * (s.electrons B s.targetAt - s.electrons B s.backgroundAt) = -k by rw [hk']; ring, hz,
      inv_div]
    ring
  have zpos : ∀ t, MoreNoise s t → 0 < z t := by
    intro t ht
    have h' := ht.imaging h
    exact div_pos (noise_pos h'.well h'.fill h'.bits h'.counts) (mul_pos (Real.sqrt_pos.mpr ht.frames0) k0)
  have H' : ∀ t, MoreNoise s t → ∃ m, (niirs5 env t.toSensor sc interp).1 = .ok m
      ∧ m.giqe5 = some (.fin r1, .fin r2, .fin gw, .fin rer)
      ∧ m.niirs = .fin (a + 3.32 * (1 - Real.exp (1.9 * z t)) * lg (rer5 r1 r2) + 1.8 * z t) := by
    intro t ht
    have hp := zpos t ht
    obtain ⟨m, e1, e2, e3⟩ := H _ _ _ _ t ht.same (ht.imaging h) (by
      rw [hsnr t ht]; exact neg_ne_zero.mpr (inv_ne_zero hp.ne'))
    refine ⟨m, e1, e2, e3.trans ?_⟩
    rw [hsnr t ht]
    congr 1
    rw [show -1.9 / -(z t)⁻¹ = 1.9 * z t by field_simp, show (1.8 : ℝ) / -(z t)⁻¹ = -(1.8 * z t) by field_simp]
    ring
  have hrefl := moreNoise_refl h.bits hc.frames
  obtain ⟨m, e1, e2, e3⟩ := H' s hrefl
  refine ⟨r1, r2, gw, rer, _, m, e1, e2, e3, ?_, ?_⟩
  · intro s' b
    obtain ⟨m', f1, f2, f3⟩ := H' s' b
    refine ⟨m', _, f1, f2.trans e2.symm, f3, ?_⟩
    intro l1 l2
    have hl := lneg l1 l2
    have h' := b.imaging h
    have p0' := noise_pos h'.well h'.fill h'.bits h'.counts
    have hle : z s ≤ z s' := div_le_div₀ p0'.le (noise_mono b h.well B) (mul_pos (Real.sqrt_pos.mpr b.frames0) k0)
      (mul_le_mul_of_nonneg_right (Real.sqrt_le_sqrt b.frames) k0.le)
    have he : Real.exp (1.9 * z s) ≤ Real.exp (1.9 * z s') := Real.exp_le_exp.mpr (by linarith)
    nlinarith
  · intro N
    set r := |s.readNoise| + |N - a| * (Real.sqrt s.frameStacks * k) with hr
    have hr0 : |s.readNoise| ≤ r := by
      have : 0 ≤ |N - a| * (Real.sqrt s.frameStacks * k) := by positivity
      linarith
    have hr1 : 0 ≤ r := (abs_nonneg _).trans hr0
    have mt : MoreNoise s { s with readNoise := r } := ⟨rfl, by
      show |s.readNoise| ≤ |r|
      rw [abs_of_nonneg hr1]; exact hr0, le_rfl, h.bits, le_rfl, hc.frames, le_rfl⟩
    obtain ⟨m', f1, f2, f3⟩ := H' _ mt
    refine ⟨r, _, m', f1, f3, ?_⟩
    intro l1 l2
    have hl := lneg l1 l2
    have hp := zpos _ mt
    have hnr : r ≤ RealSensor.noise { s with readNoise := r } B := by
      have h1 : 0 ≤ s.cut B * s.brightest B := mul_nonneg hc.cut.le h.counts
      have h2 : 0 ≤ (s.otherNoise.map (· ^ 2)).sum := List.sum_nonneg (by
        intro x hx; obtain ⟨y, -, rfl⟩ := List.mem_map.mp hx; positivity)
      have h3 : 0 ≤ (s.maxN / (Real.sqrt 12 * ((2 : ℝ) ^ s.bitDepth - 1))) ^ 2 := sq_nonneg _
      show r ≤ Real.sqrt (s.cut B * s.brightest B + (s.maxN / (Real.sqrt 12 * ((2 : ℝ) ^ s.bitDepth - 1))) ^ 2 + r ^ 2
        + (s.otherNoise.map (· ^ 2)).sum)
      exact Real.le_sqrt_of_sq_le (by linarith)
    have hd : 0 < Real.sqrt s.frameStacks * k := mul_pos fs k0
    have hza : |N - a| ≤ z { s with readNoise := r } := by
      show |N - a| ≤ RealSensor.noise { s with readNoise := r } B / (Real.sqrt s.frameStacks * k)
      rw [le_div_iff₀ hd]
      refine le_trans ?_ hnr
      have := abs_nonneg s.readNoise
      linarith
    generalize z { s with readNoise := r } = w at *
    have he : 1 ≤ Real.exp (1.9 * w) := Real.one_le_exp (by positivity)
    have h5 : 0 ≤ (1 - Real.exp (1.9 * w)) * lg (rer5 r1 r2) := mul_nonneg_of_nonpos_of_nonpos (by linarith) hl
    have := le_abs_self (N - a)
    nlinarith

/-- Edges are imaged as edges by a camera that samples the cutoff 2.5 times per cycle and does not sharpen. -/
theorem edges_of_sampled {env : Env} {s : RealSensor} {g : RealScene} {sc : Scenario} {interp : Bool}
    {B : List (Fin 6 → ℝ)} (h : Imaging env s g sc interp B) (hk : s.filterKernel.length ≤ 1)
    (hq : ∀ c, s.Cutoff B c → 2.5 * (s.pX / s.f) * (c + 1e-6) ≤ 1 ∧ 2.5 * (s.pY / s.f) * (c + 1e-6) ≤ 1)
    (diag : ℕ → ℕ → Bool) : s.Edges g B diag := by
  intro c F h2 h3
  have hc := cutoff_pos h.optical.aperture h.wavelengths h2
  have hb := imaging_band h.wavelengths h.distinct h.signal
  obtain ⟨q1, q2⟩ := hq c h2
  have hM0 : s.mtf g B F 0 0 = 1 := by
    unfold RealSensor.mtf
    rw [opticsAt_zero h.optical g hb, h3.1 hk 0 0]; simp
  have hU0 : 0 < alongU (s.mtf g B F) (c / 50) 0 := by
    unfold alongU; rw [Nat.cast_zero, zero_mul, hM0]; norm_num
  have hV0 : 0 < alongV (s.mtf g B F) (c / 50) 0 := by
    unfold alongV; rw [Nat.cast_zero, zero_mul, hM0]; norm_num
  have hU : ∀ k, 0 ≤ alongU (s.mtf g B F) (c / 50) k := fun k => abs_nonneg _
  have hV : ∀ k, 0 ≤ alongV (s.mtf g B F) (c / 50) k := fun k => abs_nonneg _
  have hdf : 0 < c / 50 := by positivity
  have ix : 0 < s.pX / s.f := div_pos h.pitchX h.focal
  have iy : 0 < s.pY / s.f := div_pos h.pitchY h.focal
  have hle : c / 50 * 49 + 1e-6 ≤ c + 1e-6 := by linarith
  have b1 : 2.5 * (s.pX / s.f) * (c / 50 * 49 + 1e-6) ≤ 1 :=
    (mul_le_mul_of_nonneg_left hle (by positivity)).trans q1
  have b2 : 2.5 * (s.pY / s.f) * (c / 50 * 49 + 1e-6) ≤ 1 :=
    (mul_le_mul_of_nonneg_left hle (by positivity)).trans q2
  have hw : 0 < c / 50 * 49 + 1e-6 := by positivity
  refine ⟨rerOf_pos hU0 hU hdf ix (by nlinarith [mul_pos ix hw]), rerOf_pos hV0 hV hdf iy (by nlinarith [mul_pos iy hw]),
    fun e he => ?_, fun e he => ?_⟩
  · have := overshoot_pos hU0 hU hdf ix b1 he
    linarith
  · have := overshoot_pos hV0 hV hdf iy b2 he
    linarith

end PyBSM
