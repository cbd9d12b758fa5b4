import Verif.Lemmas.Compare

/-!
# C77-C79: how the rating of a camera depends on its parameters
-/

noncomputable section

open Classical

namespace PyBSM

open Spec

theorem isAngle_unique {p q r : Pt} {φ ψ : ℝ} (h : IsAngle p q r φ) (h' : IsAngle p q r ψ) (h1 : pdist q p ≠ 0)
    (h2 : pdist q r ≠ 0) : φ = ψ := by
  apply Real.injOn_cos ⟨h.1, h.2.1⟩ ⟨h'.1, h'.2.1⟩
  exact mul_right_cancel₀ (mul_ne_zero h1 h2) (h.2.2.trans h'.2.2.symm)

theorem elev_range {g : RealScene} (hg : g.Viewing) (ha : 0 < g.altitude) {φ : ℝ}
    (h : IsAngle 0 (pointAt g.altitude 0) (pointAt 0 g.groundRange) φ) :
    0 < Real.pi / 2 - φ ∧ Real.pi / 2 - φ ≤ Real.pi / 2 := by
  have hs := sin_elev_pos hg ha h
  refine ⟨?_, by linarith [h.1]⟩
  by_contra hn
  have := Real.sin_nonpos_of_nonpos_of_neg_pi_le (x := Real.pi / 2 - φ) (by linarith) (by linarith [h.2.1, Real.pi_pos])
  linarith

theorem contrast_pos {env : Env} {s : RealSensor} {g : RealScene} {sc : Scenario} {interp : Bool}
    {B : List (Fin 6 → ℝ)} (h : Imaging env s g sc interp B) (hc : Contrast s g B) :
    0 < Real.sqrt s.frameStacks * s.contrastSNR B :=
  mul_pos (Real.sqrt_pos.mpr hc.frames) (div_pos (mul_pos hc.cut (sub_pos.mpr hc.brighter))
    (noise_pos h.well h.fill h.bits h.counts))

/-- Comparison of two `niirs5` reports in terms of their MTFs and SNRs. -/
theorem niirs5_order {env : Env} {s s' : RealSensor} {g g' : RealScene} {sc sc' : Scenario} {interp : Bool}
    {B : List (Fin 6 → ℝ)} (h : Imaging env s g sc interp B) (h' : Imaging env s' g' sc' interp B)
    (hx : s'.pX = s.pX) (hy : s'.pY = s.pY) (hf : s'.f = s.f) (hA : g'.altitude = g.altitude)
    (hR : g'.groundRange = g.groundRange) (hcut : ∀ c, s'.Cutoff B c → s.Cutoff B c) (hq : s.Sampled B)
    (hM : ∀ c, s.Cutoff B c → ∀ u v, (0 ≤ u ∧ u ≤ c ∧ v = 0 ∨ 0 ≤ v ∧ v ≤ c ∧ u = 0) →
      s'.mtf g' B (fun _ _ => 1) u v ≤ s.mtf g B (fun _ _ => 1) u v)
    (ha : 0 < g.altitude) (h0 : 0 < Real.sqrt s'.frameStacks * s'.contrastSNR B)
    (hS : Real.sqrt s'.frameStacks * s'.contrastSNR B ≤ Real.sqrt s.frameStacks * s.contrastSNR B) :
    ∃ m m' : Metrics, (niirs5 env s.toSensor sc interp).1 = .ok m ∧ (niirs5 env s'.toSensor sc' interp).1 = .ok m'
      ∧ Radiometry s g B m ∧ Radiometry s' g' B m' ∧ m'.elevAngle = m.elevAngle
      ∧ (s'.mtf g' B (fun _ _ => 1) = s.mtf g B (fun _ _ => 1) → m'.giqe5 = m.giqe5
        ∧ (Real.sqrt s'.frameStacks * s'.contrastSNR B = Real.sqrt s.frameStacks * s.contrastSNR B → m'.niirs = m.niirs))
      ∧ NoBetter m m' := by
  obtain ⟨m, c, φ, gw, rer, e1, e2, e3, -, -, e6, e7, e8, e9⟩ := niirs5_value h
  obtain ⟨m', c', φ', gw', rer', f1, f2, f3, -, -, f6, f7, f8, f9⟩ := niirs5_value h'
  have hcc : c' = c := by
    obtain ⟨l, ⟨p, hp, rfl⟩, hl, rfl⟩ := hcut _ f3.isCutoff
    obtain ⟨l', ⟨p', hp', rfl⟩, hl', rfl⟩ := e3.isCutoff
    rw [le_antisymm (hl p' hp') (hl' p hp)]
  subst hcc
  have hR0 : (0 : ℝ) < R := by unfold R; norm_num
  have hq0 : pdist (pointAt g.altitude 0) 0 ≠ 0 := by
    have : pdist (pointAt g.altitude 0) 0 = |R + g.altitude| := by
      unfold pdist pointAt
      simp [Real.sqrt_sq_eq_abs]
    rw [this, abs_ne_zero]
    linarith
  have hφ : φ' = φ := by
    rw [hA, hR] at f6
    exact isAngle_unique f6 e6 hq0 h.viewing.away
  subst hφ
  have hslant : g'.slant = g.slant := by unfold RealScene.slant; rw [hA, hR]
  rw [hx, hy, hf, hslant] at f9
  rw [hx, hy, hf] at f8
  have hc := cutoff_pos h.optical.aperture h.wavelengths e3.isCutoff
  have hb := imaging_band h.wavelengths h.distinct h.signal
  have hb' := imaging_band h'.wavelengths h'.distinct h'.signal
  obtain ⟨q1, q2⟩ := hq _ e3.isCutoff
  have ix : 0 < s.pX / s.f := div_pos h.pitchX h.focal
  have iy : 0 < s.pY / s.f := div_pos h.pitchY h.focal
  have hdf : 0 < c' / 50 := by positivity
  have hle : c' / 50 * 49 + 1e-6 ≤ c' + 1e-6 := by linarith
  have qx := (mul_le_mul_of_nonneg_left hle ix.le).trans q1
  have qy := (mul_le_mul_of_nonneg_left hle iy.le).trans q2
  have hM0 : s'.mtf g' B (fun _ _ => 1) 0 0 = 1 := by
    unfold RealSensor.mtf
    rw [opticsAt_zero h'.optical g' hb']; simp
  have p1 : 0 < rerOf (alongU (s'.mtf g' B fun _ _ => 1) (c' / 50)) (c' / 50) (s.pX / s.f) := by
    refine rerOf_pos ?_ (fun k => abs_nonneg _) hdf ix qx
    unfold alongU; rw [Nat.cast_zero, zero_mul, hM0]; norm_num
  have p2 : 0 < rerOf (alongV (s'.mtf g' B fun _ _ => 1) (c' / 50)) (c' / 50) (s.pY / s.f) := by
    refine rerOf_pos ?_ (fun k => abs_nonneg _) hdf iy qy
    unfold alongV; rw [Nat.cast_zero, zero_mul, hM0]; norm_num
  have hk : ∀ k : ℕ, k < 50 → 0 ≤ (k : ℝ) * (c' / 50) ∧ (k : ℝ) * (c' / 50) ≤ c' := by
    intro k hk
    have : (k : ℝ) ≤ 50 := by exact_mod_cast hk.le
    exact ⟨by positivity, by nlinarith⟩
  have o1 := rerOf_mono (M := alongU (s.mtf g B fun _ _ => 1) (c' / 50)) (M' := alongU (s'.mtf g' B fun _ _ => 1) (c' / 50))
    (fun k hk' => hM _ e3.isCutoff _ _ (.inl ⟨(hk k hk').1, (hk k hk').2, rfl⟩)) hdf.le ix.le qx
  have o2 := rerOf_mono (M := alongV (s.mtf g B fun _ _ => 1) (c' / 50)) (M' := alongV (s'.mtf g' B fun _ _ => 1) (c' / 50))
    (fun k hk' => hM _ e3.isCutoff _ _ (.inr ⟨(hk k hk').1, (hk k hk').2, rfl⟩)) hdf.le iy.le qy
  have g0 : 0 < s.pX / s.f * g.slant := mul_pos ix (slant_pos_of h.viewing)
  obtain ⟨el0, el1⟩ := elev_range h.viewing ha e6
  have hsin := sin_elev_pos h.viewing ha e6
  rw [giqe5_fin rfl (p1.trans_le o1) (p2.trans_le o2) g0 (h0.trans_le hS).ne' hsin, Except.ok.injEq, Prod.mk.injEq,
    Prod.mk.injEq] at e9
  rw [giqe5_fin rfl p1 p2 g0 h0.ne' hsin, Except.ok.injEq, Prod.mk.injEq, Prod.mk.injEq] at f9
  refine ⟨m, m', e1, f1, e2, f2, f7.trans e7.symm, ?_, _, _, _, _, _, _, _, _, _, by rw [e8, ← e9.2.1, ← e9.2.2],
    by rw [f8, ← f9.2.1, ← f9.2.2], e9.1.symm, f9.1.symm, p1, o1, p2, o2, rer5_mono p1 p2 o1 o2, ?_⟩
  · intro e
    refine ⟨by rw [e8, f8, ← e9.2.1, ← e9.2.2, ← f9.2.1, ← f9.2.2, e], fun e' => ?_⟩
    rw [← e9.1, ← f9.1, e, e']
  intro l1 l2
  exact Spec.niirs5_mono p1 p2 o1 o2 l1 l2 g0 h0 hS el0 el1

/-! ## C77 -/

theorem Spec.MoreBlur.imaging {env : Env} {s s' : RealSensor} {g g' : RealScene} {sc sc' : Scenario} {interp : Bool}
    {B : List (Fin 6 → ℝ)} (m : MoreBlur s s' g g') (h : Imaging env s g sc interp B) (hsc : g'.Of sc')
    (hz : sc'.ihaze = sc.ihaze) : Imaging env s' g' sc' interp B := by
  have ea : g'.altitude = g.altitude := congrArg (·.altitude) m.sameScene
  have er : g'.groundRange = g.groundRange := congrArg (·.groundRange) m.sameScene
  have es : ∀ {β : Sort _} (F : RealSensor → β), F s' = F { s with sX := s'.sX, sY := s'.sY, daX := s'.daX, daY := s'.daY, pv := s'.pv, lX := s'.lX, lY := s'.lY } :=
    fun F => congrArg F m.sameSensor
  have eA : sc'.altitude = sc.altitude := by rw [hsc.altitude, h.scene.altitude, ea]
  have eR : sc'.groundRange = sc.groundRange := by rw [hsc.groundRange, h.scene.groundRange, er]
  refine ⟨?_, ?_, ?_, hsc, ?_, h.wavelengths, h.distinct, ?_, ?_, ?_, ?_, ?_, ?_, ?_, ?_, ?_⟩
  · obtain ⟨h1, h2, h3, h4, h5, h6, h7, h8⟩ := h.usable
    rw [m.sameSensor]
    exact ⟨h1, h2, h3, h4, h5, h6, h7, h8⟩
  · obtain ⟨h1, h2, h3, h4, -, -⟩ := h.optical
    rw [m.sameSensor]
    exact ⟨h1, h2, h3, h4, m.corrX0, m.corrY0⟩
  · obtain ⟨h1, h2⟩ := h.viewing
    exact ⟨by rw [ea]; exact h1, by rw [ea, er]; exact h2⟩
  · obtain ⟨rows, h1, h2⟩ := h.atmosphere
    refine ⟨rows, by rw [eA, eR, hz]; exact h1, ?_⟩
    rw [h2]
    exact (es (·.rowsInBand rows)).symm
  · obtain ⟨a, h1, h2⟩ := h.signal
    refine ⟨a, h1, ?_⟩
    rw [es fun t => t.spectral (a 0) (t.targetAt a)]
    exact h2
  · rw [es (·.brightest B)]; exact h.counts
  · rw [es (·.maxN)]; exact h.well
  · rw [es (·.maxWellFill)]; exact h.fill
  · rw [es (·.bitDepth)]; exact h.bits
  · rw [es (·.pX)]; exact h.pitchX
  · rw [es (·.pY)]; exact h.pitchY
  · rw [es (·.f)]; exact h.focal
  · rw [es (·.frameStacks)]; exact h.frames

/-- **C77** (blur): more jitter, drift, wavefront error, turbulence or wind never improves what `niirs5` reports, for
cameras that sample the cutoff frequency, bands not wider than a factor of eight and drifts of less than a cycle; the
radiometric part of the report does not change at all. -/
theorem C77_blur {env : Env} {s s' : RealSensor} {g g' : RealScene} {sc sc' : Scenario} {interp : Bool}
    {B : List (Fin 6 → ℝ)} (h : Imaging env s g sc interp B) (b : MoreBlur s s' g g') (hsc : g'.Of sc')
    (hz : sc'.ihaze = sc.ihaze) (hq : s.Sampled B) (hc : Contrast s g B)
    (h8 : ∀ p ∈ s.band B, ∀ q ∈ s.band B, p.1 ≤ 8 * q.1) (hd : s'.SlowDrift B) (ht : 0 ≤ s.intTime * s.nTdi) :
    ∃ m m' : Metrics, (niirs5 env s.toSensor sc interp).1 = .ok m ∧ (niirs5 env s'.toSensor sc' interp).1 = .ok m'
      ∧ m'.snr = m.snr ∧ m'.elevAngle = m.elevAngle ∧ NoBetter m m' := by
  have h' := b.imaging h hsc hz
  have ea : g'.altitude = g.altitude := congrArg (·.altitude) b.sameScene
  have er : g'.groundRange = g.groundRange := congrArg (·.groundRange) b.sameScene
  have es : ∀ {β : Sort _} (F : RealSensor → β), F s' = F { s with sX := s'.sX, sY := s'.sY, daX := s'.daX, daY := s'.daY, pv := s'.pv, lX := s'.lX, lY := s'.lY } :=
    fun F => congrArg F b.sameSensor
  have eband : s'.band B = s.band B := es (·.band B)
  have eexp : s'.exposure B = s.exposure B := es (·.exposure B)
  have ecut : ∀ c, s'.Cutoff B c = s.Cutoff B c := fun c => es (·.Cutoff B c)
  have esnr : Real.sqrt s'.frameStacks * s'.contrastSNR B = Real.sqrt s.frameStacks * s.contrastSNR B :=
    es fun t => Real.sqrt t.frameStacks * t.contrastSNR B
  have en : s'.nTdi = s.nTdi := es (·.nTdi)
  have hb := imaging_band h.wavelengths h.distinct h.signal
  have htn : 0 ≤ s.exposure B * s.nTdi := by
    unfold RealSensor.exposure
    rw [mul_assoc]
    exact mul_nonneg (cut_nonneg h.well h.fill) ht
  have hM : ∀ c, s.Cutoff B c → ∀ u v, (0 ≤ u ∧ u ≤ c ∧ v = 0 ∨ 0 ≤ v ∧ v ≤ c ∧ u = 0) →
      s'.mtf g' B (fun _ _ => 1) u v ≤ s.mtf g B (fun _ _ => 1) u v := by
    intro c hcc u v huv
    obtain ⟨d1, d2⟩ := hd c (by rw [ecut]; exact hcc)
    rw [eexp, en] at d1 d2
    have hc0 := cutoff_pos h.optical.aperture h.wavelengths hcc
    unfold RealSensor.mtf
    rw [mul_one, mul_one, eband, eexp]
    have huv' : |u| ≤ c ∧ |v| ≤ c ∧ Real.sqrt (u ^ 2 + v ^ 2) ≤ c := by
      rcases huv with ⟨h1, h2, rfl⟩ | ⟨h1, h2, rfl⟩
      · rw [abs_of_nonneg h1, abs_zero]
        exact ⟨h2, hc0.le, by simpa [Real.sqrt_sq h1] using h2⟩
      · rw [abs_of_nonneg h1, abs_zero]
        exact ⟨hc0.le, h2, by simpa [Real.sqrt_sq h1] using h2⟩
    refine opticsAt_blur h.optical h.viewing b hb htn ?_ ?_ ?_
    · refine le_trans (mul_le_mul_of_nonneg_left huv'.1 ?_) d1
      rw [mul_assoc]; positivity
    · refine le_trans (mul_le_mul_of_nonneg_left huv'.2.1 ?_) d2
      rw [mul_assoc]; positivity
    · intro p hp
      obtain ⟨l, ⟨p', hp', rfl⟩, hl, rfl⟩ := hcc
      have hl0 := hb.positive p' hp'
      have hp0 := hb.positive p hp
      calc p.1 * Real.sqrt (u ^ 2 + v ^ 2) ≤ p.1 * (s.D / p'.1) := mul_le_mul_of_nonneg_left huv'.2.2 hp0.le
        _ ≤ 8 * p'.1 * (s.D / p'.1) := mul_le_mul_of_nonneg_right (h8 p hp p' hp') hc0.le
        _ = 8 * s.D := by field_simp
  obtain ⟨m, m', e1, e2, e3, e4, e5, -, e6⟩ := niirs5_order h h' (es (·.pX)) (es (·.pY)) (es (·.f)) ea er
    (fun c hc => ecut c ▸ hc) hq hM hc.altitude (esnr ▸ contrast_pos h hc) esnr.le
  refine ⟨m, m', e1, e2, ?_, e5, e6⟩
  have d1 := e3.detector
  have d2 := e4.detector
  rw [e4.wavelengths, e4.target, e4.background, es (·.toSensor), es (·.targetAt), es (·.backgroundAt)] at d2
  rw [e3.wavelengths, e3.target, e3.background] at d1
  have := d2.symm.trans d1
  rwa [Except.ok.injEq] at this

/-! ## C78 -/

theorem Spec.MoreNoise.imaging {env : Env} {s s' : RealSensor} {g : RealScene} {sc : Scenario} {interp : Bool}
    {B : List (Fin 6 → ℝ)} (m : MoreNoise s s') (h : Imaging env s g sc interp B) : Imaging env s' g sc interp B := by
  have es : ∀ {β : Sort _} (F : RealSensor → β), F s' = F { s with readNoise := s'.readNoise, otherNoise := s'.otherNoise, bitDepth := s'.bitDepth, frameStacks := s'.frameStacks } :=
    fun F => congrArg F m.same
  refine ⟨?_, ?_, h.viewing, h.scene, ?_, h.wavelengths, h.distinct, ?_, ?_, ?_, ?_, m.bits0, ?_, ?_, ?_, m.frames0.le⟩
  · obtain ⟨h1, h2, h3, h4, h5, h6, h7, h8⟩ := h.usable
    rw [m.same]
    exact ⟨h1, h2, h3, h4, h5, h6, h7, h8⟩
  · obtain ⟨h1, h2, h3, h4, h5, h6⟩ := h.optical
    rw [m.same]
    exact ⟨h1, h2, h3, h4, h5, h6⟩
  · obtain ⟨rows, h1, h2⟩ := h.atmosphere
    exact ⟨rows, h1, by rw [h2]; exact (es (·.rowsInBand rows)).symm⟩
  · obtain ⟨a, h1, h2⟩ := h.signal
    refine ⟨a, h1, ?_⟩
    rw [es fun t => t.spectral (a 0) (t.targetAt a)]
    exact h2
  · rw [es (·.brightest B)]; exact h.counts
  · rw [es (·.maxN)]; exact h.well
  · rw [es (·.maxWellFill)]; exact h.fill
  · rw [es (·.pX)]; exact h.pitchX
  · rw [es (·.pY)]; exact h.pitchY
  · rw [es (·.f)]; exact h.focal

theorem noise_mono {s s' : RealSensor} (m : MoreNoise s s') (hM : 0 < s.maxN) (B : List (Fin 6 → ℝ)) :
    s.noise B ≤ s'.noise B := by
  have es : ∀ {β : Sort _} (F : RealSensor → β), F s' = F { s with readNoise := s'.readNoise, otherNoise := s'.otherNoise, bitDepth := s'.bitDepth, frameStacks := s'.frameStacks } :=
    fun F => congrArg F m.same
  have e1 : s'.cut B * s'.brightest B = s.cut B * s.brightest B := es fun t => t.cut B * t.brightest B
  have e2 : s'.maxN = s.maxN := es (·.maxN)
  unfold RealSensor.noise
  apply Real.sqrt_le_sqrt
  rw [e1, e2]
  have h1 : s.readNoise ^ 2 ≤ s'.readNoise ^ 2 := sq_le_sq.mpr m.readNoise
  have h2 : (s.maxN / (Real.sqrt 12 * ((2 : ℝ) ^ s.bitDepth - 1))) ^ 2
      ≤ (s.maxN / (Real.sqrt 12 * ((2 : ℝ) ^ s'.bitDepth - 1))) ^ 2 := by
    have h3 : (1 : ℝ) < 2 ^ s'.bitDepth := Real.one_lt_rpow (by norm_num) m.bits0
    have h4 : (2 : ℝ) ^ s'.bitDepth ≤ 2 ^ s.bitDepth := Real.rpow_le_rpow_of_exponent_le (by norm_num) m.bits
    have h5 : 0 < Real.sqrt 12 := by positivity
    apply pow_le_pow_left₀
    · exact div_nonneg hM.le (mul_nonneg h5.le (by linarith))
    · apply div_le_div_of_nonneg_left hM.le (mul_pos h5 (by linarith))
      exact mul_le_mul_of_nonneg_left (by linarith) h5.le
  have := m.otherNoise
  linarith

/-- **C78** (noise): more read-out noise, more other noise, fewer bits or fewer stacked frames never improve the
`niirs5` rating. The single-frame noise reported is at least as large, the exposure, the signals and all the optical
results are the same. -/
theorem C78_noise {env : Env} {s s' : RealSensor} {g : RealScene} {sc : Scenario} {interp : Bool}
    {B : List (Fin 6 → ℝ)} (h : Imaging env s g sc interp B) (b : MoreNoise s s') (hq : s.Sampled B)
    (hc : Contrast s g B) :
    ∃ (m m' : Metrics) (n n' : ℝ), (niirs5 env s.toSensor sc interp).1 = .ok m
      ∧ (niirs5 env s'.toSensor sc interp).1 = .ok m'
      ∧ m.snr.totalNoise = .fin n ∧ m'.snr.totalNoise = .fin n' ∧ 0 < n ∧ n ≤ n'
      ∧ m'.snr.intTime = m.snr.intTime ∧ m'.giqe5 = m.giqe5 ∧ NoBetter m m' := by
  have h' := b.imaging h
  have es : ∀ {β : Sort _} (F : RealSensor → β), F s' = F { s with readNoise := s'.readNoise, otherNoise := s'.otherNoise, bitDepth := s'.bitDepth, frameStacks := s'.frameStacks } :=
    fun F => congrArg F b.same
  have ecut : ∀ c, s'.Cutoff B c = s.Cutoff B c := fun c => es (·.Cutoff B c)
  have emtf : ∀ u v, s'.mtf g B (fun _ _ => 1) u v = s.mtf g B (fun _ _ => 1) u v :=
    fun u v => es fun t => t.mtf g B (fun _ _ => 1) u v
  have hn := noise_mono b h.well B
  have n0 := noise_pos h.well h.fill h.bits h.counts
  have e1 : s'.cut B * (s'.electrons B s'.targetAt - s'.electrons B s'.backgroundAt)
      = s.cut B * (s.electrons B s.targetAt - s.electrons B s.backgroundAt) :=
    es fun t => t.cut B * (t.electrons B t.targetAt - t.electrons B t.backgroundAt)
  have k0 : 0 < s.cut B * (s.electrons B s.targetAt - s.electrons B s.backgroundAt) :=
    mul_pos hc.cut (sub_pos.mpr hc.brighter)
  have hS : Real.sqrt s'.frameStacks * s'.contrastSNR B ≤ Real.sqrt s.frameStacks * s.contrastSNR B := by
    unfold RealSensor.contrastSNR
    rw [e1]
    exact mul_le_mul (Real.sqrt_le_sqrt b.frames) (div_le_div_of_nonneg_left k0.le n0 hn)
      (div_nonneg k0.le (n0.le.trans hn)) (Real.sqrt_nonneg _)
  have h0 : 0 < Real.sqrt s'.frameStacks * s'.contrastSNR B := by
    unfold RealSensor.contrastSNR
    rw [e1]
    exact mul_pos (Real.sqrt_pos.mpr b.frames0) (div_pos k0 (n0.trans_le hn))
  obtain ⟨m, m', f1, f2, f3, f4, -, f5, f6⟩ := niirs5_order h h' (es (·.pX)) (es (·.pY)) (es (·.f)) rfl rfl
    (fun c hc => ecut c ▸ hc) hq (fun c _ u v _ => (emtf u v).le) hc.altitude h0 hS
  refine ⟨m, m', _, _, f1, f2, f3.noise, f4.noise, n0, hn, ?_, ?_, f6⟩
  · rw [f3.exposure, f4.exposure, es (·.exposure B)]
    rfl
  · exact (f5 (funext fun u => funext fun v => emtf u v)).1

/-! ## C79 -/

/-- A detector that is full gives the same result for every exposure that fills it. -/
theorem snr_saturated {s : RealSensor} (hs : s.Usable) {n : ℕ} {wl : ℕ → ℝ} (hl : ∀ i < n, 0 < wl i) (L M : ℕ → ℝ)
    {t : ℝ} (ht : t ≠ 0) (hi : s.intTime ≠ 0) (hn : s.nTdi ≠ 0) (h0 : 0 ≤ s.maxWellFill * s.maxN)
    (h1 : s.maxWellFill * s.maxN < max (s.rate n wl L * s.intTime * s.nTdi) (s.rate n wl M * s.intTime * s.nTdi))
    (h2 : s.maxWellFill * s.maxN < max (s.rate n wl L * t * s.nTdi) (s.rate n wl M * t * s.nTdi))
    (hp : 0 ≤ s.intTime * s.nTdi) (hp' : 0 ≤ t * s.nTdi) :
    photonDetectorSNR { s with intTime := t }.toSensor (vec n wl) (vec n L) (vec n M)
      = photonDetectorSNR s.toSensor (vec n wl) (vec n L) (vec n M) := by
  have hs' : { s with intTime := t }.Usable := by
    obtain ⟨h1, h2, h3, h4, h5, h6, h7, h8⟩ := hs
    exact ⟨h1, h2, h3, h4, h5, h6, h7, h8⟩
  have key : ∀ (s : RealSensor), s.Usable → 0 ≤ s.maxWellFill * s.maxN →
      s.maxWellFill * s.maxN < max (s.rate n wl L * s.intTime * s.nTdi) (s.rate n wl M * s.intTime * s.nTdi) →
      0 ≤ s.intTime * s.nTdi → s.intTime ≠ 0 → s.nTdi ≠ 0 →
      ∃ sc : Scal, checkWellFill
        (.np (XR.max (.fin (s.rate n wl L) * s.toSensor.intTime * s.toSensor.nTdi)
          (.fin (s.rate n wl M) * s.toSensor.intTime * s.toSensor.nTdi)))
        (.py (s.toSensor.maxWellFill * s.toSensor.maxN)) = .ok sc
        ∧ sc.val * s.toSensor.intTime
            = .fin (s.maxWellFill * s.maxN / (max (s.rate n wl L) (s.rate n wl M) * s.nTdi))
        ∧ ∀ r : ℝ, sc.val * (.fin r * s.toSensor.intTime * s.toSensor.nTdi)
            = .fin (s.maxWellFill * s.maxN / max (s.rate n wl L) (s.rate n wl M) * r) := by
    intro s hs h0 h1 hp hi hn
    have e : max (s.rate n wl L * s.intTime * s.nTdi) (s.rate n wl M * s.intTime * s.nTdi)
        = max (s.rate n wl L) (s.rate n wl M) * s.intTime * s.nTdi := by
      rw [mul_assoc, mul_assoc, mul_assoc, max_mul_of_nonneg _ _ hp]
    have hm := h0.trans_lt h1
    rw [e] at h1 hm
    have hr : max (s.rate n wl L) (s.rate n wl M) ≠ 0 := by
      rintro h
      rw [h, zero_mul, zero_mul] at hm
      exact lt_irrefl _ hm
    unfold checkWellFill
    change ∃ sc, (if XR.lt (XR.fin s.maxWellFill * .fin s.maxN) (XR.max (XR.fin _ * .fin s.intTime * .fin s.nTdi)
      (XR.fin _ * .fin s.intTime * .fin s.nTdi)) then
      Scal.div (.py (.fin s.maxWellFill * .fin s.maxN)) (.np (XR.max (XR.fin _ * .fin s.intTime * .fin s.nTdi)
      (XR.fin _ * .fin s.intTime * .fin s.nTdi))) else _) = _ ∧ _
    simp only [XR.fin_mul, XR.fin_max, e]
    obtain ⟨sc, d1, d2⟩ := Scal.div_fin (a := .py (.fin (s.maxWellFill * s.maxN)))
      (b := .np (.fin (max (s.rate n wl L) (s.rate n wl M) * s.intTime * s.nTdi))) rfl rfl hm.ne'
    rw [if_pos (by rw [XR.fin_lt]; exact h1), d1]
    refine ⟨sc, rfl, ?_, fun r => ?_⟩
    · change _ * XR.fin s.intTime = _
      rw [d2, XR.fin_mul]
      congr 1
      field_simp
    · change _ * (XR.fin r * XR.fin s.intTime * XR.fin s.nTdi) = _
      rw [d2, XR.fin_mul, XR.fin_mul, XR.fin_mul]
      congr 1
      field_simp
  obtain ⟨k, k1, k2, k3⟩ := key s hs h0 h1 hp hi hn
  obtain ⟨l, l1, l2, l3⟩ := key { s with intTime := t } hs' h0 h2 hp' ht hn
  unfold photonDetectorSNR
  rw [systemTransmission_vec hs, ok_bind, qe_vec hs, ok_bind, selfEmission_vec hs hl, ok_bind,
    sensorRate_vec hs, ok_bind, systemTransmission_vec hs', ok_bind, qe_vec hs', ok_bind, selfEmission_vec hs' hl, ok_bind,
    sensorRate_vec hs', ok_bind]
  simp only
  rw [sensorRate_vec hs, ok_bind, sensorRate_vec hs', ok_bind]
  simp only
  rw [k1, ok_bind, l1, ok_bind, k2, k3, k3, l2, l3, l3]
  rfl

theorem usable_exposure {s : RealSensor} (hs : s.Usable) (t n : ℝ) : { s with intTime := t, nTdi := n }.Usable := by
  obtain ⟨h1, h2, h3, h4, h5, h6, h7, h8⟩ := hs
  exact ⟨h1, h2, h3, h4, h5, h6, h7, h8⟩

/-- An imaging chain stays one when exposure time and TDI stages change. -/
theorem Spec.Imaging.exposed {env : Env} {s : RealSensor} {g : RealScene} {sc : Scenario} {interp : Bool}
    {B : List (Fin 6 → ℝ)} (h : Imaging env s g sc interp B) {t n : ℝ}
    (hc : 0 ≤ { s with intTime := t, nTdi := n }.brightest B) :
    Imaging env { s with intTime := t, nTdi := n } g sc interp B := by
  refine ⟨usable_exposure h.usable t n, ?_, h.viewing, h.scene, ?_, h.wavelengths, h.distinct, ?_, hc, h.well, h.fill,
    h.bits, h.pitchX, h.pitchY, h.focal, h.frames⟩
  · obtain ⟨h1, h2, h3, h4, h5, h6⟩ := h.optical
    exact ⟨h1, h2, h3, h4, h5, h6⟩
  · obtain ⟨rows, h1, h2⟩ := h.atmosphere
    exact ⟨rows, h1, h2⟩
  · obtain ⟨a, h1, h2⟩ := h.signal
    exact ⟨a, h1, h2⟩

/-- **C79** (full well): once the brighter of target and background fills the well to the allowed level, lengthening
the exposure time changes nothing in the reports of `niirs` and `niirs5`. -/
theorem C79_saturated {env : Env} {s : RealSensor} {g : RealScene} {sc : Scenario} {interp : Bool}
    {B : List (Fin 6 → ℝ)} (h : Imaging env s g sc interp B) (hi : 0 < s.intTime) (hn : 0 < s.nTdi)
    (hfull : s.maxWellFill * s.maxN < s.brightest B) {t : ℝ} (ht : s.intTime ≤ t) :
    (niirs5 env { s with intTime := t }.toSensor sc interp).1 = (niirs5 env s.toSensor sc interp).1
    ∧ (niirs env { s with intTime := t }.toSensor sc interp).1 = (niirs env s.toSensor sc interp).1 := by
  have hB : ∀ i < B.length, 0 < B.getD i 0 0 := by
    intro i hi
    rw [List.getD_eq_getElem _ _ hi]
    exact h.wavelengths _ (List.getElem_mem hi)
  have h0 : 0 ≤ s.maxWellFill * s.maxN := mul_nonneg h.fill h.well.le
  have hfull' : s.maxWellFill * s.maxN
      < max (s.rate B.length (fun i => B.getD i 0 0) (fun i => s.targetAt (B.getD i 0)) * t * s.nTdi)
        (s.rate B.length (fun i => B.getD i 0 0) (fun i => s.backgroundAt (B.getD i 0)) * t * s.nTdi) := by
    have key : ∀ r, s.maxWellFill * s.maxN < r * s.intTime * s.nTdi → s.maxWellFill * s.maxN < r * t * s.nTdi := by
      intro r hr
      have r0 : 0 < r := by
        by_contra hneg
        have : r * s.intTime * s.nTdi ≤ 0 :=
          mul_nonpos_of_nonpos_of_nonneg (mul_nonpos_of_nonpos_of_nonneg (not_lt.mp hneg) hi.le) hn.le
        linarith
      refine hr.trans_le (mul_le_mul_of_nonneg_right (mul_le_mul_of_nonneg_left ht r0.le) hn.le)
    rcases lt_max_iff.mp hfull with h1 | h1
    · exact lt_max_iff.mpr (.inl (key _ h1))
    · exact lt_max_iff.mpr (.inr (key _ h1))
  have e := snr_saturated h.usable hB (fun i => s.targetAt (B.getD i 0)) (fun i => s.backgroundAt (B.getD i 0))
    (hi.trans_le ht).ne' hi.ne' hn.ne' h0 hfull hfull' (mul_nonneg hi.le hn.le) (mul_nonneg (hi.le.trans ht) hn.le)
  have hmid : niirsMid { s with intTime := t }.toSensor (realAtm B) = niirsMid s.toSensor (realAtm B) := by
    unfold niirsMid
    rw [giqe_values s h.wavelengths, giqe_values { s with intTime := t } h.wavelengths]
    have ewl : (realAtm B).map (· 0) = vec B.length fun i => B.getD i 0 0 := by
      rw [realAtm_vec, vecAtm_wl]
    dsimp only
    rw [ewl]
    rw [show ({ s with intTime := t } : RealSensor).targetAt = s.targetAt from rfl,
      show ({ s with intTime := t } : RealSensor).backgroundAt = s.backgroundAt from rfl, e]
    rfl
  have hatm : niirsAtm env { s with intTime := t }.toSensor sc interp = .ok (realAtm B) :=
    (show _ = niirsAtm env s.toSensor sc interp from rfl).trans (imaging_atm h)
  constructor
  · rw [niirs5_result, niirs5_result, hatm, imaging_atm h, ok_bind, ok_bind, hmid]
    rfl
  · rw [niirs_result, niirs_result, hatm, imaging_atm h, ok_bind, ok_bind, hmid]
    rfl

/-- Two `niirs5` calls with the same optics, geometry and SNR report the same rating. -/
theorem niirs5_congr {env : Env} {s s' : RealSensor} {g : RealScene} {sc : Scenario} {interp : Bool}
    {B : List (Fin 6 → ℝ)} (h : Imaging env s g sc interp B) (h' : Imaging env s' g sc interp B)
    (hx : s'.pX = s.pX) (hy : s'.pY = s.pY) (hf : s'.f = s.f) (hcut : ∀ c, s'.Cutoff B c → s.Cutoff B c)
    (hM : s'.mtf g B (fun _ _ => 1) = s.mtf g B (fun _ _ => 1))
    (hS : Real.sqrt s'.frameStacks * s'.contrastSNR B = Real.sqrt s.frameStacks * s.contrastSNR B) :
    ∃ m m' : Metrics, (niirs5 env s.toSensor sc interp).1 = .ok m ∧ (niirs5 env s'.toSensor sc interp).1 = .ok m'
      ∧ Radiometry s g B m ∧ Radiometry s' g B m' ∧ m'.giqe5 = m.giqe5 ∧ m'.niirs = m.niirs := by
  obtain ⟨m, c, φ, gw, rer, e1, e2, e3, -, -, e6, e7, e8, e9⟩ := niirs5_value h
  obtain ⟨m', c', φ', gw', rer', f1, f2, f3, -, -, f6, f7, f8, f9⟩ := niirs5_value h'
  have hcc : c' = c := by
    obtain ⟨l, ⟨p, hp, rfl⟩, hl, rfl⟩ := hcut _ f3.isCutoff
    obtain ⟨l', ⟨p', hp', rfl⟩, hl', rfl⟩ := e3.isCutoff
    rw [le_antisymm (hl p' hp') (hl' p hp)]
  have hR0 : (0 : ℝ) < R := by unfold R; norm_num
  have hq0 : pdist (pointAt g.altitude 0) 0 ≠ 0 := by
    have : pdist (pointAt g.altitude 0) 0 = |R + g.altitude| := by
      unfold pdist pointAt
      simp [Real.sqrt_sq_eq_abs]
    rw [this, abs_ne_zero]
    linarith [h.viewing.above]
  have hφ := isAngle_unique f6 e6 hq0 h.viewing.away
  rw [hx, hy, hf, hM, hcc, hφ, hS] at f9
  rw [hx, hy, hf, hM, hcc] at f8
  have := f9.symm.trans e9
  rw [Except.ok.injEq, Prod.mk.injEq, Prod.mk.injEq] at this
  exact ⟨m, m', e1, f1, e2, f2, by rw [e8, f8, this.2.1, this.2.2], this.1⟩

/-- **C79** (product): only the product of exposure time and number of TDI stages matters for the rating and the SNR
of `niirs5`. -/
theorem C79_product {env : Env} {s : RealSensor} {g : RealScene} {sc : Scenario} {interp : Bool}
    {B : List (Fin 6 → ℝ)} (h : Imaging env s g sc interp B) {t n : ℝ} (he : t * n = s.intTime * s.nTdi) :
    ∃ m m' : Metrics, (niirs5 env s.toSensor sc interp).1 = .ok m
      ∧ (niirs5 env { s with intTime := t, nTdi := n }.toSensor sc interp).1 = .ok m'
      ∧ m'.niirs = m.niirs ∧ m'.giqe5 = m.giqe5 ∧ m'.snr.snr = m.snr.snr ∧ m'.snr.totalNoise = m.snr.totalNoise := by
  set s' : RealSensor := { s with intTime := t, nTdi := n } with hs'
  have eel : ∀ L, s'.electrons B L = s.electrons B L := by
    intro L
    unfold RealSensor.electrons
    rw [mul_assoc, mul_assoc, show s'.intTime * s'.nTdi = s.intTime * s.nTdi from he]
    rfl
  have ebr : s'.brightest B = s.brightest B := by
    unfold RealSensor.brightest
    rw [eel, eel]
    rfl
  have ecut : s'.cut B = s.cut B := by
    unfold RealSensor.cut
    rw [ebr]
  have eno : s'.noise B = s.noise B := by
    unfold RealSensor.noise
    rw [ecut, ebr]
  have esn : s'.contrastSNR B = s.contrastSNR B := by
    unfold RealSensor.contrastSNR
    rw [ecut, eno, eel, eel]
    rfl
  have eex : s'.exposure B * s'.nTdi = s.exposure B * s.nTdi := by
    unfold RealSensor.exposure
    rw [ecut, mul_assoc, mul_assoc, show s'.intTime * s'.nTdi = s.intTime * s.nTdi from he]
  have h' : Imaging env s' g sc interp B := h.exposed (by rw [← hs', ebr]; exact h.counts)
  have hM : s'.mtf g B (fun _ _ => 1) = s.mtf g B (fun _ _ => 1) := by
    funext u v
    have e1 : turbulenceAt s' g (s'.band B) (s'.exposure B) u v = turbulenceAt s g (s.band B) (s.exposure B) u v := by
      unfold turbulenceAt
      rw [eex]
      rfl
    have e2 : driftAt s' (s'.exposure B) u v = driftAt s (s.exposure B) u v := by
      unfold driftAt
      rw [mul_assoc s'.daX, mul_assoc s'.daY, eex, mul_assoc s.daX (s.exposure B) s.nTdi,
        mul_assoc s.daY (s.exposure B) s.nTdi]
    unfold RealSensor.mtf opticsAt
    rw [e1, e2]
    rfl
  obtain ⟨m, m', f1, f2, f3, f4, f5, f6⟩ := niirs5_congr h h' rfl rfl rfl (fun c hc => hc) hM (by rw [esn])
  exact ⟨m, m', f1, f2, f6, f5, by rw [f3.contrast, f4.contrast, esn], by rw [f3.noise, f4.noise, eno]⟩

theorem ratio_mono {x y a Q : ℝ} (hx : 0 ≤ x) (hxy : x ≤ y) (ha : 0 ≤ a) (hQ : 0 < Q) :
    x / Real.sqrt (x * a + Q) ≤ y / Real.sqrt (y * a + Q) := by
  have hy := hx.trans hxy
  have h1 : 0 < x * a + Q := by positivity
  have h2 : 0 < y * a + Q := by positivity
  rw [div_le_div_iff₀ (Real.sqrt_pos.mpr h1) (Real.sqrt_pos.mpr h2)]
  nth_rewrite 1 [← Real.sqrt_sq hx]
  nth_rewrite 2 [← Real.sqrt_sq hy]
  rw [← Real.sqrt_mul (sq_nonneg _), ← Real.sqrt_mul (sq_nonneg _)]
  apply Real.sqrt_le_sqrt
  have e1 : x ^ 2 * Q ≤ y ^ 2 * Q := mul_le_mul_of_nonneg_right (pow_le_pow_left₀ hx hxy 2) hQ.le
  have e2 : x * (x * y * a) ≤ y * (x * y * a) := mul_le_mul_of_nonneg_right hxy (by positivity)
  nlinarith

/-- The exposure actually used does not shrink when the nominal one is lengthened. -/
theorem exposure_mono {s : RealSensor} {B : List (Fin 6 → ℝ)} (hi : 0 < s.intTime) (hn : 0 < s.nTdi)
    (h0 : 0 ≤ s.maxWellFill * s.maxN) {t : ℝ} (ht : s.intTime ≤ t) :
    s.exposure B ≤ { s with intTime := t }.exposure B := by
  set a := s.rate B.length (fun i => B.getD i 0 0) (fun i => s.targetAt (B.getD i 0))
  set b := s.rate B.length (fun i => B.getD i 0 0) (fun i => s.backgroundAt (B.getD i 0))
  have t0 := hi.trans_le ht
  have e1 : s.brightest B = max a b * (s.intTime * s.nTdi) := by
    rw [max_mul_of_nonneg _ _ (mul_pos hi hn).le, ← mul_assoc, ← mul_assoc]
    rfl
  have e2 : { s with intTime := t }.brightest B = max a b * (t * s.nTdi) := by
    rw [max_mul_of_nonneg _ _ (mul_pos t0 hn).le, ← mul_assoc, ← mul_assoc]
    rfl
  unfold RealSensor.exposure RealSensor.cut
  rw [e1, e2]
  dsimp only
  split_ifs with c1 c2 c2
  · linarith
  · have hb : 0 < max a b * (t * s.nTdi) := h0.trans_lt (not_le.mp c2)
    rw [one_mul, div_mul_eq_mul_div, le_div_iff₀ hb]
    calc s.intTime * (max a b * (t * s.nTdi)) = max a b * (s.intTime * s.nTdi) * t := by ring
      _ ≤ s.maxWellFill * s.maxN * t := mul_le_mul_of_nonneg_right c1 t0.le
  · have hb : 0 < max a b * (s.intTime * s.nTdi) := h0.trans_lt (not_le.mp c1)
    have hr : 0 < max a b := (mul_pos_iff_of_pos_right (mul_pos hi hn)).mp hb
    exact absurd c2 (not_le.mpr ((not_le.mp c1).trans_le (mul_le_mul_of_nonneg_left
      (mul_le_mul_of_nonneg_right ht hn.le) hr.le)))
  · have hb : 0 < max a b * (s.intTime * s.nTdi) := h0.trans_lt (not_le.mp c1)
    have hr : 0 < max a b := (mul_pos_iff_of_pos_right (mul_pos hi hn)).mp hb
    apply le_of_eq
    field_simp

theorem snr_exposure {s : RealSensor} {B : List (Fin 6 → ℝ)}
    (hb : s.electrons B s.backgroundAt ≤ s.electrons B s.targetAt) :
    s.contrastSNR B = (s.rate B.length (fun i => B.getD i 0 0) (fun i => s.targetAt (B.getD i 0))
        - s.rate B.length (fun i => B.getD i 0 0) (fun i => s.backgroundAt (B.getD i 0)))
      * (s.exposure B * s.nTdi / Real.sqrt (s.exposure B * s.nTdi
          * s.rate B.length (fun i => B.getD i 0 0) (fun i => s.targetAt (B.getD i 0))
          + ((s.maxN / (Real.sqrt 12 * ((2 : ℝ) ^ s.bitDepth - 1))) ^ 2 + s.readNoise ^ 2
            + (s.otherNoise.map (· ^ 2)).sum))) := by
  unfold RealSensor.contrastSNR RealSensor.noise RealSensor.brightest
  rw [max_eq_left hb]
  unfold RealSensor.exposure RealSensor.electrons
  rw [← mul_div_assoc]
  congr 1
  · ring
  · congr 1
    ring

/-- **C79** (longer exposure): where the target is at least as bright as the background, a longer exposure time never
lowers the SNR that `niirs5` reports; nor does it shorten the exposure actually used. -/
theorem C79_longer {env : Env} {s : RealSensor} {g : RealScene} {sc : Scenario} {interp : Bool}
    {B : List (Fin 6 → ℝ)} (h : Imaging env s g sc interp B) (hi : 0 < s.intTime) (hn : 0 < s.nTdi)
    (hb : s.electrons B s.backgroundAt ≤ s.electrons B s.targetAt) {t : ℝ} (ht : s.intTime ≤ t) :
    ∃ (m m' : Metrics) (x x' e e' : ℝ), (niirs5 env s.toSensor sc interp).1 = .ok m
      ∧ (niirs5 env { s with intTime := t }.toSensor sc interp).1 = .ok m'
      ∧ m.snr.snr = .fin x ∧ m'.snr.snr = .fin x' ∧ x ≤ x'
      ∧ m.snr.intTime = .fin e ∧ m'.snr.intTime = .fin e' ∧ e ≤ e' ∧ e' ≤ t := by
  set a := s.rate B.length (fun i => B.getD i 0 0) (fun i => s.targetAt (B.getD i 0)) with ha
  set b := s.rate B.length (fun i => B.getD i 0 0) (fun i => s.backgroundAt (B.getD i 0)) with hbb
  have t0 := hi.trans_le ht
  have hp : 0 < s.intTime * s.nTdi := mul_pos hi hn
  have hab : b ≤ a := by
    have : b * (s.intTime * s.nTdi) ≤ a * (s.intTime * s.nTdi) := by
      rw [← mul_assoc, ← mul_assoc]; exact hb
    exact le_of_mul_le_mul_right this hp
  have hb' : { s with intTime := t }.electrons B { s with intTime := t }.backgroundAt
      ≤ { s with intTime := t }.electrons B { s with intTime := t }.targetAt := by
    change b * t * s.nTdi ≤ a * t * s.nTdi
    exact mul_le_mul_of_nonneg_right (mul_le_mul_of_nonneg_right hab t0.le) hn.le
  have ha0 : 0 ≤ a := by
    have h1 := h.counts
    unfold RealSensor.brightest at h1
    rw [max_eq_left hb] at h1
    change 0 ≤ a * s.intTime * s.nTdi at h1
    rw [mul_assoc] at h1
    exact nonneg_of_mul_nonneg_left h1 hp
  have hc' : 0 ≤ { s with intTime := t }.brightest B := by
    refine le_max_of_le_left ?_
    change 0 ≤ a * t * s.nTdi
    positivity
  have h' : Imaging env { s with intTime := t } g sc interp B := h.exposed (t := t) (n := s.nTdi) hc'
  obtain ⟨m, c, φ, gw, rer, e1, e2, -⟩ := niirs5_value h
  obtain ⟨m', c', φ', gw', rer', f1, f2, -⟩ := niirs5_value h'
  have h0 : 0 ≤ s.maxWellFill * s.maxN := mul_nonneg h.fill h.well.le
  have hex := exposure_mono (B := B) hi hn h0 ht
  have hex0 : 0 ≤ s.exposure B := mul_nonneg (cut_nonneg h.well h.fill) hi.le
  refine ⟨m, m', _, _, _, _, e1, f1, e2.contrast, f2.contrast, ?_, e2.exposure, f2.exposure, hex, ?_⟩
  · rw [snr_exposure hb, snr_exposure (s := { s with intTime := t }) hb']
    have hQ : 0 < (s.maxN / (Real.sqrt 12 * ((2 : ℝ) ^ s.bitDepth - 1))) ^ 2 + s.readNoise ^ 2
            + (s.otherNoise.map (· ^ 2)).sum := by
      have h12 : (0 : ℝ) < Real.sqrt 12 := Real.sqrt_pos.mpr (by norm_num)
      have h1 := twelve_bits h.bits
      have hM := h.well
      have h2 : 0 < (s.maxN / (Real.sqrt 12 * ((2 : ℝ) ^ s.bitDepth - 1))) ^ 2 := by positivity
      have h4 : 0 ≤ (s.otherNoise.map (· ^ 2)).sum := by
        apply List.sum_nonneg
        intro x hx
        obtain ⟨y, -, rfl⟩ := List.mem_map.mp hx
        positivity
      positivity
    refine mul_le_mul_of_nonneg_left ?_ (sub_nonneg.mpr hab)
    exact ratio_mono (mul_nonneg hex0 hn.le) (mul_le_mul_of_nonneg_right hex hn.le) ha0 hQ
  · unfold RealSensor.exposure
    refine mul_le_of_le_one_left t0.le ?_
    unfold RealSensor.cut
    split_ifs with hle
    · exact le_rfl
    · exact (div_le_one (h0.trans_lt (not_le.mp hle))).mpr (not_le.mp hle).le

end PyBSM
