import Verif.Props.Compare
import Verif.Spec.Efficiency

/-!
# C125: what quantum efficiency and dark current do to the rating
-/

noncomputable section

open Classical

namespace PyBSM

open Spec

/-! ## Scaled tables and signals -/

theorem onTable_scale {tbl : List (ℝ × ℝ)} {k x z : ℝ} :
    OnTable (tbl.map fun p => (p.1, k * p.2)) x z ↔ ∃ y, OnTable tbl x y ∧ z = k * y := by
  constructor
  · rintro (h | ⟨i, a, ya, b, yb, h1, h2, h3, h4, h5⟩)
    · obtain ⟨p, hp, e⟩ := List.mem_map.mp h
      obtain ⟨rfl, rfl⟩ := Prod.mk.inj e
      exact ⟨p.2, .inl hp, rfl⟩
    · rw [List.getElem?_map, Option.map_eq_some_iff] at h1 h2
      obtain ⟨p, hp, e⟩ := h1
      obtain ⟨q, hq, e'⟩ := h2
      obtain ⟨rfl, rfl⟩ := Prod.mk.inj e
      obtain ⟨rfl, rfl⟩ := Prod.mk.inj e'
      refine ⟨line p.1 p.2 q.1 q.2 x, .inr ⟨i, _, _, _, _, hp, hq, h3, h4, rfl⟩, ?_⟩
      rw [h5]; unfold line; ring
  · rintro ⟨y, h | ⟨i, a, ya, b, yb, h1, h2, h3, h4, h5⟩, rfl⟩
    · exact .inl (List.mem_map.mpr ⟨_, h, rfl⟩)
    · refine .inr ⟨i, a, k * ya, b, k * yb, by rw [List.getElem?_map, h1]; rfl, by rw [List.getElem?_map, h2]; rfl, h3, h4, ?_⟩
      rw [h5]; unfold line; ring

theorem increasing_scale {tbl : List (ℝ × ℝ)} (h : Increasing tbl) (k : ℝ) : Increasing (tbl.map fun p => (p.1, k * p.2)) := by
  unfold Increasing at *
  rw [List.pairwise_map]
  exact h

theorem tableAt_scale {tbl : List (ℝ × ℝ)} (h : Increasing tbl) (k x : ℝ) :
    tableAt (tbl.map fun p => (p.1, k * p.2)) x = k * tableAt tbl x := by
  by_cases hex : ∃ y, OnTable tbl x y
  · obtain ⟨y, hy⟩ := hex
    rw [tableAt_onTable h hy, tableAt_onTable (increasing_scale h k) (onTable_scale.mpr ⟨y, hy, rfl⟩)]
  · have hex' : ¬ ∃ z, OnTable (tbl.map fun p => (p.1, k * p.2)) x z := by
      rintro ⟨z, hz⟩
      obtain ⟨y, hy, -⟩ := onTable_scale.mp hz
      exact hex ⟨y, hy⟩
    unfold tableAt
    rw [dif_neg hex, dif_neg hex', mul_zero]

theorem spectral_dimmed {s : RealSensor} (hs : s.Usable) (k lam l : ℝ) : (s.dimmed k).spectral lam l = k * s.spectral lam l := by
  have e : tableAt (s.dimmed k).qe lam = k * tableAt s.qe lam := tableAt_scale hs.qe_inc k lam
  unfold RealSensor.spectral spectralRate
  rw [e]
  change lam / (planckH * lightC) * (k * tableAt s.qe lam) * (s.wX * s.wY) * (s.transAt lam * (apertureFactor s.D s.f * l) + s.selfAt lam) = _
  ring

theorem rate_dimmed {s : RealSensor} (hs : s.Usable) (k : ℝ) (n : ℕ) (wl L : ℕ → ℝ) :
    (s.dimmed k).rate n wl L = k * (s.rate n wl L - s.darkCurrent) + s.darkCurrent := by
  unfold RealSensor.rate
  simp only [spectral_dimmed hs]
  rw [trap_smul]
  change _ + s.darkCurrent = _
  ring

theorem band_dimmed {s : RealSensor} (hs : s.Usable) {k : ℝ} (hk : 0 < k) (B : List (Fin 6 → ℝ)) :
    (s.dimmed k).band B = (s.band B).map fun p => (p.1, k * p.2) := by
  unfold RealSensor.band
  rw [List.filter_map, List.filter_map, List.map_map]
  have e : ∀ a : Fin 6 → ℝ, (s.dimmed k).spectral (a 0) ((s.dimmed k).targetAt a) = k * s.spectral (a 0) (s.targetAt a) :=
    fun a => spectral_dimmed hs k _ _
  have h1 : (fun p : ℝ × ℝ => decide (0 < p.2)) ∘ (fun a : Fin 6 → ℝ => (a 0, (s.dimmed k).spectral (a 0) ((s.dimmed k).targetAt a)))
      = (fun p : ℝ × ℝ => decide (0 < p.2)) ∘ fun a : Fin 6 → ℝ => (a 0, s.spectral (a 0) (s.targetAt a)) := by
    funext a
    simp only [Function.comp, e, mul_pos_iff_of_pos_left hk]
  rw [h1]
  exact List.map_congr_left fun a _ => by simp only [Function.comp, e]

/-- The same light, the same optics: only the exposure counts. -/
theorem optics_dimmed {s : RealSensor} (hs : s.Usable) {k : ℝ} (hk : 0 < k) (g : RealScene) (B : List (Fin 6 → ℝ)) (t u v : ℝ) :
    opticsAt (s.dimmed k) g ((s.dimmed k).band B) t u v = opticsAt s g (s.band B) t u v := by
  rw [band_dimmed hs hk]
  unfold opticsAt apertureAt turbulenceAt wavefrontAt
  simp only [wmean_scale hk.ne']
  rfl

/-- A longer exposure is a faster drift and a faster platform. -/
theorem optics_longer (s : RealSensor) (g : RealScene) (pairs : List (ℝ × ℝ)) {t : ℝ} (ht : t ≠ 0) (t' u v : ℝ) :
    opticsAt s g pairs t' u v = opticsAt { s with daX := t' / t * s.daX, daY := t' / t * s.daY }
      { g with aircraftSpeed := t' / t * g.aircraftSpeed } pairs t u v := by
  have e1 : ∀ a n w : ℝ, t' / t * a * t * n * w = a * t' * n * w := fun a n w => by field_simp
  have e2 : ∀ a n r : ℝ, t' / t * a * (t * n) / r = a * (t' * n) / r := fun a n r => by field_simp
  unfold opticsAt turbulenceAt driftAt turbMix
  simp only [e1, e2]
  rfl

/-- Longer exposures blur more. -/
theorem optics_exposure {s : RealSensor} {g : RealScene} (hs : s.Optical) (hg : g.Viewing) (hp : 0 ≤ s.pv) (hv : 0 ≤ g.aircraftSpeed)
    {pairs : List (ℝ × ℝ)} (hb : Band pairs) {t t' : ℝ} (ht : 0 < t) (htt : t ≤ t') (hn : 0 ≤ s.nTdi) {u v : ℝ}
    (hu : |s.daX| * t' * s.nTdi * |u| ≤ 1) (hv' : |s.daY| * t' * s.nTdi * |v| ≤ 1)
    (h8 : ∀ p ∈ pairs, p.1 * Real.sqrt (u ^ 2 + v ^ 2) ≤ 8 * s.D) :
    |opticsAt s g pairs t' u v| ≤ |opticsAt s g pairs t u v| := by
  have h1 : 1 ≤ t' / t := (one_le_div ht).mpr htt
  have ha : ∀ a : ℝ, |t' / t * a| = t' / t * |a| := fun a => by rw [abs_mul, abs_of_nonneg (by linarith)]
  have hge : ∀ a : ℝ, |a| ≤ |t' / t * a| := fun a => by
    rw [ha]
    exact le_mul_of_one_le_left (abs_nonneg _) h1
  rw [optics_longer s g pairs ht.ne']
  have M : MoreBlur s { s with daX := t' / t * s.daX, daY := t' / t * s.daY } g { g with aircraftSpeed := t' / t * g.aircraftSpeed } :=
    ⟨rfl, rfl, le_rfl, le_rfl, hge _, hge _, hp, le_rfl, hs.corrX, hs.corrY, le_rfl, le_rfl, hv, le_mul_of_one_le_left hv h1, le_rfl, le_rfl⟩
  refine opticsAt_blur hs hg M hb (mul_nonneg ht.le hn) ?_ ?_ h8
  · change |t' / t * s.daX| * t * s.nTdi * |u| ≤ 1
    rw [ha]
    refine le_trans (le_of_eq ?_) hu
    field_simp
  · change |t' / t * s.daY| * t * s.nTdi * |v| ≤ 1
    rw [ha]
    refine le_trans (le_of_eq ?_) hv'
    field_simp

/-! ## Exposure and signal-to-noise ratio -/

/-- Exposure of a camera with signal rate `a` whose well holds `W` electrons, nominally `x`. -/
theorem exposure_rate {s : RealSensor} {B : List (Fin 6 → ℝ)} (hi : 0 < s.intTime) (hn : 0 < s.nTdi) (h0 : 0 ≤ s.maxWellFill * s.maxN)
    (hb : s.electrons B s.backgroundAt ≤ s.electrons B s.targetAt) :
    (s.exposure B ≤ s.intTime)
    ∧ s.rate B.length (fun i => B.getD i 0 0) (fun i => s.targetAt (B.getD i 0)) * (s.exposure B * s.nTdi) ≤ s.maxWellFill * s.maxN
    ∧ ∀ x ≤ s.intTime, s.rate B.length (fun i => B.getD i 0 0) (fun i => s.targetAt (B.getD i 0)) * (x * s.nTdi)
        ≤ s.maxWellFill * s.maxN → x ≤ s.exposure B := by
  set a := s.rate B.length (fun i => B.getD i 0 0) (fun i => s.targetAt (B.getD i 0)) with ha
  have e1 : s.brightest B = a * (s.intTime * s.nTdi) := by
    unfold RealSensor.brightest
    rw [max_eq_left hb, ← mul_assoc]
    rfl
  have hp := mul_pos hi hn
  unfold RealSensor.exposure RealSensor.cut
  rw [e1]
  split_ifs with c
  · rw [one_mul]
    exact ⟨le_rfl, c, fun x hx _ => hx⟩
  · have hpos : 0 < a * (s.intTime * s.nTdi) := h0.trans_lt (not_le.mp c)
    have ha0 : 0 < a := (mul_pos_iff_of_pos_right hp).mp hpos
    refine ⟨mul_le_of_le_one_left hi.le ((div_le_one hpos).mpr (not_le.mp c).le), ?_, fun x _ hx => ?_⟩
    · refine le_of_eq ?_
      field_simp
    · rw [div_mul_eq_mul_div, le_div_iff₀ hpos]
      calc x * (a * (s.intTime * s.nTdi)) = a * (x * s.nTdi) * s.intTime := by ring
        _ ≤ s.maxWellFill * s.maxN * s.intTime := mul_le_mul_of_nonneg_right hx hi.le

theorem snr_den {x a a' Q : ℝ} (hx : 0 ≤ x) (ha : 0 ≤ a) (haa : a ≤ a') (hQ : 0 < Q) :
    x / Real.sqrt (x * a' + Q) ≤ x / Real.sqrt (x * a + Q) := by
  have h1 : 0 < x * a + Q := by positivity
  refine div_le_div_of_nonneg_left hx (Real.sqrt_pos.mpr h1) (Real.sqrt_le_sqrt ?_)
  have := mul_le_mul_of_nonneg_left haa hx
  linarith

theorem fixed_noise_pos {s : RealSensor} (hw : 0 < s.maxN) (hb : 0 < s.bitDepth) :
    0 < (s.maxN / (Real.sqrt 12 * ((2 : ℝ) ^ s.bitDepth - 1))) ^ 2 + s.readNoise ^ 2 + (s.otherNoise.map (· ^ 2)).sum := by
  have h12 : (0 : ℝ) < Real.sqrt 12 := Real.sqrt_pos.mpr (by norm_num)
  have h1 := twelve_bits hb
  have h2 : 0 < (s.maxN / (Real.sqrt 12 * ((2 : ℝ) ^ s.bitDepth - 1))) ^ 2 := by positivity
  have h4 : 0 ≤ (s.otherNoise.map (· ^ 2)).sum := by
    apply List.sum_nonneg
    intro x hx
    obtain ⟨y, -, rfl⟩ := List.mem_map.mp hx
    positivity
  positivity

theorem electrons_rate (s : RealSensor) (B : List (Fin 6 → ℝ)) (L : (Fin 6 → ℝ) → ℝ) :
    s.electrons B L = s.rate B.length (fun i => B.getD i 0 0) (fun i => L (B.getD i 0)) * (s.intTime * s.nTdi) := by
  unfold RealSensor.electrons
  rw [mul_assoc]

/-- The rates of target and background of a camera that sees a target brighter than its background. -/
theorem rates_of_contrast {env : Env} {s : RealSensor} {g : RealScene} {sc : Scenario} {interp : Bool} {B : List (Fin 6 → ℝ)}
    (h : Imaging env s g sc interp B) (hc : Contrast s g B) (hi : 0 < s.intTime) (hn : 0 < s.nTdi) :
    s.rate B.length (fun i => B.getD i 0 0) (fun i => s.backgroundAt (B.getD i 0))
        < s.rate B.length (fun i => B.getD i 0 0) (fun i => s.targetAt (B.getD i 0))
      ∧ 0 ≤ s.rate B.length (fun i => B.getD i 0 0) (fun i => s.targetAt (B.getD i 0)) := by
  have hp : 0 < s.intTime * s.nTdi := mul_pos hi hn
  have hbr := hc.brighter
  have h1 := h.counts
  unfold RealSensor.brightest at h1
  rw [max_eq_left hbr.le, electrons_rate] at h1
  rw [electrons_rate, electrons_rate] at hbr
  exact ⟨lt_of_mul_lt_mul_right hbr hp.le, nonneg_of_mul_nonneg_left h1 hp⟩

/-- A camera whose electrons collect at the rates `a'` and `b'` reports no larger ratio than one with the rates `a` and `b`, if its exposure `e'` and the
fraction `k` of signal it keeps are as stated. -/
theorem snr_step {k a a' b e e' n Q : ℝ} (k0 : 0 ≤ k) (ha : 0 ≤ a) (hab : b ≤ a) (hka : k * a ≤ a') (e0 : 0 ≤ e') (ke : k * e' ≤ e) (hn : 0 ≤ n)
    (hQ : 0 < Q) : k * (a - b) * (e' * n / Real.sqrt (e' * n * a' + Q)) ≤ (a - b) * (e * n / Real.sqrt (e * n * a + Q)) := by
  have r1 := ratio_mono (x := k * e' * n) (y := e * n) (by positivity) (mul_le_mul_of_nonneg_right ke hn) ha hQ
  have r2 : k * e' * n / Real.sqrt (e' * n * a' + Q) ≤ k * e' * n / Real.sqrt (k * e' * n * a + Q) := by
    refine div_le_div_of_nonneg_left (by positivity) (Real.sqrt_pos.mpr (by positivity)) (Real.sqrt_le_sqrt ?_)
    have := mul_le_mul_of_nonneg_left hka (by positivity : 0 ≤ e' * n)
    linarith
  calc k * (a - b) * (e' * n / Real.sqrt (e' * n * a' + Q)) = (a - b) * (k * e' * n / Real.sqrt (e' * n * a' + Q)) := by ring
    _ ≤ (a - b) * (e * n / Real.sqrt (e * n * a + Q)) := mul_le_mul_of_nonneg_left (r2.trans r1) (sub_nonneg.mpr hab)

/-! ## Quantum efficiency -/

/-- A camera with less quantum efficiency still gives a rating. -/
theorem dimmed_imaging {env : Env} {s : RealSensor} {g : RealScene} {sc : Scenario} {interp : Bool} {B : List (Fin 6 → ℝ)}
    (h : Imaging env s g sc interp B) (hc : Contrast s g B) (hi : 0 < s.intTime) (hn : 0 < s.nTdi) (hd : 0 ≤ s.darkCurrent) {k : ℝ} (k0 : 0 < k)
    (k1 : k ≤ 1) : Imaging env (s.dimmed k) g sc interp B
      ∧ (s.dimmed k).electrons B (s.dimmed k).backgroundAt < (s.dimmed k).electrons B (s.dimmed k).targetAt := by
  obtain ⟨hab, ha0⟩ := rates_of_contrast h hc hi hn
  have ea := rate_dimmed h.usable k B.length (fun i => B.getD i 0 0) (fun i => s.targetAt (B.getD i 0))
  have eb := rate_dimmed h.usable k B.length (fun i => B.getD i 0 0) (fun i => s.backgroundAt (B.getD i 0))
  generalize s.rate B.length (fun i => B.getD i 0 0) (fun i => s.targetAt (B.getD i 0)) = a at hab ha0 ea
  generalize s.rate B.length (fun i => B.getD i 0 0) (fun i => s.backgroundAt (B.getD i 0)) = b at hab eb
  have hp : 0 < s.intTime * s.nTdi := mul_pos hi hn
  have eT : (s.dimmed k).electrons B (s.dimmed k).targetAt = (k * (a - s.darkCurrent) + s.darkCurrent) * (s.intTime * s.nTdi) := by
    rw [← ea]; exact electrons_rate _ _ _
  have eB : (s.dimmed k).electrons B (s.dimmed k).backgroundAt = (k * (b - s.darkCurrent) + s.darkCurrent) * (s.intTime * s.nTdi) := by
    rw [← eb]; exact electrons_rate _ _ _
  have hcounts : 0 ≤ (s.dimmed k).brightest B := by
    refine le_max_of_le_left ?_
    rw [eT]
    refine mul_nonneg ?_ hp.le
    have := mul_nonneg k0.le ha0
    nlinarith
  refine ⟨⟨?_, ?_, h.viewing, h.scene, h.atmosphere, h.wavelengths, h.distinct, ?_, hcounts, h.well, h.fill,
      h.bits, h.pitchX, h.pitchY, h.focal, h.frames⟩, ?_⟩
  · obtain ⟨h1, h2, h3, h4, h5, h6, h7, h9⟩ := h.usable
    exact ⟨h1, h2, h3, by simpa [RealSensor.dimmed] using h4, increasing_scale h5 k, h6, h7, h9⟩
  · obtain ⟨h1, h2, h3, h4, h5, h6⟩ := h.optical
    exact ⟨h1, h2, h3, h4, h5, h6⟩
  · obtain ⟨r, h1, h2⟩ := h.signal
    refine ⟨r, h1, ?_⟩
    rw [spectral_dimmed h.usable]
    exact mul_pos k0 h2
  · rw [eT, eB]
    refine mul_lt_mul_of_pos_right ?_ hp
    have := mul_pos k0 (sub_pos.mpr hab)
    linarith

/-- Exposure and signal-to-noise ratio of a camera with less quantum efficiency. -/
theorem dimmed_snr {env : Env} {s : RealSensor} {g : RealScene} {sc : Scenario} {interp : Bool} {B : List (Fin 6 → ℝ)}
    (h : Imaging env s g sc interp B) (hc : Contrast s g B) (hi : 0 < s.intTime) (hn : 0 < s.nTdi) (hd : 0 ≤ s.darkCurrent)
    (hl : s.darkCurrent * s.intTime * s.nTdi ≤ s.electrons B s.targetAt) {k : ℝ} (k0 : 0 < k) (k1 : k ≤ 1) :
    0 < s.exposure B ∧ s.exposure B ≤ (s.dimmed k).exposure B ∧ k * (s.dimmed k).exposure B ≤ s.exposure B
      ∧ (s.dimmed k).contrastSNR B ≤ s.contrastSNR B := by
  obtain ⟨-, hbr'⟩ := dimmed_imaging h hc hi hn hd k0 k1
  obtain ⟨hab, ha0⟩ := rates_of_contrast h hc hi hn
  have ea := rate_dimmed h.usable k B.length (fun i => B.getD i 0 0) (fun i => s.targetAt (B.getD i 0))
  have eb := rate_dimmed h.usable k B.length (fun i => B.getD i 0 0) (fun i => s.backgroundAt (B.getD i 0))
  have h0 : 0 ≤ s.maxWellFill * s.maxN := mul_nonneg h.fill h.well.le
  obtain ⟨x1, x2, x3⟩ := exposure_rate (B := B) hi hn h0 hc.brighter.le
  obtain ⟨y1, y2, y3⟩ := exposure_rate (s := s.dimmed k) (B := B) hi hn h0 hbr'.le
  have z1 := snr_exposure hc.brighter.le
  have z2 := snr_exposure hbr'.le
  have hQ := fixed_noise_pos h.well h.bits
  rw [electrons_rate, mul_assoc] at hl
  change (s.dimmed k).rate B.length (fun i => B.getD i 0 0) (fun i => s.targetAt (B.getD i 0)) * ((s.dimmed k).exposure B * s.nTdi)
    ≤ s.maxWellFill * s.maxN at y2
  change (s.dimmed k).exposure B ≤ s.intTime at y1
  change ∀ x ≤ s.intTime, (s.dimmed k).rate B.length (fun i => B.getD i 0 0) (fun i => s.targetAt (B.getD i 0)) * (x * s.nTdi)
    ≤ s.maxWellFill * s.maxN → x ≤ (s.dimmed k).exposure B at y3
  change (s.dimmed k).contrastSNR B = ((s.dimmed k).rate B.length (fun i => B.getD i 0 0) (fun i => s.targetAt (B.getD i 0))
        - (s.dimmed k).rate B.length (fun i => B.getD i 0 0) (fun i => s.backgroundAt (B.getD i 0)))
      * ((s.dimmed k).exposure B * s.nTdi / Real.sqrt ((s.dimmed k).exposure B * s.nTdi
          * (s.dimmed k).rate B.length (fun i => B.getD i 0 0) (fun i => s.targetAt (B.getD i 0))
          + ((s.maxN / (Real.sqrt 12 * ((2 : ℝ) ^ s.bitDepth - 1))) ^ 2 + s.readNoise ^ 2
            + (s.otherNoise.map (· ^ 2)).sum))) at z2
  rw [ea] at y2 y3 z2
  rw [eb] at z2
  generalize s.rate B.length (fun i => B.getD i 0 0) (fun i => s.targetAt (B.getD i 0)) = a at hab ha0 hl x2 x3 y2 y3 z1 z2
  generalize s.rate B.length (fun i => B.getD i 0 0) (fun i => s.backgroundAt (B.getD i 0)) = b at hab z1 z2
  have hp : 0 < s.intTime * s.nTdi := mul_pos hi hn
  have hda : s.darkCurrent ≤ a := le_of_mul_le_mul_right hl hp
  have hka : k * a ≤ k * (a - s.darkCurrent) + s.darkCurrent := by nlinarith
  have haa : k * (a - s.darkCurrent) + s.darkCurrent ≤ a := by nlinarith
  have ex0 : 0 < s.exposure B := mul_pos hc.cut hi
  have ee : s.exposure B ≤ (s.dimmed k).exposure B := by
    refine y3 _ x1 (le_trans ?_ x2)
    exact mul_le_mul_of_nonneg_right haa (mul_nonneg ex0.le hn.le)
  have q0 := ex0.le.trans ee
  have ke : k * (s.dimmed k).exposure B ≤ s.exposure B := by
    refine x3 _ ((mul_le_of_le_one_left q0 k1).trans y1) (le_trans ?_ y2)
    calc a * (k * (s.dimmed k).exposure B * s.nTdi) = k * a * ((s.dimmed k).exposure B * s.nTdi) := by ring
      _ ≤ _ := mul_le_mul_of_nonneg_right hka (mul_nonneg q0 hn.le)
  refine ⟨ex0, ee, ke, ?_⟩
  rw [z1, z2]
  have hdiff : k * (a - s.darkCurrent) + s.darkCurrent - (k * (b - s.darkCurrent) + s.darkCurrent) = k * (a - b) := by ring
  rw [hdiff]
  exact snr_step k0.le ha0 hab.le hka q0 ke hn.le hQ

/-- The wavelengths within the band, and so the cutoff frequency, do not depend on the quantum efficiency. -/
theorem cutoff_dimmed {s : RealSensor} {B : List (Fin 6 → ℝ)} (hu : s.Usable) {k : ℝ} (k0 : 0 < k) {c : ℝ} :
    (s.dimmed k).Cutoff B c ↔ s.Cutoff B c := by
  constructor
  · rintro ⟨l, ⟨p, hp', rfl⟩, hmin, rfl⟩
    rw [band_dimmed hu k0] at hp' hmin
    obtain ⟨p', hp'', rfl⟩ := List.mem_map.mp hp'
    exact ⟨p'.1, ⟨p', hp'', rfl⟩, fun r hr => hmin (r.1, k * r.2) (List.mem_map.mpr ⟨r, hr, rfl⟩), rfl⟩
  · rintro ⟨l, ⟨p, hp', rfl⟩, hmin, rfl⟩
    refine ⟨p.1, ⟨(p.1, k * p.2), ?_, rfl⟩, ?_, rfl⟩
    · rw [band_dimmed hu k0]
      exact List.mem_map.mpr ⟨p, hp', rfl⟩
    · rw [band_dimmed hu k0]
      intro r hr
      obtain ⟨r', hr', rfl⟩ := List.mem_map.mp hr
      exact hmin r' hr'

/-- The transfer function of a camera with less quantum efficiency, which exposes for longer. -/
theorem dimmed_mtf {env : Env} {s : RealSensor} {g : RealScene} {sc : Scenario} {interp : Bool} {B : List (Fin 6 → ℝ)}
    (h : Imaging env s g sc interp B) (hn : 0 < s.nTdi) (hpv : 0 ≤ s.pv) (hspeed : 0 ≤ g.aircraftSpeed)
    (h8 : ∀ p ∈ s.band B, ∀ q ∈ s.band B, p.1 ≤ 8 * q.1) {k : ℝ} (k0 : 0 < k) (hdr : (s.dimmed k).SlowDrift B) (ex0 : 0 < s.exposure B)
    (ee : s.exposure B ≤ (s.dimmed k).exposure B) {c : ℝ} (hcc : s.Cutoff B c) {u v : ℝ}
    (huv : 0 ≤ u ∧ u ≤ c ∧ v = 0 ∨ 0 ≤ v ∧ v ≤ c ∧ u = 0) :
    (s.dimmed k).mtf g B (fun _ _ => 1) u v ≤ s.mtf g B (fun _ _ => 1) u v := by
  have hbd := imaging_band h.wavelengths h.distinct h.signal
  obtain ⟨d1, d2⟩ := hdr c ((cutoff_dimmed h.usable k0).mpr hcc)
  change |s.daX| * (s.dimmed k).exposure B * s.nTdi * c ≤ 1 at d1
  change |s.daY| * (s.dimmed k).exposure B * s.nTdi * c ≤ 1 at d2
  have hc0 := cutoff_pos h.optical.aperture h.wavelengths hcc
  have q0 := ex0.le.trans ee
  unfold RealSensor.mtf
  rw [mul_one, mul_one, optics_dimmed h.usable k0]
  have huv' : |u| ≤ c ∧ |v| ≤ c ∧ Real.sqrt (u ^ 2 + v ^ 2) ≤ c := by
    rcases huv with ⟨h1, h2, rfl⟩ | ⟨h1, h2, rfl⟩
    · rw [abs_of_nonneg h1, abs_zero]
      exact ⟨h2, hc0.le, by simpa [Real.sqrt_sq h1] using h2⟩
    · rw [abs_of_nonneg h1, abs_zero]
      exact ⟨hc0.le, h2, by simpa [Real.sqrt_sq h1] using h2⟩
  refine optics_exposure h.optical h.viewing hpv hspeed hbd ex0 ee hn.le ?_ ?_ ?_
  · exact le_trans (mul_le_mul_of_nonneg_left huv'.1 (by positivity)) d1
  · exact le_trans (mul_le_mul_of_nonneg_left huv'.2.1 (by positivity)) d2
  · intro p hp
    obtain ⟨l, ⟨p', hp', rfl⟩, hl, rfl⟩ := hcc
    have hl0 := hbd.positive p' hp'
    have hp0 := hbd.positive p hp
    calc p.1 * Real.sqrt (u ^ 2 + v ^ 2) ≤ p.1 * (s.D / p'.1) := mul_le_mul_of_nonneg_left huv'.2.2 hp0.le
      _ ≤ 8 * p'.1 * (s.D / p'.1) := mul_le_mul_of_nonneg_right (h8 p hp p' hp') hc0.le
      _ = 8 * s.D := by field_simp

/-- **C125** (quantum efficiency): a camera whose detectors have the fraction `k` of the quantum efficiency never rates better with `niirs5`. It exposes
at least as long (but no more than `1 / k` times), its signal-to-noise ratio is at most that of the other, and so are its relative edge responses. -/
theorem C125_efficiency {env : Env} {s : RealSensor} {g : RealScene} {sc : Scenario} {interp : Bool} {B : List (Fin 6 → ℝ)}
    (h : Imaging env s g sc interp B) (hq : s.Sampled B) (hc : Contrast s g B) (hi : 0 < s.intTime) (hn : 0 < s.nTdi)
    (hd : 0 ≤ s.darkCurrent) (hl : s.darkCurrent * s.intTime * s.nTdi ≤ s.electrons B s.targetAt) (hpv : 0 ≤ s.pv)
    (hspeed : 0 ≤ g.aircraftSpeed) (h8 : ∀ p ∈ s.band B, ∀ q ∈ s.band B, p.1 ≤ 8 * q.1) {k : ℝ} (k0 : 0 < k) (k1 : k ≤ 1)
    (hdr : (s.dimmed k).SlowDrift B) :
    ∃ (m m' : Metrics) (x x' e e' : ℝ), (niirs5 env s.toSensor sc interp).1 = .ok m
      ∧ (niirs5 env (s.dimmed k).toSensor sc interp).1 = .ok m'
      ∧ m.snr.intTime = .fin e ∧ m'.snr.intTime = .fin e' ∧ e ≤ e' ∧ k * e' ≤ e
      ∧ m.snr.snr = .fin x ∧ m'.snr.snr = .fin x' ∧ 0 < x' ∧ x' ≤ x ∧ NoBetter m m' := by
  obtain ⟨h', hbr'⟩ := dimmed_imaging h hc hi hn hd k0 k1
  obtain ⟨ex0, ee, ke, hsn⟩ := dimmed_snr h hc hi hn hd hl k0 k1
  have hcut' : 0 < (s.dimmed k).cut B := (mul_pos_iff_of_pos_right hi).mp (ex0.trans_le ee)
  have hc' : Contrast (s.dimmed k) g B := ⟨hc.altitude, hc.frames, hcut', hbr'⟩
  have hpos := contrast_pos h' hc'
  have hS0 : 0 < (s.dimmed k).contrastSNR B := (mul_pos_iff_of_pos_left (Real.sqrt_pos.mpr hc.frames)).mp hpos
  obtain ⟨m, m', f1, f2, f3, f4, -, -, f6⟩ := niirs5_order h h' rfl rfl rfl rfl rfl (fun c hcc => (cutoff_dimmed h.usable k0).mp hcc) hq
    (fun c hcc u v huv => dimmed_mtf h hn hpv hspeed h8 k0 hdr ex0 ee hcc huv) hc.altitude hpos
    (mul_le_mul_of_nonneg_left hsn (Real.sqrt_nonneg _))
  exact ⟨m, m', _, _, _, _, f1, f2, f3.exposure, f4.exposure, ee, ke, f3.contrast, f4.contrast, hS0, hsn, f6⟩

/-! ## Dark current -/

/-- The rate of a camera with the dark current `d`. -/
theorem rate_dark (s : RealSensor) (d : ℝ) (n : ℕ) (wl L : ℕ → ℝ) : (s.dark d).rate n wl L = s.rate n wl L + (d - s.darkCurrent) := by
  unfold RealSensor.rate
  change trap n wl (fun i => s.spectral (wl i) (L i)) + d = _
  ring

/-- A camera with more dark current still gives a rating. -/
theorem dark_imaging {env : Env} {s : RealSensor} {g : RealScene} {sc : Scenario} {interp : Bool} {B : List (Fin 6 → ℝ)}
    (h : Imaging env s g sc interp B) (hc : Contrast s g B) (hi : 0 < s.intTime) (hn : 0 < s.nTdi) {d : ℝ} (hd : s.darkCurrent ≤ d) :
    Imaging env (s.dark d) g sc interp B
      ∧ (s.dark d).electrons B (s.dark d).backgroundAt < (s.dark d).electrons B (s.dark d).targetAt := by
  obtain ⟨hab, ha0⟩ := rates_of_contrast h hc hi hn
  have ea := rate_dark s d B.length (fun i => B.getD i 0 0) (fun i => s.targetAt (B.getD i 0))
  have eb := rate_dark s d B.length (fun i => B.getD i 0 0) (fun i => s.backgroundAt (B.getD i 0))
  generalize s.rate B.length (fun i => B.getD i 0 0) (fun i => s.targetAt (B.getD i 0)) = a at hab ha0 ea
  generalize s.rate B.length (fun i => B.getD i 0 0) (fun i => s.backgroundAt (B.getD i 0)) = b at hab eb
  have hp : 0 < s.intTime * s.nTdi := mul_pos hi hn
  have eT : (s.dark d).electrons B (s.dark d).targetAt = (a + (d - s.darkCurrent)) * (s.intTime * s.nTdi) := by
    rw [← ea]; exact electrons_rate _ _ _
  have eB : (s.dark d).electrons B (s.dark d).backgroundAt = (b + (d - s.darkCurrent)) * (s.intTime * s.nTdi) := by
    rw [← eb]; exact electrons_rate _ _ _
  have hcounts : 0 ≤ (s.dark d).brightest B := by
    refine le_max_of_le_left ?_
    rw [eT]
    exact mul_nonneg (by linarith) hp.le
  refine ⟨⟨?_, ?_, h.viewing, h.scene, h.atmosphere, h.wavelengths, h.distinct, h.signal, hcounts, h.well, h.fill,
      h.bits, h.pitchX, h.pitchY, h.focal, h.frames⟩, ?_⟩
  · obtain ⟨h1, h2, h3, h4, h5, h6, h7, h9⟩ := h.usable
    exact ⟨h1, h2, h3, h4, h5, h6, h7, h9⟩
  · obtain ⟨h1, h2, h3, h4, h5, h6⟩ := h.optical
    exact ⟨h1, h2, h3, h4, h5, h6⟩
  · rw [eT, eB]
    exact mul_lt_mul_of_pos_right (by linarith) hp

/-- Exposure and signal-to-noise ratio of a camera with more dark current. -/
theorem dark_snr {env : Env} {s : RealSensor} {g : RealScene} {sc : Scenario} {interp : Bool} {B : List (Fin 6 → ℝ)}
    (h : Imaging env s g sc interp B) (hc : Contrast s g B) (hi : 0 < s.intTime) (hn : 0 < s.nTdi) (hw : 0 < s.maxWellFill) {d : ℝ}
    (hd : s.darkCurrent ≤ d) :
    0 < (s.dark d).cut B ∧ (s.dark d).exposure B ≤ s.exposure B ∧ (s.dark d).contrastSNR B ≤ s.contrastSNR B
      ∧ ((s.dark d).brightest B ≤ s.maxWellFill * s.maxN → (s.dark d).exposure B = s.exposure B) := by
  obtain ⟨-, hbr'⟩ := dark_imaging h hc hi hn hd
  obtain ⟨hab, ha0⟩ := rates_of_contrast h hc hi hn
  have ea := rate_dark s d B.length (fun i => B.getD i 0 0) (fun i => s.targetAt (B.getD i 0))
  have eb := rate_dark s d B.length (fun i => B.getD i 0 0) (fun i => s.backgroundAt (B.getD i 0))
  have hW : 0 < s.maxWellFill * s.maxN := mul_pos hw h.well
  have hcut' : 0 < (s.dark d).cut B := by
    unfold RealSensor.cut
    split_ifs with c
    · exact one_pos
    · exact div_pos hW (hW.trans (not_le.mp c))
  obtain ⟨x1, x2, x3⟩ := exposure_rate (B := B) hi hn hW.le hc.brighter.le
  obtain ⟨y1, y2, y3⟩ := exposure_rate (s := s.dark d) (B := B) hi hn hW.le hbr'.le
  have z1 := snr_exposure hc.brighter.le
  have z2 := snr_exposure hbr'.le
  have hQ := fixed_noise_pos h.well h.bits
  change (s.dark d).rate B.length (fun i => B.getD i 0 0) (fun i => s.targetAt (B.getD i 0)) * ((s.dark d).exposure B * s.nTdi)
    ≤ s.maxWellFill * s.maxN at y2
  change (s.dark d).exposure B ≤ s.intTime at y1
  change (s.dark d).contrastSNR B = ((s.dark d).rate B.length (fun i => B.getD i 0 0) (fun i => s.targetAt (B.getD i 0))
        - (s.dark d).rate B.length (fun i => B.getD i 0 0) (fun i => s.backgroundAt (B.getD i 0)))
      * ((s.dark d).exposure B * s.nTdi / Real.sqrt ((s.dark d).exposure B * s.nTdi
          * (s.dark d).rate B.length (fun i => B.getD i 0 0) (fun i => s.targetAt (B.getD i 0))
          + ((s.maxN / (Real.sqrt 12 * ((2 : ℝ) ^ s.bitDepth - 1))) ^ 2 + s.readNoise ^ 2
            + (s.otherNoise.map (· ^ 2)).sum))) at z2
  rw [ea] at y2 z2
  rw [eb] at z2
  generalize s.rate B.length (fun i => B.getD i 0 0) (fun i => s.targetAt (B.getD i 0)) = a at hab ha0 x2 x3 y2 z1 z2
  generalize s.rate B.length (fun i => B.getD i 0 0) (fun i => s.backgroundAt (B.getD i 0)) = b at hab z1 z2
  have ex0 : 0 < (s.dark d).exposure B := mul_pos hcut' hi
  have ee : (s.dark d).exposure B ≤ s.exposure B := by
    refine x3 _ y1 (le_trans ?_ y2)
    exact mul_le_mul_of_nonneg_right (by linarith) (mul_nonneg ex0.le hn.le)
  refine ⟨hcut', ee, ?_, fun hfull => ?_⟩
  · rw [z1, z2]
    have hdiff : a + (d - s.darkCurrent) - (b + (d - s.darkCurrent)) = 1 * (a - b) := by ring
    rw [hdiff]
    exact snr_step zero_le_one ha0 hab.le (by linarith) ex0.le (by linarith) hn.le hQ
  · have e1 : (s.dark d).cut B = 1 := by
      unfold RealSensor.cut
      exact if_pos hfull
    refine le_antisymm ee ?_
    unfold RealSensor.exposure at x1 ⊢
    rw [e1, one_mul]
    exact x1

/-- **C125** (dark current): more dark current never raises the signal-to-noise ratio that `niirs5` reports and never lengthens the exposure; while the
well is not full, the rating does not rise either and the relative edge responses are the same. -/
theorem C125_dark {env : Env} {s : RealSensor} {g : RealScene} {sc : Scenario} {interp : Bool} {B : List (Fin 6 → ℝ)}
    (h : Imaging env s g sc interp B) (hq : s.Sampled B) (hc : Contrast s g B) (hi : 0 < s.intTime) (hn : 0 < s.nTdi) (hw : 0 < s.maxWellFill)
    {d : ℝ} (hd : s.darkCurrent ≤ d) :
    ∃ (m m' : Metrics) (x x' e e' : ℝ), (niirs5 env s.toSensor sc interp).1 = .ok m
      ∧ (niirs5 env (s.dark d).toSensor sc interp).1 = .ok m'
      ∧ m.snr.intTime = .fin e ∧ m'.snr.intTime = .fin e' ∧ 0 < e' ∧ e' ≤ e
      ∧ m.snr.snr = .fin x ∧ m'.snr.snr = .fin x' ∧ 0 < x' ∧ x' ≤ x
      ∧ ((s.dark d).brightest B ≤ s.maxWellFill * s.maxN → e' = e ∧ m'.giqe5 = m.giqe5 ∧ NoBetter m m') := by
  obtain ⟨h', hbr'⟩ := dark_imaging h hc hi hn hd
  obtain ⟨hcut', ee, hsn, hsame⟩ := dark_snr h hc hi hn hw hd
  have hc' : Contrast (s.dark d) g B := ⟨hc.altitude, hc.frames, hcut', hbr'⟩
  have hpos := contrast_pos h' hc'
  have hS0 : 0 < (s.dark d).contrastSNR B := (mul_pos_iff_of_pos_left (Real.sqrt_pos.mpr hc.frames)).mp hpos
  obtain ⟨m, c, φ, gw, rer, f1, f2, -⟩ := niirs5_value h
  obtain ⟨m', c', φ', gw', rer', g1, g2, -⟩ := niirs5_value h'
  refine ⟨m, m', _, _, _, _, f1, g1, f2.exposure, g2.exposure, mul_pos hcut' hi, ee, f2.contrast, g2.contrast, hS0, hsn, fun hfull => ?_⟩
  have e1 := hsame hfull
  have hM : (s.dark d).mtf g B (fun _ _ => 1) = s.mtf g B (fun _ _ => 1) := by
    funext u v
    unfold RealSensor.mtf
    rw [e1]
    rfl
  obtain ⟨n, n', k1, k2, -, -, -, k5, k6⟩ := niirs5_order h h' rfl rfl rfl rfl rfl (fun _ hc => hc) hq (fun _ _ u v _ => by rw [hM]) hc.altitude
    hpos (mul_le_mul_of_nonneg_left hsn (Real.sqrt_nonneg _))
  obtain rfl : m = n := by rw [f1] at k1; exact Except.ok.inj k1
  obtain rfl : m' = n' := by rw [g1] at k2; exact Except.ok.inj k2
  exact ⟨e1, (k5 hM).1, k6⟩

end PyBSM
