import Verif.Props.NiirsValue
import Verif.Spec.Turned

/-!
# C107: turning the camera by a quarter
-/

noncomputable section

open Classical

namespace PyBSM

open Spec

variable {s : RealSensor} {k : Kernel} {g : RealScene} {B : List (Fin 6 → ℝ)}

theorem turned_spectral : (s.turned k).spectral = s.spectral := by
  funext lam l
  unfold RealSensor.spectral spectralRate
  have h1 : (s.turned k).transAt lam = s.transAt lam := rfl
  have h2 : (s.turned k).selfAt lam = s.selfAt lam := rfl
  rw [h1, h2, show (s.turned k).wX = s.wY from rfl, show (s.turned k).wY = s.wX from rfl, mul_comm s.wY s.wX]
  rfl

theorem turned_rate (n : ℕ) (wl L : ℕ → ℝ) : (s.turned k).rate n wl L = s.rate n wl L := by
  unfold RealSensor.rate
  rw [turned_spectral]
  rfl

theorem turned_electrons (L : (Fin 6 → ℝ) → ℝ) : (s.turned k).electrons B L = s.electrons B L := by
  unfold RealSensor.electrons
  rw [turned_rate]
  rfl

theorem turned_brightest : (s.turned k).brightest B = s.brightest B := by
  unfold RealSensor.brightest
  rw [turned_electrons, turned_electrons]
  rfl

theorem turned_cut : (s.turned k).cut B = s.cut B := by
  unfold RealSensor.cut
  rw [turned_brightest]
  rfl

theorem turned_exposure : (s.turned k).exposure B = s.exposure B := by
  unfold RealSensor.exposure
  rw [turned_cut]
  rfl

theorem turned_noise : (s.turned k).noise B = s.noise B := by
  unfold RealSensor.noise
  rw [turned_cut, turned_brightest]
  rfl

theorem turned_snr : (s.turned k).contrastSNR B = s.contrastSNR B := by
  unfold RealSensor.contrastSNR
  rw [turned_cut, turned_noise, turned_electrons, turned_electrons]
  rfl

theorem turned_band : (s.turned k).band B = s.band B := by
  unfold RealSensor.band
  rw [turned_spectral]
  rfl

theorem turned_optics (hs : s.Optical) {pairs : List (ℝ × ℝ)} (hb : Band pairs) (t u v : ℝ) :
    opticsAt (s.turned k) g pairs t u v = opticsAt s g pairs t v u := by
  have hsq : u ^ 2 + v ^ 2 = v ^ 2 + u ^ 2 := add_comm _ _
  have hA : apertureAt (s.turned k) pairs u v = apertureAt s pairs v u := by
    unfold apertureAt wmean
    congr 2
    refine List.map_congr_left fun p hp => ?_
    dsimp only
    rw [show (s.turned k).D = s.D from rfl, show (s.turned k).eta = s.eta from rfl,
      mtf_radial (hb.positive p hp) hs.aperture hs.obscuration hs.open_ hsq]
  have hT : turbulenceAt (s.turned k) g pairs t u v = turbulenceAt s g pairs t v u := by
    unfold turbulenceAt turbMix
    rw [hsq]
    rfl
  have hD : detectorAt (s.turned k) u v = detectorAt s v u := mul_comm _ _
  have hJ : jitterAt (s.turned k) u v = jitterAt s v u := by
    unfold jitterAt
    rw [add_comm]
    rfl
  have hQ : driftAt (s.turned k) t u v = driftAt s t v u := mul_comm _ _
  have hW : wavefrontAt (s.turned k) pairs u v = wavefrontAt s pairs v u := by
    unfold wavefrontAt
    congr 1
    funext l
    rw [add_comm ((u / (s.turned k).lX) ^ 2)]
    rfl
  unfold opticsAt
  rw [hA, hT, hD, hJ, hQ, hW]

theorem turned_imaging {env : Env} {sc : Scenario} {interp : Bool} (h : Imaging env s g sc interp B) :
    Imaging env (s.turned k) g sc interp B where
  usable := ⟨h.usable.aperture, h.usable.transmission_ne, h.usable.transmission_inc, h.usable.qe_ne, h.usable.qe_inc,
    h.usable.coldShield, h.usable.optics, h.usable.coldFilter⟩
  optical := ⟨h.optical.aperture, h.optical.focal, h.optical.obscuration, h.optical.open_, h.optical.corrY,
    h.optical.corrX⟩
  viewing := h.viewing
  scene := h.scene
  atmosphere := h.atmosphere
  wavelengths := h.wavelengths
  distinct := h.distinct
  signal := by rw [turned_spectral]; exact h.signal
  counts := by rw [turned_brightest]; exact h.counts
  well := h.well
  fill := h.fill
  bits := h.bits
  pitchX := h.pitchY
  pitchY := h.pitchX
  focal := h.focal
  frames := h.frames

theorem cutoff_unique {c c' : ℝ} (h : s.Cutoff B c) (h' : s.Cutoff B c') : c = c' := by
  obtain ⟨l, ⟨p, hp, e⟩, h1, rfl⟩ := h
  obtain ⟨l', ⟨p', hp', e'⟩, h2, rfl⟩ := h'
  have : l = l' := le_antisymm (e' ▸ h1 p' hp') (e ▸ h2 p hp)
  rw [this]

theorem turned_cutoff {c : ℝ} (h : (s.turned k).Cutoff B c) : s.Cutoff B c := by
  unfold RealSensor.Cutoff at h ⊢
  rwa [turned_band] at h

theorem angle_unique {p q r : Pt} {φ φ' : ℝ} (h1 : pdist q p ≠ 0) (h2 : pdist q r ≠ 0) (h : IsAngle p q r φ)
    (h' : IsAngle p q r φ') : φ = φ' := by
  obtain ⟨ψ, -, hu⟩ := exists_angle h1 h2
  rw [hu φ h, hu φ' h']

theorem overshoot_unique {M : ℕ → ℝ} {df ifov e e' : ℝ} (h : IsOvershoot M df ifov e) (h' : IsOvershoot M df ifov e') :
    e = e' := by
  by_cases hc : ∀ i < 8, edge 50 M df ifov (1 + (i : ℕ) / 4) < edge 50 M df ifov (1 + ((i + 1 : ℕ) : ℝ) / 4)
  · rw [h.1 hc, h'.1 hc]
  · obtain ⟨⟨i, hi, e1⟩, h1⟩ := h.2 hc
    obtain ⟨⟨j, hj, e2⟩, h2⟩ := h'.2 hc
    exact le_antisymm (e1 ▸ h2 i hi) (e2 ▸ h1 j hj)

theorem max_comm_fin (a b : ℝ) : XR.max (.fin a) (.fin b) = XR.max (.fin b) (.fin a) := by
  rw [XR.fin_max, XR.fin_max, max_comm]

theorem min_comm_fin (a b : ℝ) : XR.min (.fin a) (.fin b) = XR.min (.fin b) (.fin a) := by
  rw [XR.fin_min, XR.fin_min, min_comm]

/-- **C107** (GIQE 5). Turning the camera by a quarter, whatever its kernel, leaves the exposure, the SNR and the combined
relative edge response unchanged and exchanges the relative edge responses along the two axes. If the detector pitch is
the same along both axes, the score and the weighted ground sample distance are unchanged too. -/
theorem C107_giqe5 {env : Env} {sc : Scenario} {interp : Bool} (h : Imaging env s g sc interp B) (k : Kernel) :
    ∃ (m m' : Metrics) (a b gw gw' rer : XR),
      (niirs5 env s.toSensor sc interp).1 = .ok m ∧ (niirs5 env (s.turned k).toSensor sc interp).1 = .ok m'
      ∧ m'.snr.intTime = m.snr.intTime ∧ m'.snr.snr = m.snr.snr ∧ m'.elevAngle = m.elevAngle
      ∧ m.giqe5 = some (a, b, gw, rer) ∧ m'.giqe5 = some (b, a, gw', rer)
      ∧ (s.pX = s.pY → m'.niirs = m.niirs ∧ gw' = gw) := by
  have h' := turned_imaging (k := k) h
  obtain ⟨m, c, φ, gw, rer, e1, e2, e3, -, -, e6, e7, e8, e9⟩ := niirs5_value h
  obtain ⟨m', c', φ', gw', rer', f1, f2, f3, -, -, f6, f7, f8, f9⟩ := niirs5_value h'
  have hc : c' = c := cutoff_unique (turned_cutoff f3.isCutoff) e3.isCutoff
  have hφ : φ' = φ := angle_unique (by
    rw [pdist_symm, pdist_origin_pointAt h.viewing.above.le]; exact h.viewing.above.ne') h.viewing.away f6 e6
  have hb := imaging_band h.wavelengths h.distinct h.signal
  have hM : ∀ u v, (s.turned k).mtf g B (fun _ _ => 1) u v = s.mtf g B (fun _ _ => 1) v u := by
    intro u v
    unfold RealSensor.mtf
    rw [turned_band, turned_exposure, turned_optics h.optical hb]
  have hU : alongU ((s.turned k).mtf g B fun _ _ => 1) (c / 50) = alongV (s.mtf g B fun _ _ => 1) (c / 50) := by
    funext i
    exact hM _ _
  have hV : alongV ((s.turned k).mtf g B fun _ _ => 1) (c / 50) = alongU (s.mtf g B fun _ _ => 1) (c / 50) := by
    funext i
    exact hM _ _
  have hpx : (s.turned k).pX = s.pY := rfl
  have hpy : (s.turned k).pY = s.pX := rfl
  have hf : (s.turned k).f = s.f := rfl
  have hfs : (s.turned k).frameStacks = s.frameStacks := rfl
  rw [hc, hU, hV, hpx, hpy, hf] at f8
  rw [hc, hφ, hU, hV, hpx, hpy, hf, hfs, turned_snr] at f9
  have hr : rer' = rer := by
    unfold giqe5 at e9 f9
    rw [max_comm_fin, min_comm_fin] at f9
    cases hx : (Scal.py (-(1.9 : XR))).div (.np (.fin (Real.sqrt s.frameStacks * s.contrastSNR B))) with
    | error e => simp [hx, bind, Except.bind] at e9
    | ok x =>
      cases hy : (Scal.py 1.8).div (.np (.fin (Real.sqrt s.frameStacks * s.contrastSNR B))) with
      | error e => simp [hx, hy, bind, Except.bind] at e9
      | ok y =>
        simp only [hx, hy, bind, Except.bind] at e9 f9
        have a1 := congrArg (fun p => p.2.2) (Except.ok.inj e9)
        have a2 := congrArg (fun p => p.2.2) (Except.ok.inj f9)
        exact a2.symm.trans a1
  subst hr
  refine ⟨m, m', _, _, gw, gw', rer', e1, f1, ?_, ?_, ?_, e8, f8, ?_⟩
  · rw [e2.exposure, f2.exposure, turned_exposure]
  · rw [e2.contrast, f2.contrast, turned_snr]
  · rw [e7, f7, hφ]
  · intro hp
    rw [hp] at e9 f9
    unfold giqe5 at e9 f9
    rw [max_comm_fin, min_comm_fin] at f9
    have := Except.ok.inj (e9.symm.trans f9)
    rw [Prod.mk.injEq, Prod.mk.injEq] at this
    exact ⟨this.1.symm, this.2.1.symm⟩

/-- **C107** (non-square detectors). With different pitches along the axes the GIQE 5 score depends on which of them is
called `x`, because the ground sample distance along `x` alone is used: exchanging the axes changes the score by 3.32 times
the decimal logarithm of the ratio of the pitches. -/
theorem C107_pitch {env : Env} {sc : Scenario} {interp : Bool} (h : Imaging env s g sc interp B) (k : Kernel) :
    ∃ (m m' : Metrics) (a b : ℝ) (gw rer : XR),
      (niirs5 env s.toSensor sc interp).1 = .ok m ∧ (niirs5 env (s.turned k).toSensor sc interp).1 = .ok m'
      ∧ m.giqe5 = some (.fin a, .fin b, gw, rer)
      ∧ (0 < a → 0 < b → 0 < g.altitude → s.frameStacks ≠ 0 → s.contrastSNR B ≠ 0 →
        ∃ y y', m.niirs = .fin y ∧ m'.niirs = .fin y' ∧ y' - y = 3.32 * lg (s.pX / s.pY) ∧ (s.pX ≠ s.pY → y' ≠ y)) := by
  have h' := turned_imaging (k := k) h
  obtain ⟨m, c, φ, gw, rer, e1, e2, e3, -, -, e6, e7, e8, e9⟩ := niirs5_value h
  obtain ⟨m', c', φ', gw', rer', f1, f2, f3, -, -, f6, f7, f8, f9⟩ := niirs5_value h'
  have hc : c' = c := cutoff_unique (turned_cutoff f3.isCutoff) e3.isCutoff
  have hφ : φ' = φ := angle_unique (by
    rw [pdist_symm, pdist_origin_pointAt h.viewing.above.le]; exact h.viewing.above.ne') h.viewing.away f6 e6
  have hb := imaging_band h.wavelengths h.distinct h.signal
  have hM : ∀ u v, (s.turned k).mtf g B (fun _ _ => 1) u v = s.mtf g B (fun _ _ => 1) v u := by
    intro u v
    unfold RealSensor.mtf
    rw [turned_band, turned_exposure, turned_optics h.optical hb]
  have hU : alongU ((s.turned k).mtf g B fun _ _ => 1) (c / 50) = alongV (s.mtf g B fun _ _ => 1) (c / 50) := by
    funext i
    exact hM _ _
  have hV : alongV ((s.turned k).mtf g B fun _ _ => 1) (c / 50) = alongU (s.mtf g B fun _ _ => 1) (c / 50) := by
    funext i
    exact hM _ _
  have hpx : (s.turned k).pX = s.pY := rfl
  have hpy : (s.turned k).pY = s.pX := rfl
  have hf : (s.turned k).f = s.f := rfl
  have hfs : (s.turned k).frameStacks = s.frameStacks := rfl
  rw [hc, hφ, hU, hV, hpx, hpy, hf, hfs, turned_snr] at f9
  refine ⟨m, m', _, _, gw, rer, e1, f1, e8, ?_⟩
  intro r1 r2 ha hfr hsnr
  have hs : Real.sqrt s.frameStacks * s.contrastSNR B ≠ 0 :=
    mul_ne_zero (Real.sqrt_pos.mpr (lt_of_le_of_ne h.frames (Ne.symm hfr))).ne' hsnr
  have hsl := slant_pos_of h.viewing
  have hx := h.pitchX
  have hy := h.pitchY
  have hfo := h.focal
  have hse := sin_elev_pos h.viewing ha e6
  rw [giqe5_fin rfl r1 r2 (by positivity) hs hse, Except.ok.injEq, Prod.mk.injEq] at e9
  rw [giqe5_fin rfl r2 r1 (by positivity) hs hse, Except.ok.injEq, Prod.mk.injEq] at f9
  have hd : Spec.niirs5 (rerOf (alongV (s.mtf g B fun _ _ => 1) (c / 50)) (c / 50) (s.pY / s.f))
        (rerOf (alongU (s.mtf g B fun _ _ => 1) (c / 50)) (c / 50) (s.pX / s.f)) (s.pY / s.f * g.slant)
        (Real.sqrt s.frameStacks * s.contrastSNR B) (Real.pi / 2 - φ)
      - Spec.niirs5 (rerOf (alongU (s.mtf g B fun _ _ => 1) (c / 50)) (c / 50) (s.pX / s.f))
        (rerOf (alongV (s.mtf g B fun _ _ => 1) (c / 50)) (c / 50) (s.pY / s.f)) (s.pX / s.f * g.slant)
        (Real.sqrt s.frameStacks * s.contrastSNR B) (Real.pi / 2 - φ) = 3.32 * lg (s.pX / s.pY) := by
    unfold Spec.niirs5 rer5
    rw [max_comm, min_comm]
    have hp : 0 < Real.sin (Real.pi / 2 - φ) ^ (1 / 4 : ℝ) := Real.rpow_pos_of_pos hse _
    have hl : lg (projectedGsd (1 / 4) (s.pX / s.f * g.slant) (Real.pi / 2 - φ) / 0.0254)
        = lg (projectedGsd (1 / 4) (s.pY / s.f * g.slant) (Real.pi / 2 - φ) / 0.0254) + lg (s.pX / s.pY) := by
      unfold projectedGsd lg
      rw [← Real.logb_mul (by positivity) (by positivity)]
      congr 1
      field_simp
    rw [hl]
    ring
  refine ⟨_, _, e9.1.symm, f9.1.symm, hd, fun hne he => ?_⟩
  rw [he, sub_self] at hd
  have h0 : lg (s.pX / s.pY) = 0 := by linarith
  unfold lg at h0
  rcases Real.logb_eq_zero.mp h0 with h1 | h1 | h1 | h1 | h1 | h1
  · norm_num at h1
  · norm_num at h1
  · norm_num at h1
  · exact (div_pos hx hy).ne' h1
  · exact hne ((div_eq_one_iff_eq hy.ne').mp h1)
  · linarith [div_pos hx hy]

/-- **C107** (GIQE 3 and 4). `niirs` takes geometric means: for sensors without sharpening (kernels of one row) turning the
camera changes neither score, edge response, overshoot nor ground sample distance, whatever the pitches. -/
theorem C107_giqe34 {env : Env} {sc : Scenario} {interp : Bool} (h : Imaging env s g sc interp B)
    (hs1 : s.filterKernel.length ≤ 1) (hk : s.filterKernel.flatten.sum = 1) :
    ∃ (m m' : Metrics) (gx gy gm rer eho ng n4 gp : XR),
      (niirs env s.toSensor sc interp).1 = .ok m
      ∧ (niirs env (s.turned s.filterKernel).toSensor sc interp).1 = .ok m'
      ∧ m.gsdX = gx ∧ m'.gsdX = gy ∧ m.giqe34 = some (gy, gm, rer, eho, ng, n4, gp)
      ∧ m'.giqe34 = some (gx, gm, rer, eho, ng, n4, gp) ∧ m'.niirs = m.niirs ∧ m'.snr.snr = m.snr.snr := by
  have h' := turned_imaging (k := s.filterKernel) h
  obtain ⟨m, c, eu, ev, φ, rer, eho, n4, gp, e1, e2, e3, -, -, e6, e7, e8, e9, e10, e11, e12, e13, e14⟩ := niirs_value h hk
  obtain ⟨m', c', eu', ev', φ', rer', eho', n4', gp', f1, f2, f3, -, -, f6, f7, f8, f9, f10, f11, f12, f13, f14⟩ :=
    niirs_value h' hk
  have hc : c' = c := cutoff_unique (turned_cutoff f3.isCutoff) e3.isCutoff
  have hφ : φ' = φ := angle_unique (by
    rw [pdist_symm, pdist_origin_pointAt h.viewing.above.le]; exact h.viewing.above.ne') h.viewing.away f6 e6
  have hb := imaging_band h.wavelengths h.distinct h.signal
  have hF : filterAt env.diag s = fun _ _ => 1 := by
    funext u v
    unfold filterAt
    rw [if_neg (by omega)]
  have hF' : filterAt env.diag (s.turned s.filterKernel) = fun _ _ => 1 := by
    funext u v
    unfold filterAt
    rw [if_neg (by show ¬ 1 < s.filterKernel.length; omega)]
  have hM : ∀ u v, (s.turned s.filterKernel).mtf g B (fun _ _ => 1) u v = s.mtf g B (fun _ _ => 1) v u := by
    intro u v
    unfold RealSensor.mtf
    rw [turned_band, turned_exposure, turned_optics h.optical hb]
  have hU : alongU ((s.turned s.filterKernel).mtf g B fun _ _ => 1) (c / 50) = alongV (s.mtf g B fun _ _ => 1) (c / 50) := by
    funext i
    exact hM _ _
  have hV : alongV ((s.turned s.filterKernel).mtf g B fun _ _ => 1) (c / 50) = alongU (s.mtf g B fun _ _ => 1) (c / 50) := by
    funext i
    exact hM _ _
  have hpx : (s.turned s.filterKernel).pX = s.pY := rfl
  have hpy : (s.turned s.filterKernel).pY = s.pX := rfl
  have hf : (s.turned s.filterKernel).f = s.f := rfl
  have hfs : (s.turned s.filterKernel).frameStacks = s.frameStacks := rfl
  have hkk : (s.turned s.filterKernel).filterKernel = s.filterKernel := rfl
  rw [hF] at e8 e9 e10
  rw [hF', hc, hf] at f8 f9 f10
  rw [hU, hpx] at f8
  rw [hV, hpy] at f9
  rw [hU, hV, hpx, hpy] at f10
  have h1 : eu' = ev := overshoot_unique f8 e9
  have h2 : ev' = eu := overshoot_unique f9 e8
  have hr : rer' = rer := by rw [e10, f10, mul_comm]
  have he : eho' = eho := by rw [e11, f11, h1, h2, mul_comm]
  rw [hpx, hpy, hf, hkk, mul_comm (s.pY / s.f * g.slant), hr, he] at f12 f13 f14
  rw [hfs, turned_snr] at f13 f14
  rw [hφ] at f14
  have h3 := Except.ok.inj (e13.symm.trans f13)
  have h4 := Except.ok.inj (e14.symm.trans f14)
  rw [Prod.mk.injEq] at h4
  rw [← h4.1, ← h4.2] at f12
  refine ⟨m, m', _, _, _, _, _, _, _, _, e1, f1, e3.gsdX, ?_, e12, f12, h3.symm, ?_⟩
  · rw [f3.gsdX]
    rfl
  · rw [e2.contrast, f2.contrast, turned_snr]

/-- The same camera without sharpening. -/
theorem plain_imaging {env : Env} {sc : Scenario} {interp : Bool} (h : Imaging env s g sc interp B) :
    Imaging env ({ s with filterKernel := [[1]] } : RealSensor) g sc interp B where
  usable := ⟨h.usable.aperture, h.usable.transmission_ne, h.usable.transmission_inc, h.usable.qe_ne, h.usable.qe_inc,
    h.usable.coldShield, h.usable.optics, h.usable.coldFilter⟩
  optical := ⟨h.optical.aperture, h.optical.focal, h.optical.obscuration, h.optical.open_, h.optical.corrX,
    h.optical.corrY⟩
  viewing := h.viewing
  scene := h.scene
  atmosphere := h.atmosphere
  wavelengths := h.wavelengths
  distinct := h.distinct
  signal := h.signal
  counts := h.counts
  well := h.well
  fill := h.fill
  bits := h.bits
  pitchX := h.pitchX
  pitchY := h.pitchY
  focal := h.focal
  frames := h.frames

theorem giqe3_noise {rer gsd eho n3 n3' : XR} {a b snr y : ℝ} (hs : snr ≠ 0)
    (h : giqe3 (.np rer) (.np gsd) (.np eho) (.np (.fin a)) (.np (.fin snr)) = .ok n3)
    (h' : giqe3 (.np rer) (.np gsd) (.np eho) (.np (.fin b)) (.np (.fin snr)) = .ok n3') (hy : n3' = .fin y) :
    n3 = .fin (y - (a - b) / snr) := by
  unfold giqe3 at h h'
  obtain ⟨q, q1, q2⟩ := Scal.div_fin (a := .np (.fin a)) (b := .np (.fin snr)) (x := a) (y := snr) rfl rfl hs
  obtain ⟨q', q1', q2'⟩ := Scal.div_fin (a := .np (.fin b)) (b := .np (.fin snr)) (x := b) (y := snr) rfl rfl hs
  cases hg : (Scal.np gsd).div (.py 0.0254) with
  | error e => simp [hg, bind, Except.bind] at h
  | ok g =>
    cases hr : (Scal.np rer).div g with
    | error e => simp [hg, hr, bind, Except.bind] at h
    | ok r =>
      simp only [hg, hr, q1, q1', q2, q2', bind, Except.bind, Except.ok.injEq] at h h'
      rw [← h] at *
      rw [← h'] at hy
      generalize 11.81 + 3.32 * r.val.log10 - 1.48 * (Scal.np eho).val = x at hy ⊢
      cases x with
      | fin x =>
        rw [XR.fin_sub, XR.fin_inj] at hy ⊢
        rw [← hy]
        ring
      | pinf => exact absurd hy (by intro h; cases h)
      | ninf => exact absurd hy (by intro h; cases h)
      | nan => rw [XR.nan_sub] at hy; cases hy

/-- **C107** (kernels of one row). A sharpening kernel of a single row sharpens nothing but is charged for the noise it
adds: all OTFs are those of the camera without sharpening, and the GIQE 3 score is lower by the excess of the noise gain
over one, divided by the SNR. -/
theorem C107_row_kernel {env : Env} {sc : Scenario} {interp : Bool} (h : Imaging env s g sc interp B) {row : List ℝ}
    (hr : s.filterKernel = [row]) (hk : row.sum = 1) :
    ∃ (m m' : Metrics) (gy gm rer eho n4 gp n4' gp' : XR) (ng : ℝ),
      (niirs env s.toSensor sc interp).1 = .ok m
      ∧ (niirs env ({ s with filterKernel := [[1]] } : RealSensor).toSensor sc interp).1 = .ok m'
      ∧ ng = Real.sqrt (row.map (· ^ 2)).sum
      ∧ m.otf.map (·.system) = m'.otf.map (·.system)
      ∧ m.giqe34 = some (gy, gm, rer, eho, .fin ng, n4, gp)
      ∧ m'.giqe34 = some (gy, gm, rer, eho, .fin 1, n4', gp')
      ∧ (∀ y', m'.niirs = .fin y' → s.frameStacks ≠ 0 → s.contrastSNR B ≠ 0 →
        m.niirs = .fin (y' - (ng - 1) / (Real.sqrt s.frameStacks * s.contrastSNR B))) := by
  have h' := plain_imaging h
  have hfl : s.filterKernel.flatten = row := by rw [hr]; simp
  obtain ⟨m, c, eu, ev, φ, rer, eho, n4, gp, e1, e2, e3, -, -, e6, e7, e8, e9, e10, e11, e12, e13, e14⟩ :=
    niirs_value h (by rw [hfl, hk])
  obtain ⟨m', c', eu', ev', φ', rer', eho', n4', gp', f1, f2, f3, -, -, f6, f7, f8, f9, f10, f11, f12, f13, f14⟩ :=
    niirs_value h' (by show ([[1]] : Kernel).flatten.sum = 1; simp)
  have hc : c' = c := cutoff_unique f3.isCutoff e3.isCutoff
  have hF : filterAt env.diag s = fun _ _ => 1 := by
    funext u v
    unfold filterAt
    rw [if_neg (by rw [hr]; simp)]
  have hF' : filterAt env.diag ({ s with filterKernel := [[1]] } : RealSensor) = fun _ _ => 1 := by
    funext u v
    unfold filterAt
    rw [if_neg (by simp)]
  subst hc
  rw [hF] at e3 e8 e9 e10
  rw [hF'] at f3 f8 f9 f10
  have h1 : eu' = eu := overshoot_unique f8 e8
  have h2 : ev' = ev := overshoot_unique f9 e9
  have hr : rer' = rer := by rw [e10, f10]; rfl
  have he : eho' = eho := by rw [e11, f11, h1, h2]
  subst hr he
  rw [hfl] at e12 e13
  have hone : Real.sqrt ((([[1]] : Kernel).flatten.map (· ^ 2)).sum) = 1 := by simp
  change m'.giqe34 = some (_, _, _, _, .fin (Real.sqrt ((([[1]] : Kernel).flatten.map (· ^ 2)).sum)), _, _) at f12
  change giqe3 _ _ _ (.np (.fin (Real.sqrt ((([[1]] : Kernel).flatten.map (· ^ 2)).sum))))
    (.np (.fin (Real.sqrt s.frameStacks * s.contrastSNR B))) = _ at f13
  rw [hone] at f12 f13
  refine ⟨m, m', _, _, _, _, _, _, _, _, _, e1, f1, rfl, e3.system.trans f3.system.symm, e12, f12, ?_⟩
  intro y' hy hfr hsnr
  have hs : Real.sqrt s.frameStacks * s.contrastSNR B ≠ 0 :=
    mul_ne_zero (Real.sqrt_pos.mpr (lt_of_le_of_ne h.frames (Ne.symm hfr))).ne' hsnr
  exact giqe3_noise hs e13 f13 hy

end PyBSM
