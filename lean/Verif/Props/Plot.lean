import Verif.Model.Plot
import Verif.Props.NoiseBreakout
import Verif.Props.SystemValue
import Verif.Props.NiirsDemo

/-!
# C92: what the plots show
-/

noncomputable section

open Classical

namespace PyBSM

open Spec

/-- The curves of `plot_common_MTFs` along the frequencies `(x k, y k)`, `k = 0 .. 49`: image plane frequency in
cycles per mm (`c` is the cutoff in cycles per radian), the moduli of the components, their product as the system
curve, the last frequency as the right end of the axis, and the Nyquist frequency of the detector pitch. -/
structure Spec.MtfCurves (s : RealSensor) (g : RealScene) (B : List (Fin 6 → ℝ)) (F : ℝ → ℝ → ℝ) (c : ℝ)
    (x y : ℕ → ℝ) (p : MtfPlot) : Prop where
  abscissa : p.sf = vec 50 fun k => k * (c / 50) / s.f / 1000
  aperture : p.aperture = vec 50 fun k => |apertureAt s (s.band B) (x k) (y k)|
  turbulence : p.turbulence = vec 50 fun k => |turbulenceAt s g (s.band B) (s.exposure B) (x k) (y k)|
  detector : p.detector = vec 50 fun k => |detectorAt s (x k) (y k)|
  jitter : p.jitter = vec 50 fun k => |jitterAt s (x k) (y k)|
  drift : p.drift = vec 50 fun k => |driftAt s (s.exposure B) (x k) (y k)|
  wavefront : p.wavefront = vec 50 fun k => |wavefrontAt s (s.band B) (x k) (y k)|
  processing : p.processing = vec 50 fun k => |F (x k) (y k)|
  system : p.system = vec 50 fun k => |apertureAt s (s.band B) (x k) (y k)|
    * |turbulenceAt s g (s.band B) (s.exposure B) (x k) (y k)| * |detectorAt s (x k) (y k)| * |jitterAt s (x k) (y k)|
    * |driftAt s (s.exposure B) (x k) (y k)| * |wavefrontAt s (s.band B) (x k) (y k)| * |F (x k) (y k)|
  right : p.xMax = .fin (49 * (c / 50) / s.f / 1000)
  top : ∃ t, p.yMax = .fin t ∧ (∃ k < 50, t = |F (x k) (y k)|) ∧ ∀ k < 50, |F (x k) (y k)| ≤ t
  nyquist : p.nyquist = .fin (1 / (2 * (1000 * s.pX)))

theorem mtfSlice_grid {A : ℝ → ℝ → ℝ} {c ang : ℝ} {x y : ℕ → ℝ}
    (h : sliceOtf (grid 101 fun i j => A (colFreq 101 c j) (rowFreq 101 c i)) ang = .ok (vec 50 fun k => A (x k) (y k))) :
    mtfSlice (grid 101 fun i j => A (colFreq 101 c j) (rowFreq 101 c i)) ang = .ok (vec 50 fun k => |A (x k) (y k)|) := by
  unfold mtfSlice
  rw [h, ok_bind, Except.ok.injEq]
  exact vec_map (g := fun x => |x|) (fun _ => rfl) 50 _

theorem imagePlane_grid (c a : ℝ) :
    imagePlaneFrequency (.fin c) (.fin a)
      = grid 101 fun i j => 0.001 * a * Real.sqrt (colFreq 101 c j ^ 2 + rowFreq 101 c i ^ 2) := by
  unfold imagePlaneFrequency
  rw [rowAxis_vec, freqAxis_vec]
  unfold grid vec
  simp only [List.map_map]
  apply List.map_congr_left
  intro i _
  simp only [Function.comp]
  apply List.map_congr_left
  intro j _
  simp only [Function.comp]
  rw [XR.fin_pow, XR.fin_pow, XR.fin_add, XR.fin_sqrt (by positivity), XR.sci_def, XR.fin_mul, XR.fin_mul]

/-- The plot of a report along any direction in which slices are known. -/
theorem plot_value {s : RealSensor} {g : RealScene} {B : List (Fin 6 → ℝ)} {F : ℝ → ℝ → ℝ} {c : ℝ} {m : Metrics}
    (h : Sampling s g B F c m) (hf : 0 < s.f) (hp : 0 < s.pX) (hc : 0 < c) {t : Sensor} (htf : t.f = .fin s.f)
    {ang : ℝ} {x y : ℕ → ℝ} (hr : ∀ k : ℕ, Real.sqrt (x k ^ 2 + y k ^ 2) = k * (c / 50))
    (hs : ∀ A : ℝ → ℝ → ℝ, sliceOtf (grid 101 fun i j => A (colFreq 101 c j) (rowFreq 101 c i)) ang
      = .ok (vec 50 fun k => A (x k) (y k))) :
    ∃ p, plotCommonMTFs m t ang = .ok p ∧ MtfCurves s g B F c x y p := by
  obtain ⟨inv, e1, e2⟩ := Scal.div_fin (a := .py 1) (b := .py t.f) (x := 1) (y := s.f) rfl (by rw [htf]; rfl) hf.ne'
  have hsf : sliceOtf (imagePlaneFrequency m.cutoffFrequency inv.val) ang
      = .ok (vec 50 fun k => k * (c / 50) / s.f / 1000) := by
    rw [h.cutoff, e2, imagePlane_grid, hs fun u v => 0.001 * (1 / s.f) * Real.sqrt (u ^ 2 + v ^ 2)]
    congr 1
    apply vec_congr
    intro k _
    rw [hr]
    ring
  have hxm : amax (vec 50 fun k => (k : ℝ) * (c / 50) / s.f / 1000) = .ok (.fin (49 * (c / 50) / s.f / 1000)) := by
    rw [amax_increasing (by norm_num)]
    · norm_num
    · intro i _
      push_cast
      gcongr
      linarith
  obtain ⟨ym, hy1, ⟨i, hi, hy2⟩, hy3⟩ := amax_vec (n := 50) (by norm_num) fun k => |F (x k) (y k)|
  have hifov : (Scal.py (m.ifovX * t.f)).val = .fin s.pX := by
    rw [Scal.val_py, h.ifovX, htf, XR.fin_mul, div_mul_cancel₀ _ hf.ne']
  obtain ⟨ny, e3, e4⟩ := Scal.div_fin (a := .py 0.5) (x := 0.5) (y := s.pX) rfl hifov hp.ne'
  have gen : ∀ A : ℝ → ℝ → ℝ, mtfSlice (grid 101 fun i j => A (colFreq 101 c j) (rowFreq 101 c i)) ang
      = .ok (vec 50 fun k => |A (x k) (y k)|) := fun A => mtfSlice_grid (hs A)
  have s_ap : mtfSlice (m.otf.map (·.ap)) ang = .ok (vec 50 fun k => |apertureAt s (s.band B) (x k) (y k)|) := by
    rw [h.aperture]
    exact gen (apertureAt s (s.band B))
  have s_turb : mtfSlice (m.otf.map (·.turb)) ang = .ok (vec 50 fun k => |turbulenceAt s g (s.band B) (s.exposure B) (x k) (y k)|) := by
    rw [h.turbulence]
    exact gen (turbulenceAt s g (s.band B) (s.exposure B))
  have s_det : mtfSlice (m.otf.map (·.det)) ang = .ok (vec 50 fun k => |detectorAt s (x k) (y k)|) := by
    rw [h.detector]
    exact gen (detectorAt s)
  have s_jit : mtfSlice (m.otf.map (·.jit)) ang = .ok (vec 50 fun k => |jitterAt s (x k) (y k)|) := by
    rw [h.jitter]
    exact gen (jitterAt s)
  have s_drft : mtfSlice (m.otf.map (·.drft)) ang = .ok (vec 50 fun k => |driftAt s (s.exposure B) (x k) (y k)|) := by
    rw [h.drift]
    exact gen (driftAt s (s.exposure B))
  have s_wav : mtfSlice (m.otf.map (·.wav)) ang = .ok (vec 50 fun k => |wavefrontAt s (s.band B) (x k) (y k)|) := by
    rw [h.wavefront]
    exact gen (wavefrontAt s (s.band B))
  have s_system : mtfSlice (m.otf.map (·.system)) ang
      = .ok (vec 50 fun k => |opticsAt s g (s.band B) (s.exposure B) (x k) (y k) * F (x k) (y k)|) := by
    rw [h.system]
    exact gen fun u v => opticsAt s g (s.band B) (s.exposure B) u v * F u v
  have s_filter : mtfSlice (m.otf.map (·.filter)) ang = .ok (vec 50 fun k => |F (x k) (y k)|) := by
    rw [h.filter]
    exact gen F
  unfold plotCommonMTFs
  rw [e1, ok_bind, hsf, ok_bind, s_ap, ok_bind, s_turb, ok_bind, s_det, ok_bind, s_jit,
    ok_bind, s_drft, ok_bind, s_wav, ok_bind, s_system, ok_bind, s_filter, ok_bind,
    hxm, ok_bind, hy1, ok_bind, e3, ok_bind]
  refine ⟨_, rfl, rfl, rfl, rfl, rfl, rfl, rfl, rfl, rfl, ?_, rfl, ⟨ym, rfl, ⟨i, hi, hy2.symm⟩, hy3⟩, ?_⟩
  · apply vec_congr
    intro k _
    unfold opticsAt
    simp only [abs_mul]
  · have e5 : (0.5 : ℝ) / s.pX * 0.001 = 1 / (2 * (1000 * s.pX)) := by
      field_simp
      norm_num
    change ny.val * 0.001 = _
    rw [e4, XR.sci_def, XR.fin_mul, e5]

theorem axis_u {c : ℝ} (hc : 0 < c) (k : ℕ) : Real.sqrt (((k : ℝ) * (c / 50)) ^ 2 + (0 : ℝ) ^ 2) = k * (c / 50) := by
  rw [zero_pow two_ne_zero, add_zero, Real.sqrt_sq (by positivity)]

theorem axis_v {c : ℝ} (hc : 0 < c) (k : ℕ) : Real.sqrt ((0 : ℝ) ^ 2 + ((k : ℝ) * (c / 50)) ^ 2) = k * (c / 50) := by
  rw [zero_pow two_ne_zero, zero_add, Real.sqrt_sq (by positivity)]

theorem niirs_sensor (env : Env) (s : Sensor) (sc : Scenario) (interp : Bool) : (niirs env s sc interp).2.1 = s := by
  unfold niirs
  split
  · rfl
  · dsimp only
    split <;> rfl

theorem niirs5_sensor (env : Env) (s : Sensor) (sc : Scenario) (interp : Bool) :
    (niirs5 env s sc interp).2.1.f = s.f ∧ (niirs5 env s sc interp).2.1.readNoise = s.readNoise := by
  unfold niirs5
  split
  · exact ⟨rfl, rfl⟩
  · dsimp only
    split <;> exact ⟨rfl, rfl⟩

/-- **C92** (`plot_common_MTFs` of a `niirs` report): along the u axis (angle 0) and the v axis (angle pi/2) the plot
succeeds; the abscissa is the spatial frequency in cycles per mm, the curves are the moduli of the component MTFs along
that axis, the system curve is their product, and the marker is at the Nyquist frequency of the horizontal pitch. -/
theorem C92_niirs {env : Env} {s : RealSensor} {g : RealScene} {sc : Scenario} {interp : Bool}
    {B : List (Fin 6 → ℝ)} (h : Imaging env s g sc interp B) (hk : s.filterKernel.flatten.sum = 1) :
    ∃ (m : Metrics) (c : ℝ) (F : ℝ → ℝ → ℝ) (p q : MtfPlot),
      (niirs env s.toSensor sc interp).1 = .ok m ∧ s.Cutoff B c ∧ s.Sharpening env.diag F
      ∧ plotCommonMTFs m (niirs env s.toSensor sc interp).2.1 0 = .ok p
      ∧ MtfCurves s g B F c (fun k => k * (c / 50)) (fun _ => 0) p
      ∧ plotCommonMTFs m (niirs env s.toSensor sc interp).2.1 (Real.pi / 2) = .ok q
      ∧ MtfCurves s g B F c (fun _ => 0) (fun k => k * (c / 50)) q := by
  obtain ⟨m, c, eu, ev, φ, rer, eho, n4, gp, h1, -, h3, -⟩ := niirs_value h hk
  have hc := cutoff_pos h.optical.aperture h.wavelengths h3.isCutoff
  have ht : (niirs env s.toSensor sc interp).2.1.f = .fin s.f := by rw [niirs_sensor]; rfl
  obtain ⟨p, p1, p2⟩ := plot_value h3 h.focal h.pitchX hc ht (axis_u hc) fun A => (slices_value A c).1
  obtain ⟨q, q1, q2⟩ := plot_value h3 h.focal h.pitchX hc ht (axis_v hc) fun A => (slices_value A c).2
  exact ⟨m, c, _, p, q, h1, h3.isCutoff, sharpening_filterAt _ h.focal.ne' fun _ => h.pitchX.ne', p1, p2, q1, q2⟩

/-- Turbulence does not exceed one below eight times the cutoff of each wavelength. -/
theorem turbulenceAt_range {s : RealSensor} (hD : 0 < s.D) {g : RealScene} (hg : g.Viewing) {pairs : List (ℝ × ℝ)}
    (hb : Band pairs) {t : ℝ} (ht : 0 ≤ g.aircraftSpeed * (t * s.nTdi)) {u v : ℝ}
    (h8 : ∀ p ∈ pairs, p.1 * Real.sqrt (u ^ 2 + v ^ 2) ≤ 8 * s.D) :
    0 ≤ turbulenceAt s g pairs t u v ∧ turbulenceAt s g pairs t u v ≤ 1 := by
  unfold turbulenceAt
  split
  · rename_i h
    have hr := fun (p : ℝ × ℝ) (hp : p ∈ pairs) =>
      turbMix_range (hb.positive p hp) hD (fried_pos_of hg h.le (hb.positive p hp)) ht rfl (h8 p hp)
    exact ⟨le_wmean hb.weights hb.total fun p hp => (hr p hp).1.le, wmean_le hb.weights hb.total fun p hp => (hr p hp).2⟩
  · exact ⟨zero_le_one, le_rfl⟩

/-- **C92** (`plot_common_MTFs` of a `niirs5` report): the same with no image processing, so the top of the plot is 1. -/
theorem C92_niirs5 {env : Env} {s : RealSensor} {g : RealScene} {sc : Scenario} {interp : Bool}
    {B : List (Fin 6 → ℝ)} (h : Imaging env s g sc interp B) :
    ∃ (m : Metrics) (c : ℝ) (p q : MtfPlot),
      (niirs5 env s.toSensor sc interp).1 = .ok m ∧ s.Cutoff B c
      ∧ plotCommonMTFs m (niirs5 env s.toSensor sc interp).2.1 0 = .ok p
      ∧ MtfCurves s g B (fun _ _ => 1) c (fun k => k * (c / 50)) (fun _ => 0) p ∧ p.yMax = .fin 1
      ∧ plotCommonMTFs m (niirs5 env s.toSensor sc interp).2.1 (Real.pi / 2) = .ok q
      ∧ MtfCurves s g B (fun _ _ => 1) c (fun _ => 0) (fun k => k * (c / 50)) q ∧ q.yMax = .fin 1 := by
  obtain ⟨m, c, φ, gw, rer, h1, -, h3, -⟩ := niirs5_value h
  have hc := cutoff_pos h.optical.aperture h.wavelengths h3.isCutoff
  have ht : (niirs5 env s.toSensor sc interp).2.1.f = .fin s.f := by rw [(niirs5_sensor _ _ _ _).1]; rfl
  obtain ⟨p, p1, p2⟩ := plot_value h3 h.focal h.pitchX hc ht (axis_u hc) fun A => (slices_value A c).1
  obtain ⟨q, q1, q2⟩ := plot_value h3 h.focal h.pitchX hc ht (axis_v hc) fun A => (slices_value A c).2
  refine ⟨m, c, p, q, h1, h3.isCutoff, p1, p2, ?_, q1, q2, ?_⟩
  · obtain ⟨t, t1, ⟨k, -, t2⟩, -⟩ := p2.top
    rw [t1, t2, abs_one]
  · obtain ⟨t, t1, ⟨k, -, t2⟩, -⟩ := q2.top
    rw [t1, t2, abs_one]

/-- All eight curves lie between 0 and the top of the plot. -/
def Spec.Fits8 (p : MtfPlot) : Prop :=
  ∃ top : ℝ, p.yMax = .fin top ∧ ∀ l ∈ [p.aperture, p.turbulence, p.detector, p.jitter, p.drift, p.wavefront,
    p.processing, p.system], ∃ a : ℕ → ℝ, l = vec 50 a ∧ ∀ k < 50, 0 ≤ a k ∧ a k ≤ top

theorem curves_fit {s : RealSensor} {g : RealScene} {B : List (Fin 6 → ℝ)} {c : ℝ} {x y : ℕ → ℝ} {p : MtfPlot}
    (h : MtfCurves s g B (fun _ _ => 1) c x y p) (hy : p.yMax = .fin 1) (ho : s.Optical) (hpv : 0 ≤ s.pv) (hg : g.Viewing)
    (hb : Band (s.band B)) (ht : 0 ≤ g.aircraftSpeed * (s.exposure B * s.nTdi))
    (hcut : s.Cutoff B c) (h8 : ∀ a ∈ s.band B, ∀ b ∈ s.band B, a.1 ≤ 8 * b.1)
    (hr : ∀ k : ℕ, Real.sqrt (x k ^ 2 + y k ^ 2) = k * (c / 50)) : Fits8 p := by
  have hT : ∀ k < 50, 0 ≤ turbulenceAt s g (s.band B) (s.exposure B) (x k) (y k)
      ∧ turbulenceAt s g (s.band B) (s.exposure B) (x k) (y k) ≤ 1 := by
    intro k hk
    apply turbulenceAt_range ho.aperture hg hb ht
    intro a ha
    obtain ⟨lam, ⟨b, hbm, rfl⟩, -, rfl⟩ := hcut
    have hb0 := hb.positive b hbm
    have ha0 := hb.positive a ha
    have hD := ho.aperture
    have hk' : (k : ℝ) ≤ 50 := by exact_mod_cast hk.le
    rw [hr]
    have e1 : (k : ℝ) * (s.D / b.1 / 50) ≤ s.D / b.1 := by
      have : 0 ≤ s.D / b.1 := by positivity
      nlinarith
    calc a.1 * (k * (s.D / b.1 / 50)) ≤ 8 * b.1 * (s.D / b.1) :=
          mul_le_mul (h8 a ha b hbm) e1 (by positivity) (by positivity)
      _ = 8 * s.D := by field_simp
  have r1 : ∀ k < 50, |apertureAt s (s.band B) (x k) (y k)| ≤ 1 := fun k _ => by
    obtain ⟨a, b⟩ := apertureAt_range ho hb (x k) (y k); rwa [abs_of_nonneg a]
  have r2 : ∀ k < 50, |turbulenceAt s g (s.band B) (s.exposure B) (x k) (y k)| ≤ 1 := fun k hk => by
    rw [abs_of_nonneg (hT k hk).1]; exact (hT k hk).2
  have r3 : ∀ k < 50, |detectorAt s (x k) (y k)| ≤ 1 := fun k _ => detectorAt_abs _ _ _
  have r4 : ∀ k < 50, |jitterAt s (x k) (y k)| ≤ 1 := fun k _ => by
    obtain ⟨a, b⟩ := jitterAt_range s (x k) (y k); rwa [abs_of_pos a]
  have r5 : ∀ k < 50, |driftAt s (s.exposure B) (x k) (y k)| ≤ 1 := fun k _ => driftAt_abs _ _ _ _
  have r6 : ∀ k < 50, |wavefrontAt s (s.band B) (x k) (y k)| ≤ 1 := fun k _ => by
    obtain ⟨a, b⟩ := wavefrontAt_range hpv hb (x k) (y k); rwa [abs_of_nonneg a]
  refine ⟨1, hy, fun l hl => ?_⟩
  simp only [List.mem_cons, List.not_mem_nil, or_false] at hl
  rcases hl with rfl | rfl | rfl | rfl | rfl | rfl | rfl | rfl
  · exact ⟨_, h.aperture, fun k hk => ⟨abs_nonneg _, r1 k hk⟩⟩
  · exact ⟨_, h.turbulence, fun k hk => ⟨abs_nonneg _, r2 k hk⟩⟩
  · exact ⟨_, h.detector, fun k hk => ⟨abs_nonneg _, r3 k hk⟩⟩
  · exact ⟨_, h.jitter, fun k hk => ⟨abs_nonneg _, r4 k hk⟩⟩
  · exact ⟨_, h.drift, fun k hk => ⟨abs_nonneg _, r5 k hk⟩⟩
  · exact ⟨_, h.wavefront, fun k hk => ⟨abs_nonneg _, r6 k hk⟩⟩
  · exact ⟨_, h.processing, fun k hk => ⟨abs_nonneg _, by simp⟩⟩
  · refine ⟨_, h.system, fun k hk => ⟨by positivity, ?_⟩⟩
    rw [abs_one, mul_one]
    have m1 := fun {a b : ℝ} (ha : a ≤ 1) (hb0 : 0 ≤ b) (hb1 : b ≤ 1) => mul_le_one₀ ha hb0 hb1
    exact m1 (m1 (m1 (m1 (m1 (r1 k hk) (abs_nonneg _) (r2 k hk)) (abs_nonneg _) (r3 k hk)) (abs_nonneg _) (r4 k hk))
      (abs_nonneg _) (r5 k hk)) (abs_nonneg _) (r6 k hk)

/-- **C92** (nothing is cut off): in both plots of a `niirs5` report every curve lies within the axes that the plot
sets, if no wavelength of the band is more than eight times another. -/
theorem C92_window {env : Env} {s : RealSensor} {g : RealScene} {sc : Scenario} {interp : Bool}
    {B : List (Fin 6 → ℝ)} (h : Imaging env s g sc interp B) (hpv : 0 ≤ s.pv)
    (ht : 0 ≤ g.aircraftSpeed * (s.exposure B * s.nTdi))
    (h8 : ∀ a ∈ s.band B, ∀ b ∈ s.band B, a.1 ≤ 8 * b.1) :
    ∃ (m : Metrics) (p q : MtfPlot), (niirs5 env s.toSensor sc interp).1 = .ok m
      ∧ plotCommonMTFs m (niirs5 env s.toSensor sc interp).2.1 0 = .ok p ∧ Fits8 p
      ∧ plotCommonMTFs m (niirs5 env s.toSensor sc interp).2.1 (Real.pi / 2) = .ok q ∧ Fits8 q := by
  obtain ⟨m, c, p, q, h1, h2, h3, h4, h5, h6, h7, h9⟩ := C92_niirs5 h
  have hb := imaging_band h.wavelengths h.distinct h.signal
  have hc := cutoff_pos h.optical.aperture h.wavelengths h2
  exact ⟨m, p, q, h1, h3, curves_fit h4 h5 h.optical hpv h.viewing hb ht h2 h8 (axis_u hc),
    h6, curves_fit h7 h9 h.optical hpv h.viewing hb ht h2 h8 (axis_v hc)⟩

/-! ## Noise terms -/

/-- The seven bars and the title in real numbers. -/
structure Spec.NoiseBars (s : RealSensor) (B : List (Fin 6 → ℝ)) (p : NoisePlot) : Prop where
  bars : ∃ total scene path own dark quant : ℝ,
    p.bars = [.fin total, .fin scene, .fin path, .fin own, .fin dark, .fin quant, .fin s.readNoise]
    ∧ 0 ≤ total ∧ 0 ≤ scene ∧ 0 ≤ path ∧ 0 ≤ own ∧ 0 ≤ dark
    ∧ total ^ 2 = scene ^ 2 + path ^ 2 + own ^ 2 + dark ^ 2 + quant ^ 2 + s.readNoise ^ 2
        + (s.otherNoise.map (· ^ 2)).sum
  electrons : p.electrons = ⌊s.cut B * s.electrons B s.targetAt⌋
  contrast : |(p.contrast : ℝ) - s.cut B * (s.electrons B s.targetAt - s.electrons B s.backgroundAt)| < 1
  well : p.wellPercent = ⌊s.cut B * s.brightest B / s.maxN * 100⌋
  notOverfilled : 0 ≤ p.wellPercent ∧ (p.wellPercent : ℝ) ≤ 100 * s.maxWellFill

theorem pyInt_nonneg {x : ℝ} (h : 0 ≤ x) : pyInt (.fin x) = .ok ⌊x⌋ := by
  change Except.ok (if 0 ≤ x then ⌊x⌋ else ⌈x⌉) = _
  rw [if_pos h]

theorem pyInt_near (x : ℝ) : ∃ n : ℤ, pyInt (.fin x) = .ok n ∧ |(n : ℝ) - x| < 1 := by
  unfold pyInt
  refine ⟨_, rfl, ?_⟩
  rw [abs_lt]
  split_ifs
  · constructor <;> linarith [Int.floor_le x, Int.lt_floor_add_one x]
  · constructor <;> linarith [Int.le_ceil x, Int.ceil_lt_add_one x]

theorem noise_plot_value {s : RealSensor} {g : RealScene} {B : List (Fin 6 → ℝ)} {m : Metrics} (hs : s.Usable)
    (hB : ∀ a ∈ B, 0 < a 0) (hM : 0 < s.maxN) (hW : 0 ≤ s.maxWellFill) (hb : 0 < s.bitDepth)
    (hn : 0 ≤ s.brightest B) (hc : Counting s B) (hr : Radiometry s g B m)
    (hp : m.pathNoise = XR.sqrt (.fin (s.photons B pathAt)))
    (hq : m.sceneNoise = XR.sqrt (XR.max (XR.sqrt (.fin (s.photons B s.targetAt)))
      (XR.sqrt (.fin (s.photons B s.backgroundAt))) ^ 2 - XR.sqrt (.fin (s.photons B pathAt)) ^ 2))
    {t : Sensor} (ht : t.readNoise = .fin s.readNoise) :
    ∃ p, plotNoiseTerms m t = .ok p ∧ NoiseBars s B p := by
  obtain ⟨p, q, d, e, sg, b1, b2, b3, b4, b5, b6, b7, b8, b9, b10, b11, b12, b13, b14, b15⟩ :=
    breakout_value hs hB hM hW hb hn hc hr hp hq
  have hl : ∀ i < B.length, 0 < B.getD i 0 0 := fun i hi => hB _ (getD_mem hi)
  obtain ⟨m', h1, h2, h3, -⟩ := snr_total hs hl (fun i => s.targetAt (B.getD i 0)) (fun i => s.backgroundAt (B.getD i 0))
  have hdet := hr.detector
  have w1 : m.radianceWavelengths = vec B.length fun i => B.getD i 0 0 := by rw [hr.wavelengths, ← map_vec B fun a => a 0]
  have w2 : m.tgtRadiance = vec B.length fun i => s.targetAt (B.getD i 0) := by rw [hr.target, ← map_vec]
  have w3 : m.bkgRadiance = vec B.length fun i => s.backgroundAt (B.getD i 0) := by rw [hr.background, ← map_vec]
  rw [w1, w2, w3] at hdet
  have hm : m' = m.snr := by rw [h1] at hdet; exact Except.ok.inj hdet
  subst hm
  obtain ⟨τ, n1, n2, wf, t1, t2, t3, t4, t5, t6, t7, t8, -⟩ := C18_well_fill hdet h2 h3 rfl rfl rfl rfl hM hW
  have hτ : τ = s.exposure B := by
    have := hr.exposure
    rw [t1] at this
    exact XR.fin.inj this
  have hcut := cut_nonneg (s := s) (B := B) hM hW
  have e1 : n1 = s.cut B * s.electrons B s.targetAt := by
    rw [t5, hτ]; unfold RealSensor.electrons RealSensor.exposure; ring
  have e2 : n2 = s.cut B * s.electrons B s.backgroundAt := by
    rw [t6, hτ]; unfold RealSensor.electrons RealSensor.exposure; ring
  have emax : max n1 n2 = s.cut B * s.brightest B := by
    rw [e1, e2]; unfold RealSensor.brightest; rw [mul_max_of_nonneg _ _ hcut]
  have hn1 : 0 ≤ n1 := by
    rw [e1, electrons_split, ← b14, ← b13]
    have hP : s.photons B pathAt ≤ s.photons B s.targetAt := photons_mono hM hW hB hc
      fun a ha => path_le_target (hB a ha) (hc.transmission a ha) (hc.reflected a ha)
    rw [← b11] at hP
    linarith [sq_nonneg p, sq_nonneg e, sq_nonneg d]
  have hwf : 0 ≤ wf * 100 := by
    rw [t7, emax]
    exact mul_nonneg (div_nonneg (mul_nonneg hcut hn) hM.le) (by norm_num)
  obtain ⟨z, z1, z2⟩ := pyInt_near (n1 - n2)
  obtain ⟨_, _, -, -, -, -, -, -, -, -, -, -, -, -, -, q1, -⟩ := snr_inv hdet
  obtain ⟨sn, qn, tot, u1, u2, u3, -, u5, u6, u7, u8⟩ := C20_noise_budget (M := s.maxN) (r := s.readNoise)
    (o := s.otherNoise) hdet t2 t3 hn1 rfl rfl rfl hb
  have hsn : sn = sg := by rw [u1] at b5; exact XR.fin.inj b5
  subst hsn
  refine ⟨⟨[.fin tot, .fin q, .fin p, .fin e, .fin d, .fin qn, .fin s.readNoise], ⌊n1⌋, z, ⌊wf * 100⌋⟩, ?_, ?_⟩
  · unfold plotNoiseTerms
    have e100 : (100 : XR) = .fin 100 := rfl
    rw [t2, t3, t4, XR.fin_sub, e100, XR.fin_mul, pyInt_nonneg hn1, ok_bind, z1, ok_bind, pyInt_nonneg hwf, ok_bind, u3, b2,
      b1, b4, b3, u2, ht]
  · refine ⟨⟨tot, q, p, e, d, qn, rfl, u5, b7, b6, b9, b8, ?_⟩, ?_, ?_, ?_, ?_, ?_⟩
    · rw [u8, b15]; ring
    · rw [← e1]
    · rw [mul_sub, ← e1, ← e2]; exact z2
    · dsimp only
      rw [t7, emax]
    · exact Int.floor_nonneg.mpr hwf
    · exact (Int.floor_le _).trans (by linarith)

/-- **C92** (`plot_noise_terms`): for a physical sensor and nonnegative radiances the plot of a `niirs` report succeeds;
the square of the first bar is the sum of the squares of the others and of the sensor's `other_noise` terms, which have
no bar; the title gives the whole photoelectrons of the target, the contrast to within one, and the well fill in whole
percent, which never exceeds `max_well_fill`. -/
theorem C92_noise_niirs {env : Env} {s : RealSensor} {g : RealScene} {sc : Scenario} {interp : Bool}
    {B : List (Fin 6 → ℝ)} (h : Imaging env s g sc interp B) (hk : s.filterKernel.flatten.sum = 1)
    (hc : Counting s B) :
    ∃ (m : Metrics) (p : NoisePlot), (niirs env s.toSensor sc interp).1 = .ok m
      ∧ plotNoiseTerms m (niirs env s.toSensor sc interp).2.1 = .ok p ∧ NoiseBars s B p := by
  obtain ⟨m, c, eu, ev, φ, rer, eho, n4, gp, h1, h2, -, h4, h5, -⟩ := niirs_value h hk
  obtain ⟨p, p1, p2⟩ := noise_plot_value h.usable h.wavelengths h.well h.fill h.bits h.counts hc h2 h4 h5
    (t := (niirs env s.toSensor sc interp).2.1) (by rw [niirs_sensor]; rfl)
  exact ⟨m, p, h1, p1, p2⟩

/-- **C92** (`plot_noise_terms`): the same for `niirs5`. -/
theorem C92_noise_niirs5 {env : Env} {s : RealSensor} {g : RealScene} {sc : Scenario} {interp : Bool}
    {B : List (Fin 6 → ℝ)} (h : Imaging env s g sc interp B) (hc : Counting s B) :
    ∃ (m : Metrics) (p : NoisePlot), (niirs5 env s.toSensor sc interp).1 = .ok m
      ∧ plotNoiseTerms m (niirs5 env s.toSensor sc interp).2.1 = .ok p ∧ NoiseBars s B p := by
  obtain ⟨m, c, φ, gw, rer, h1, h2, -, h4, h5, -⟩ := niirs5_value h
  obtain ⟨p, p1, p2⟩ := noise_plot_value h.usable h.wavelengths h.well h.fill h.bits h.counts hc h2 h4 h5
    (t := (niirs5 env s.toSensor sc interp).2.1) (by rw [(niirs5_sensor _ _ _ _).2]; rfl)
  exact ⟨m, p, h1, p1, p2⟩

/-! ## The reference image -/

/-- **C92** (`RefImage.show`): the image is drawn centred on the origin, each pixel `gsd` metres wide and high. -/
theorem C92_extent (r : RefImage) {gsd : ℝ} (hg : r.gsd = .fin gsd) :
    ∃ a b : ℝ, r.extent = (.fin (-a), .fin a, .fin (-b), .fin b)
      ∧ a - -a = r.img.w * gsd ∧ b - -b = r.img.h * gsd := by
  refine ⟨r.img.w / 2 * gsd, r.img.h / 2 * gsd, ?_, by ring, by ring⟩
  unfold RefImage.extent
  have e2 : (2 : XR) = .fin 2 := rfl
  rw [hg, e2, XR.fin_neg, XR.fin_neg, XR.fin_div _ two_ne_zero, XR.fin_div _ two_ne_zero, XR.fin_div _ two_ne_zero,
    XR.fin_div _ two_ne_zero, XR.fin_mul, XR.fin_mul, XR.fin_mul, XR.fin_mul]
  congr 2
  · ring
  · congr 2; ring

/-! ## Examples -/

/-- The plots of a concrete report. -/
example : ∃ (m : Metrics) (c : ℝ) (F : ℝ → ℝ → ℝ) (p : MtfPlot) (q : NoisePlot),
    (niirs demoEnv demoSensor.toSensor demoScenario false).1 = .ok m
      ∧ plotCommonMTFs m (niirs demoEnv demoSensor.toSensor demoScenario false).2.1 0 = .ok p
      ∧ MtfCurves demoSensor demoScene demoInBand F c (fun k => k * (c / 50)) (fun _ => 0) p
      ∧ p.nyquist = .fin 50
      ∧ plotNoiseTerms m (niirs demoEnv demoSensor.toSensor demoScenario false).2.1 = .ok q
      ∧ NoiseBars demoSensor demoInBand q := by
  obtain ⟨m, c, F, p, -, h1, -, -, h4, h5, -⟩ := C92_niirs demo_imaging (by simp [demoSensor])
  obtain ⟨m', q, g1, g2, g3⟩ := C92_noise_niirs demo_imaging (by simp [demoSensor]) demo_counting
  rw [h1, Except.ok.injEq] at g1
  subst g1
  refine ⟨m, c, F, p, q, h1, h4, h5, ?_, g2, g3⟩
  rw [h5.nyquist]
  norm_num [demoSensor]

/-- All curves of the concrete `niirs5` report fit. -/
example : ∃ (m : Metrics) (p : MtfPlot), (niirs5 demoEnv demoSensor.toSensor demoScenario false).1 = .ok m
      ∧ plotCommonMTFs m (niirs5 demoEnv demoSensor.toSensor demoScenario false).2.1 0 = .ok p ∧ Fits8 p := by
  obtain ⟨m, p, -, h1, h2, h3, -⟩ := C92_window demo_imaging (by norm_num [demoSensor])
    (mul_nonneg (by norm_num [demoScene]) (mul_nonneg (exposure_nonneg (by norm_num [demoSensor]) (by norm_num [demoSensor])
      (by norm_num [demoSensor])) (by norm_num [demoSensor])))
    (fun a ha b hb => by
      obtain ⟨x, hx, rfl⟩ := List.mem_map.mp (List.mem_filter.mp ha).1
      obtain ⟨y, hy, rfl⟩ := List.mem_map.mp (List.mem_filter.mp hb).1
      have h1 := (demoInBand_mem hx).2.1
      have h2 := (demoInBand_mem hy).1
      dsimp only
      linarith)
  exact ⟨m, p, h1, h2, h3⟩

end PyBSM
