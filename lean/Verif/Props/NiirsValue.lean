import Verif.Lemmas.ImagingOtf
import Verif.Lemmas.Giqe
import Verif.Props.Slice
import Verif.Props.Scalars
import Verif.Props.Geometry

/-!
# C70-C72: what `niirs` and `niirs5` report
-/

noncomputable section

open Classical

namespace PyBSM

open Spec

theorem overshoot_value (M : ℕ → ℝ) {df : ℝ} (hdf : 0 ≤ df) (ifov : ℝ) :
    ∃ e, edgeHeightOvershoot (vec 50 M) (.fin df) (.fin ifov) = .ok (.fin e) ∧ IsOvershoot M df ifov e := by
  obtain ⟨e, he, h1, h2⟩ := eho_value 50 M hdf ifov
  refine ⟨e, he, ?_, ?_⟩
  · intro h
    have := h1 h
    rw [this]
    congr 1; norm_num
  · exact h2

/-- The two slices of the MTF grid that the edge calculations use. -/
theorem slices_value (M : ℝ → ℝ → ℝ) (c : ℝ) :
    sliceOtf (grid 101 fun i j => M (colFreq 101 c j) (rowFreq 101 c i)) 0 = .ok (vec 50 (alongU M (c / 50)))
    ∧ sliceOtf (grid 101 fun i j => M (colFreq 101 c j) (rowFreq 101 c i)) (Real.pi / 2)
      = .ok (vec 50 (alongV M (c / 50))) := by
  have h0 : rowFreq 101 c 50 = 0 := by unfold rowFreq; norm_num
  have h1 : colFreq 101 c 50 = 0 := by unfold colFreq; norm_num
  constructor
  · rw [C48_u_axis (m := 50) (by norm_num)]
    congr 1
    apply vec_congr
    intro k _
    rw [h0]
    unfold alongU colFreq
    congr 1
    push_cast; ring
  · rw [C48_v_axis (m := 50) (by norm_num)]
    congr 1
    apply vec_congr
    intro k hk
    rw [h1]
    unfold alongV rowFreq
    congr 1
    rw [Nat.cast_sub (by omega)]
    push_cast; ring

theorem rerOf_value (M : ℕ → ℝ) {df : ℝ} (hdf : 0 ≤ df) (ifov : ℝ) :
    relativeEdgeResponse (vec 50 M) (.fin df) (.fin ifov) = .ok (.fin (rerOf M df ifov)) := by
  rw [rer_value 50 M hdf]
  congr 2
  unfold rerOf
  rw [edge_neg, show (0.5 : ℝ) = 1 / 2 by norm_num]
  ring

theorem cutoff_pos {s : RealSensor} {B : List (Fin 6 → ℝ)} {c : ℝ} (hD : 0 < s.D) (hB : ∀ a ∈ B, 0 < a 0)
    (h : s.Cutoff B c) : 0 < c := by
  obtain ⟨lam, ⟨p, hp, rfl⟩, -, rfl⟩ := h
  obtain ⟨a, ha, he⟩ := List.mem_map.mp (List.mem_filter.mp hp).1
  have : 0 < p.1 := by rw [← he]; exact hB a ha
  positivity

/-- What the loaded and cropped atmosphere is. -/
theorem imaging_atm {env : Env} {s : RealSensor} {g : RealScene} {sc : Scenario} {interp : Bool}
    {B : List (Fin 6 → ℝ)} (h : Imaging env s g sc interp B) :
    niirsAtm env s.toSensor sc interp = .ok (realAtm B) := by
  obtain ⟨rows, h1, rfl⟩ := h.atmosphere
  unfold niirsAtm
  cases interp
  · simp only [Bool.false_eq_true, if_false] at h1 ⊢
    rw [h1, ok_bind]
    exact bandCrop_real h.usable.transmission_ne rows
  · simp only [if_true] at h1 ⊢
    rw [h1, ok_bind]
    exact bandCrop_real h.usable.transmission_ne rows

theorem slant_pos_of {g : RealScene} (hg : g.Viewing) : 0 < g.slant :=
  lt_of_le_of_ne (Real.sqrt_nonneg _) (Ne.symm hg.away)

/-- The sine of the elevation angle that is used. -/
theorem sin_elev_pos {g : RealScene} (hg : g.Viewing) (ha : 0 < g.altitude) {φ : ℝ}
    (h : IsAngle 0 (pointAt g.altitude 0) (pointAt 0 g.groundRange) φ) : 0 < Real.sin (Real.pi / 2 - φ) := by
  rw [Real.sin_pi_div_two_sub]
  obtain ⟨-, -, h⟩ := h
  have hR : (0 : ℝ) < R := by unfold R; norm_num
  have hd : 0 < pdist (pointAt g.altitude 0) (pointAt 0 g.groundRange) := slant_pos_of hg
  have h0 : 0 ≤ pdist (pointAt g.altitude 0) 0 := Real.sqrt_nonneg _
  have hdot : 0 < dot (0 - pointAt g.altitude 0) (pointAt 0 g.groundRange - pointAt g.altitude 0) := by
    unfold dot pointAt
    simp only [zero_div, Real.sin_zero, Real.cos_zero, mul_zero, mul_one, Prod.fst_sub, Prod.snd_sub, Prod.fst_zero,
      Prod.snd_zero, add_zero, sub_zero, zero_sub, zero_mul, zero_add, Prod.fst_neg, Prod.snd_neg, neg_zero]
    have hc := Real.cos_le_one (g.groundRange / R)
    have : R * Real.cos (g.groundRange / R) ≤ R := by nlinarith
    nlinarith
  rw [← h] at hdot
  by_contra hn
  have := mul_nonneg h0 hd.le
  nlinarith [not_lt.mp hn]

/-! ## The whole of `niirs` -/

theorem niirs_value {env : Env} {s : RealSensor} {g : RealScene} {sc : Scenario} {interp : Bool}
    {B : List (Fin 6 → ℝ)} (h : Imaging env s g sc interp B) (hk : s.filterKernel.flatten.sum = 1) :
    ∃ (m : Metrics) (c eu ev φ : ℝ) (rer eho n4 gp : XR),
      (niirs env s.toSensor sc interp).1 = .ok m
      ∧ Radiometry s g B m
      ∧ Sampling s g B (filterAt env.diag s) c m
      ∧ m.pathNoise = XR.sqrt (.fin (s.photons B pathAt))
      ∧ m.sceneNoise = XR.sqrt (XR.max (XR.sqrt (.fin (s.photons B s.targetAt)))
          (XR.sqrt (.fin (s.photons B s.backgroundAt))) ^ 2 - XR.sqrt (.fin (s.photons B pathAt)) ^ 2)
      ∧ IsAngle 0 (pointAt g.altitude 0) (pointAt 0 g.groundRange) φ ∧ m.elevAngle = .fin (Real.pi / 2 - φ)
      ∧ IsOvershoot (alongU (s.mtf g B (filterAt env.diag s)) (c / 50)) (c / 50) (s.pX / s.f) eu
      ∧ IsOvershoot (alongV (s.mtf g B (filterAt env.diag s)) (c / 50)) (c / 50) (s.pY / s.f) ev
      ∧ rer = XR.sqrt (.fin (rerOf (alongU (s.mtf g B (filterAt env.diag s)) (c / 50)) (c / 50) (s.pX / s.f)
            * rerOf (alongV (s.mtf g B (filterAt env.diag s)) (c / 50)) (c / 50) (s.pY / s.f)))
      ∧ eho = XR.sqrt (.fin (eu * ev))
      ∧ m.giqe34 = some (.fin (s.pY / s.f * g.slant),
          .fin (Real.sqrt (s.pX / s.f * g.slant * (s.pY / s.f * g.slant))), rer, eho,
          .fin (Real.sqrt (s.filterKernel.flatten.map (· ^ 2)).sum), n4, gp)
      ∧ giqe3 (.np rer) (.np (.fin (Real.sqrt (s.pX / s.f * g.slant * (s.pY / s.f * g.slant))))) (.np eho)
          (.np (.fin (Real.sqrt (s.filterKernel.flatten.map (· ^ 2)).sum)))
          (.np (.fin (Real.sqrt s.frameStacks * s.contrastSNR B))) = .ok m.niirs
      ∧ giqe4 (.np rer) (.np (.fin (Real.sqrt (s.pX / s.f * g.slant * (s.pY / s.f * g.slant))))) (.np eho)
          (.np (.fin (Real.sqrt (s.filterKernel.flatten.map (· ^ 2)).sum)))
          (.np (.fin (Real.sqrt s.frameStacks * s.contrastSNR B))) (.fin (Real.pi / 2 - φ)) = .ok (n4, gp) := by
  obtain ⟨mid, c, e0, m1, m2, m3, m4, m5, m6, m7, m8, m9, m10, m11, m12, m13⟩ :=
    niirsMid_value h.usable h.wavelengths h.signal h.well h.fill h.bits h.counts
  have hc := cutoff_pos h.optical.aperture h.wavelengths m10
  have hdf : 0 ≤ c / 50 := by positivity
  have hb := imaging_band h.wavelengths h.distinct h.signal
  have hsl := slant_pos_of h.viewing
  have hslant : niirsSlantRange sc = .fin g.slant := h.scene.slant_eq
  have hp : 1 < s.filterKernel.length → s.pX ≠ 0 := fun _ => h.pitchX.ne'
  obtain ⟨φ, hφ, hA⟩ := C11_angle_at_sensor (ht := 0) (hs := g.altitude) (g := g.groundRange) h.viewing.above
    h.viewing.away (sH := .py 0) (sS := .py sc.altitude) (sB := .np (.fin g.slant)) rfl h.scene.altitude
    (C10_distance 0 g.altitude g.groundRange).symm
  obtain ⟨eu, heu, ou⟩ := overshoot_value (alongU (s.mtf g B (filterAt env.diag s)) (c / 50)) hdf (s.pX / s.f)
  obtain ⟨ev, hev, ov⟩ := overshoot_value (alongV (s.mtf g B (filterAt env.diag s)) (c / 50)) hdf (s.pY / s.f)
  have hgrid := gridOTFs_value env h.optical h.viewing h.scene.sky hb (s.exposure B) 101 c hp
  have habs := grid_abs env.diag s g (s.band B) (s.exposure B) 101 c
  obtain ⟨s1, s2⟩ := slices_value (s.mtf g B (filterAt env.diag s)) c
  have hx := Scal.div_fin (a := .py s.toSensor.pX) (b := .py s.toSensor.f) (x := s.pX) (y := s.f) rfl rfl h.focal.ne'
  have hy := Scal.div_fin (a := .py s.toSensor.pY) (b := .py s.toSensor.f) (x := s.pY) (y := s.f) rfl rfl h.focal.ne'
  obtain ⟨qx, x1, x2⟩ := hx
  obtain ⟨qy, y1, y2⟩ := hy
  have hgs : 0 ≤ s.pX / s.f * g.slant * (s.pY / s.f * g.slant) := by
    have := h.pitchX; have := h.pitchY; have := h.focal; positivity
  have hedge : giqeEdgeTerms (grid 101 fun i j => s.mtf g B (filterAt env.diag s) (colFreq 101 c j)
        (rowFreq 101 c i)) (.fin (c / 50)) (.fin (s.pX / s.f)) (.fin (s.pY / s.f))
      = .ok (XR.sqrt (.fin (rerOf (alongU (s.mtf g B (filterAt env.diag s)) (c / 50)) (c / 50) (s.pX / s.f)
            * rerOf (alongV (s.mtf g B (filterAt env.diag s)) (c / 50)) (c / 50) (s.pY / s.f))),
          XR.sqrt (.fin (eu * ev))) := by
    unfold giqeEdgeTerms
    rw [s1, ok_bind, s2, ok_bind, rerOf_value _ hdf, ok_bind, rerOf_value _ hdf, ok_bind, heu, ok_bind, hev, ok_bind,
      XR.fin_mul, XR.fin_mul]
  obtain ⟨n3, hn3⟩ : ∃ n3, giqe3 (.np (XR.sqrt (.fin (rerOf (alongU (s.mtf g B (filterAt env.diag s)) (c / 50)) (c / 50) (s.pX / s.f)
            * rerOf (alongV (s.mtf g B (filterAt env.diag s)) (c / 50)) (c / 50) (s.pY / s.f)))))
          (.np (.fin (Real.sqrt (s.pX / s.f * g.slant * (s.pY / s.f * g.slant))))) (.np (XR.sqrt (.fin (eu * ev))))
          (.np (.fin (Real.sqrt (s.filterKernel.flatten.map (· ^ 2)).sum)))
          (.np (.fin (Real.sqrt s.frameStacks * s.contrastSNR B))) = .ok n3 := ⟨_, rfl⟩
  obtain ⟨⟨n4, gp⟩, hn4⟩ : ∃ n4, giqe4 (.np (XR.sqrt (.fin (rerOf (alongU (s.mtf g B (filterAt env.diag s)) (c / 50)) (c / 50) (s.pX / s.f)
            * rerOf (alongV (s.mtf g B (filterAt env.diag s)) (c / 50)) (c / 50) (s.pY / s.f)))))
          (.np (.fin (Real.sqrt (s.pX / s.f * g.slant * (s.pY / s.f * g.slant))))) (.np (XR.sqrt (.fin (eu * ev))))
          (.np (.fin (Real.sqrt (s.filterKernel.flatten.map (· ^ 2)).sum)))
          (.np (.fin (Real.sqrt s.frameStacks * s.contrastSNR B))) (.fin (Real.pi / 2 - φ)) = .ok n4 := ⟨_, rfl⟩
  have hng : noiseGain s.toSensor.filterKernel = .ok (.fin (Real.sqrt (s.filterKernel.flatten.map (· ^ 2)).sum)) := by
    have e : s.toSensor.filterKernel = s.filterKernel := rfl
    rw [e, noiseGain_eq, if_pos hk]
  have hst : XR.sqrt s.toSensor.frameStacks * .fin (s.contrastSNR B) = .fin (Real.sqrt s.frameStacks * s.contrastSNR B) := by
    have e : s.toSensor.frameStacks = .fin s.frameStacks := rfl
    rw [e, XR.fin_sqrt h.frames, XR.fin_mul]
  have hgm : XR.sqrt (.fin (s.pX / s.f * g.slant * (s.pY / s.f * g.slant)))
      = .fin (Real.sqrt (s.pX / s.f * g.slant * (s.pY / s.f * g.slant))) := XR.fin_sqrt hgs
  change giqeEdgeTerms (grid 101 fun i j => |opticsAt s g (s.band B) (s.exposure B) (colFreq 101 c j) (rowFreq 101 c i)
          * filterAt env.diag s (colFreq 101 c j) (rowFreq 101 c i)|) _ _ _ = _ at hedge
  rw [niirs_result, imaging_atm h, ok_bind, e0, ok_bind]
  unfold niirsTail
  simp only [hslant, m11, axisStep_fin, m8, m9, m4, hgrid, ok_bind, x1, x2, y1, y2, hgm, habs, hedge, hng, m6, hst, hn3,
    hφ, XR.fin_sub, hn4, XR.fin_mul]
  refine ⟨_, c, eu, ev, φ, _, _, n4, gp, rfl, ⟨rfl, rfl, m1, m2, m3, m7, m4, m5, m6, rfl, rfl⟩,
    ⟨m10, rfl, rfl, rfl, rfl, rfl, ?_, ?_, ?_, ?_, ?_, ?_, ?_, ?_⟩, m12, m13, hA, rfl, ou, ov, rfl, rfl, rfl, hn3, hn4⟩
  all_goals
    dsimp only
    rw [List.map_map]
    rfl

/-! ## The whole of `niirs5` -/

theorem niirs5_value {env : Env} {s : RealSensor} {g : RealScene} {sc : Scenario} {interp : Bool}
    {B : List (Fin 6 → ℝ)} (h : Imaging env s g sc interp B) :
    ∃ (m : Metrics) (c φ : ℝ) (gw rer : XR),
      (niirs5 env s.toSensor sc interp).1 = .ok m
      ∧ Radiometry s g B m
      ∧ Sampling s g B (fun _ _ => 1) c m
      ∧ m.pathNoise = XR.sqrt (.fin (s.photons B pathAt))
      ∧ m.sceneNoise = XR.sqrt (XR.max (XR.sqrt (.fin (s.photons B s.targetAt)))
          (XR.sqrt (.fin (s.photons B s.backgroundAt))) ^ 2 - XR.sqrt (.fin (s.photons B pathAt)) ^ 2)
      ∧ IsAngle 0 (pointAt g.altitude 0) (pointAt 0 g.groundRange) φ ∧ m.elevAngle = .fin (Real.pi / 2 - φ)
      ∧ m.giqe5 = some (.fin (rerOf (alongU (s.mtf g B fun _ _ => 1) (c / 50)) (c / 50) (s.pX / s.f)),
          .fin (rerOf (alongV (s.mtf g B fun _ _ => 1) (c / 50)) (c / 50) (s.pY / s.f)), gw, rer)
      ∧ giqe5 (.fin (rerOf (alongU (s.mtf g B fun _ _ => 1) (c / 50)) (c / 50) (s.pX / s.f)))
          (.fin (rerOf (alongV (s.mtf g B fun _ _ => 1) (c / 50)) (c / 50) (s.pY / s.f)))
          (.fin (s.pX / s.f * g.slant)) (.np (.fin (Real.sqrt s.frameStacks * s.contrastSNR B)))
          (.fin (Real.pi / 2 - φ)) = .ok (m.niirs, gw, rer) := by
  obtain ⟨mid, c, e0, m1, m2, m3, m4, m5, m6, m7, m8, m9, m10, m11, m12, m13⟩ :=
    niirsMid_value h.usable h.wavelengths h.signal h.well h.fill h.bits h.counts
  have hc := cutoff_pos h.optical.aperture h.wavelengths m10
  have hdf : 0 ≤ c / 50 := by positivity
  have hb := imaging_band h.wavelengths h.distinct h.signal
  have hslant : niirsSlantRange sc = .fin g.slant := h.scene.slant_eq
  obtain ⟨φ, hφ, hA⟩ := C11_angle_at_sensor (ht := 0) (hs := g.altitude) (g := g.groundRange) h.viewing.above
    h.viewing.away (sH := .py 0) (sS := .py sc.altitude) (sB := .np (.fin g.slant)) rfl h.scene.altitude
    (C10_distance 0 g.altitude g.groundRange).symm
  let s' : RealSensor := { s with filterKernel := [[1]] }
  have hs' : s'.Optical := ⟨h.optical.aperture, h.optical.focal, h.optical.obscuration, h.optical.open_,
    h.optical.corrX, h.optical.corrY⟩
  have hk' : s'.filterKernel.length ≤ 1 := by simp [s']
  have hgrid := gridOTFs_value env hs' h.viewing h.scene.sky hb (s.exposure B) 101 c (fun h => absurd h (by omega))
  have habs := grid_abs env.diag s' g (s.band B) (s.exposure B) 101 c
  have hF : filterAt env.diag s' = fun _ _ => 1 := by
    funext u v
    exact (sharpening_filterAt env.diag hs'.focal (fun h => absurd h (by omega))).1 hk' u v
  rw [hF] at habs
  obtain ⟨s1, s2⟩ := slices_value (s.mtf g B fun _ _ => 1) c
  obtain ⟨qx, x1, x2⟩ := Scal.div_fin (a := .py s'.toSensor.pX) (b := .py s'.toSensor.f) (x := s.pX) (y := s.f)
    rfl rfl h.focal.ne'
  obtain ⟨qy, y1, y2⟩ := Scal.div_fin (a := .py s'.toSensor.pY) (b := .py s'.toSensor.f) (x := s.pY) (y := s.f)
    rfl rfl h.focal.ne'
  have hedge : giqe5RER (grid 101 fun i j => s.mtf g B (fun _ _ => 1) (colFreq 101 c j) (rowFreq 101 c i))
        (.fin (c / 50)) (.fin (s.pX / s.f)) (.fin (s.pY / s.f))
      = .ok (.fin (rerOf (alongU (s.mtf g B fun _ _ => 1) (c / 50)) (c / 50) (s.pX / s.f)),
          .fin (rerOf (alongV (s.mtf g B fun _ _ => 1) (c / 50)) (c / 50) (s.pY / s.f))) := by
    unfold giqe5RER
    rw [s1, ok_bind, s2, ok_bind, rerOf_value _ hdf, ok_bind, rerOf_value _ hdf, ok_bind]
  have hst : XR.sqrt s'.toSensor.frameStacks * .fin (s.contrastSNR B) = .fin (Real.sqrt s.frameStacks * s.contrastSNR B) := by
    have e : s'.toSensor.frameStacks = .fin s.frameStacks := rfl
    rw [e, XR.fin_sqrt h.frames, XR.fin_mul]
  obtain ⟨⟨n5, gw, rer⟩, hn5⟩ : ∃ x, giqe5 (.fin (rerOf (alongU (s.mtf g B fun _ _ => 1) (c / 50)) (c / 50) (s.pX / s.f)))
          (.fin (rerOf (alongV (s.mtf g B fun _ _ => 1) (c / 50)) (c / 50) (s.pY / s.f)))
          (.fin (s.pX / s.f * g.slant)) (.np (.fin (Real.sqrt s.frameStacks * s.contrastSNR B)))
          (.fin (Real.pi / 2 - φ)) = .ok x := ⟨_, rfl⟩
  have hw : withKernel s.toSensor [[1]] = s'.toSensor := rfl
  change giqe5RER (grid 101 fun i j => |opticsAt s' g (s.band B) (s.exposure B) (colFreq 101 c j) (rowFreq 101 c i)
          * 1|) _ _ _ = _ at hedge
  rw [niirs5_result, imaging_atm h, ok_bind, e0, ok_bind, hw]
  unfold niirs5Tail
  simp only [hslant, m11, axisStep_fin, m8, m9, m4, hgrid, ok_bind, x1, x2, y1, y2, habs, hedge, m6, hst,
    hφ, XR.fin_sub, hn5, XR.fin_mul]
  refine ⟨_, c, φ, gw, rer, rfl, ⟨rfl, rfl, m1, m2, m3, m7, m4, m5, m6, rfl, rfl⟩,
    ⟨m10, rfl, rfl, rfl, rfl, rfl, ?_, ?_, ?_, ?_, ?_, ?_, ?_, ?_⟩, m12, m13, hA, rfl, rfl, hn5⟩
  on_goal 7 =>
    dsimp only
    rw [List.map_map]
    unfold rowAt
    rw [hF]
    rfl
  on_goal 7 =>
    dsimp only
    rw [List.map_map]
    unfold rowAt
    rw [hF]
    rfl
  all_goals
    dsimp only
    rw [List.map_map]
    rfl

/-! ## C70 -/

/-- **C70** (report): under the stated conditions `niirs` succeeds for every kernel whose taps sum to one, and what it
reports is the radiometry and the optics of the specification: standard target and background radiances, exposure cut
to the well capacity, noise budget, SNR, band and weights, cutoff frequency, 101 x 101 samples of every component. -/
theorem C70_report {env : Env} {s : RealSensor} {g : RealScene} {sc : Scenario} {interp : Bool}
    {B : List (Fin 6 → ℝ)} (h : Imaging env s g sc interp B) (hk : s.filterKernel.flatten.sum = 1) :
    ∃ (m : Metrics) (c : ℝ) (F : ℝ → ℝ → ℝ), (niirs env s.toSensor sc interp).1 = .ok m
      ∧ Radiometry s g B m ∧ s.Sharpening env.diag F ∧ Sampling s g B F c m := by
  obtain ⟨m, c, eu, ev, φ, rer, eho, n4, gp, h1, h2, h3, -⟩ := niirs_value h hk
  exact ⟨m, c, _, h1, h2, sharpening_filterAt _ h.focal.ne' (fun _ => h.pitchX.ne'), h3⟩

/-- **C70** (value): and the NIIRS it reports are GIQE 3 and GIQE 4 of: the geometric means over the two axes of the
relative edge response, the overshoot and the ground sample distance; the noise gain of the kernel; the SNR times the
square root of the number of stacked frames; 90 degrees minus the angle at the sensor between nadir and target. -/
theorem C70_value {env : Env} {s : RealSensor} {g : RealScene} {sc : Scenario} {interp : Bool}
    {B : List (Fin 6 → ℝ)} (h : Imaging env s g sc interp B) (hk : s.filterKernel.flatten.sum = 1) :
    ∃ (m : Metrics) (c : ℝ) (F : ℝ → ℝ → ℝ) (ru rv eu ev φ gsd ng snr : ℝ),
      (niirs env s.toSensor sc interp).1 = .ok m
      ∧ s.Cutoff B c ∧ s.Sharpening env.diag F
      ∧ ru = rerOf (alongU (s.mtf g B F) (c / 50)) (c / 50) (s.pX / s.f)
      ∧ rv = rerOf (alongV (s.mtf g B F) (c / 50)) (c / 50) (s.pY / s.f)
      ∧ IsOvershoot (alongU (s.mtf g B F) (c / 50)) (c / 50) (s.pX / s.f) eu
      ∧ IsOvershoot (alongV (s.mtf g B F) (c / 50)) (c / 50) (s.pY / s.f) ev
      ∧ IsAngle 0 (pointAt g.altitude 0) (pointAt 0 g.groundRange) φ
      ∧ gsd = Real.sqrt ((s.pX / s.f * g.slant) * (s.pY / s.f * g.slant))
      ∧ ng = Real.sqrt (s.filterKernel.flatten.map (· ^ 2)).sum
      ∧ snr = Real.sqrt s.frameStacks * s.contrastSNR B
      ∧ m.elevAngle = .fin (Real.pi / 2 - φ)
      ∧ (0 < ru → 0 < rv → 0 ≤ eu → 0 ≤ ev → 0 < g.altitude → snr ≠ 0 →
          m.niirs = .fin (niirs3 (Real.sqrt (ru * rv)) gsd (Real.sqrt (eu * ev)) ng snr)
          ∧ m.giqe34 = some (.fin (s.pY / s.f * g.slant), .fin gsd, .fin (Real.sqrt (ru * rv)),
              .fin (Real.sqrt (eu * ev)), .fin ng,
              .fin (if 0.9 ≤ Real.sqrt (ru * rv) then
                  niirs4 3.32 1.559 (Real.sqrt (ru * rv)) gsd (Real.sqrt (eu * ev)) ng snr (Real.pi / 2 - φ)
                else niirs4 3.16 2.817 (Real.sqrt (ru * rv)) gsd (Real.sqrt (eu * ev)) ng snr (Real.pi / 2 - φ)),
              .fin (projectedGsd (1 / 2) gsd (Real.pi / 2 - φ)))) := by
  obtain ⟨m, c, eu, ev, φ, rer, eho, n4, gp, h1, -, h3, -, -, h6, h7, h8, h9, h10, h11, h12, h13, h14⟩ :=
    niirs_value h hk
  refine ⟨m, c, filterAt env.diag s, _, _, eu, ev, φ, _, _, _, h1, h3.isCutoff,
    sharpening_filterAt _ h.focal.ne' (fun _ => h.pitchX.ne'), rfl, rfl, h8, h9, h6, rfl, rfl, rfl, h7, ?_⟩
  intro r1 r2 e1 e2 ha hs
  have hsl := slant_pos_of h.viewing
  have g0 : 0 < Real.sqrt ((s.pX / s.f * g.slant) * (s.pY / s.f * g.slant)) := by
    have := h.pitchX; have := h.pitchY; have := h.focal; positivity
  rw [XR.fin_sqrt (mul_pos r1 r2).le] at h10
  rw [XR.fin_sqrt (mul_nonneg e1 e2)] at h11
  rw [h10, h11] at h12 h13 h14
  rw [giqe3_fin rfl rfl rfl rfl rfl (Real.sqrt_pos.mpr (mul_pos r1 r2)) g0 hs, Except.ok.injEq] at h13
  rw [giqe4_fin rfl rfl rfl rfl rfl (Real.sqrt_pos.mpr (mul_pos r1 r2)) g0 hs (sin_elev_pos h.viewing ha h6),
    Except.ok.injEq, Prod.mk.injEq] at h14
  exact ⟨h13.symm, by rw [h12, ← h14.1, ← h14.2]⟩

/-- **C70** (kernel): if the taps of the sharpening kernel do not sum to one, `niirs` raises `ValueError`, after all
the calculations. -/
theorem C70_bad_kernel {env : Env} {s : RealSensor} {g : RealScene} {sc : Scenario} {interp : Bool}
    {B : List (Fin 6 → ℝ)} (h : Imaging env s g sc interp B) (hk : s.filterKernel.flatten.sum ≠ 1) :
    (niirs env s.toSensor sc interp).1 = .error .valueError := by
  obtain ⟨mid, c, e0, m1, m2, m3, m4, m5, m6, m7, m8, m9, m10, m11, m12, m13⟩ :=
    niirsMid_value h.usable h.wavelengths h.signal h.well h.fill h.bits h.counts
  have hc := cutoff_pos h.optical.aperture h.wavelengths m10
  have hdf : 0 ≤ c / 50 := by positivity
  have hb := imaging_band h.wavelengths h.distinct h.signal
  have hslant : niirsSlantRange sc = .fin g.slant := h.scene.slant_eq
  have hgrid := gridOTFs_value env h.optical h.viewing h.scene.sky hb (s.exposure B) 101 c (fun _ => h.pitchX.ne')
  have habs := grid_abs env.diag s g (s.band B) (s.exposure B) 101 c
  obtain ⟨qx, x1, x2⟩ := Scal.div_fin (a := .py s.toSensor.pX) (b := .py s.toSensor.f) (x := s.pX) (y := s.f)
    rfl rfl h.focal.ne'
  obtain ⟨qy, y1, y2⟩ := Scal.div_fin (a := .py s.toSensor.pY) (b := .py s.toSensor.f) (x := s.pY) (y := s.f)
    rfl rfl h.focal.ne'
  obtain ⟨_, _, _, _, -, -, -, -, hedge, -⟩ := C59_value (m := 50) (by norm_num)
    (fun i j => |opticsAt s g (s.band B) (s.exposure B) (colFreq 101 c j) (rowFreq 101 c i)
          * filterAt env.diag s (colFreq 101 c j) (rowFreq 101 c i)|) hdf (s.pX / s.f) (s.pY / s.f)
  have hng : noiseGain s.toSensor.filterKernel = .error .valueError := by
    have e : s.toSensor.filterKernel = s.filterKernel := rfl
    rw [e, noiseGain_eq, if_neg hk]
  rw [niirs_result, imaging_atm h, ok_bind, e0, ok_bind]
  unfold niirsTail
  norm_num only at hedge
  simp only [hslant, m11, axisStep_fin, m8, m9, m4, hgrid, ok_bind, x1, x2, y1, y2, habs, hedge, hng, error_bind]

/-! ## C71 -/

/-- **C71** (report): the same for `niirs5`, whatever the sharpening kernel, which has no effect. -/
theorem C71_report {env : Env} {s : RealSensor} {g : RealScene} {sc : Scenario} {interp : Bool}
    {B : List (Fin 6 → ℝ)} (h : Imaging env s g sc interp B) :
    ∃ (m : Metrics) (c : ℝ), (niirs5 env s.toSensor sc interp).1 = .ok m
      ∧ Radiometry s g B m ∧ Sampling s g B (fun _ _ => 1) c m := by
  obtain ⟨m, c, φ, gw, rer, h1, h2, h3, -⟩ := niirs5_value h
  exact ⟨m, c, h1, h2, h3⟩

/-- **C71** (value): the NIIRS reported is GIQE 5 of the relative edge responses along the two axes, the horizontal
ground sample distance, the SNR times the square root of the number of stacked frames, and 90 degrees minus the angle
at the sensor between nadir and target. -/
theorem C71_value {env : Env} {s : RealSensor} {g : RealScene} {sc : Scenario} {interp : Bool}
    {B : List (Fin 6 → ℝ)} (h : Imaging env s g sc interp B) :
    ∃ (m : Metrics) (c ru rv φ snr : ℝ), (niirs5 env s.toSensor sc interp).1 = .ok m
      ∧ s.Cutoff B c
      ∧ ru = rerOf (alongU (s.mtf g B fun _ _ => 1) (c / 50)) (c / 50) (s.pX / s.f)
      ∧ rv = rerOf (alongV (s.mtf g B fun _ _ => 1) (c / 50)) (c / 50) (s.pY / s.f)
      ∧ IsAngle 0 (pointAt g.altitude 0) (pointAt 0 g.groundRange) φ
      ∧ snr = Real.sqrt s.frameStacks * s.contrastSNR B
      ∧ m.elevAngle = .fin (Real.pi / 2 - φ)
      ∧ (0 < ru → 0 < rv → 0 < g.altitude → snr ≠ 0 →
          m.niirs = .fin (Spec.niirs5 ru rv (s.pX / s.f * g.slant) snr (Real.pi / 2 - φ))
          ∧ m.giqe5 = some (.fin ru, .fin rv,
              .fin (projectedGsd (1 / 4) (s.pX / s.f * g.slant) (Real.pi / 2 - φ)), .fin (rer5 ru rv))) := by
  obtain ⟨m, c, φ, gw, rer, h1, -, h3, -, -, h6, h7, h8, h9⟩ := niirs5_value h
  refine ⟨m, c, _, _, φ, _, h1, h3.isCutoff, rfl, rfl, h6, rfl, h7, ?_⟩
  intro r1 r2 ha hs
  have hsl := slant_pos_of h.viewing
  have g0 : 0 < s.pX / s.f * g.slant := by
    have := h.pitchX; have := h.focal; positivity
  rw [giqe5_fin rfl r1 r2 g0 hs (sin_elev_pos h.viewing ha h6), Except.ok.injEq, Prod.mk.injEq, Prod.mk.injEq] at h9
  exact ⟨h9.1.symm, by rw [h8, ← h9.2.1, ← h9.2.2]⟩

/-! ## Well sampled sensors -/

theorem opticsAt_zero {s : RealSensor} (hs : s.Optical) (g : RealScene) {pairs : List (ℝ × ℝ)} (hb : Band pairs)
    (t : ℝ) : opticsAt s g pairs t 0 0 = 1 := by
  have hA : apertureAt s pairs 0 0 = 1 := by
    unfold apertureAt
    apply wmean_const hb.total.ne'
    intro p _
    rw [mtf_dc hs.aperture hs.obscuration hs.open_]
  have hT : turbulenceAt s g pairs t 0 0 = 1 := by
    unfold turbulenceAt
    split
    · apply wmean_const hb.total.ne'
      intro p _
      rw [turbMix_dc]
    · rfl
  have hD : detectorAt s 0 0 = 1 := by simp [detectorAt]
  have hJ : jitterAt s 0 0 = 1 := by simp [jitterAt]
  have hQ : driftAt s t 0 0 = 1 := by simp [driftAt]
  have hW : wavefrontAt s pairs 0 0 = 1 := by
    unfold wavefrontAt
    apply wmean_const hb.total.ne'
    intro p _
    simp
  unfold opticsAt
  rw [hA, hT, hD, hJ, hQ, hW]
  ring

/-- The edge response on the bright side is above one half if the sine stays positive up to the last sample. -/
theorem edge_gt_half {M : ℕ → ℝ} {df ifov x : ℝ} (h0 : 0 < M 0) (hM : ∀ k, 0 ≤ M k) (hdf : 0 < df) (hi : 0 < ifov)
    (hx : 0 < x) (hs : 2 * (ifov * x) * (df * 49 + 1e-6) ≤ 1) : 1 / 2 < edge 50 M df ifov x := by
  have hpi := Real.pi_pos
  have hw : ∀ i : ℕ, (0 : ℝ) < df * i + 1e-6 := fun i => by positivity
  have hsin : ∀ i : ℕ, i < 50 → 0 ≤ Real.sin (2 * Real.pi * (df * i + 1e-6) * (ifov * x)) := by
    intro i hi'
    apply Real.sin_nonneg_of_nonneg_of_le_pi
    · have := hw i; positivity
    · have h1 : (i : ℝ) ≤ 49 := by exact_mod_cast (by omega : i ≤ 49)
      have h2 : df * i + 1e-6 ≤ df * 49 + 1e-6 := by nlinarith
      have h3 : 2 * (ifov * x) * (df * i + 1e-6) ≤ 1 := le_trans (mul_le_mul_of_nonneg_left h2 (by positivity)) hs
      nlinarith
  unfold edge
  dsimp only
  have hnn : ∀ i : ℕ, i < 50 → 0 ≤ M i * Real.sin (2 * Real.pi * (df * i + 1e-6) * (ifov * x)) / (df * i + 1e-6) :=
    fun i hi' => div_nonneg (mul_nonneg (hM i) (hsin i hi')) (hw i).le
  have hpos : 0 < M 0 * Real.sin (2 * Real.pi * (df * (0 : ℕ) + 1e-6) * (ifov * x)) / (df * (0 : ℕ) + 1e-6) := by
    apply div_pos (mul_pos h0 _) (hw 0)
    apply Real.sin_pos_of_pos_of_lt_pi
    · have := hw 0; positivity
    · have h3 : 2 * (ifov * x) * (df * (0 : ℕ) + 1e-6) < 1 := by
        refine lt_of_lt_of_le (mul_lt_mul_of_pos_left ?_ (by positivity)) hs
        push_cast
        linarith
      nlinarith
  have htrap : 0 < trap 50 (fun i : ℕ => df * i + 1e-6)
      (fun i : ℕ => M i * Real.sin (2 * Real.pi * (df * i + 1e-6) * (ifov * x)) / (df * i + 1e-6)) := by
    unfold trap
    apply Finset.sum_pos'
    · intro i hi'
      have hi' : i < 49 := by simpa using hi'
      have h1 := hnn i (by omega)
      have h2 := hnn (i + 1) (by omega)
      have h3 : (0 : ℝ) ≤ (df * ((i + 1 : ℕ) : ℝ) + 1e-6) - (df * i + 1e-6) := by push_cast; nlinarith
      positivity
    · refine ⟨0, by simp, ?_⟩
      have h2 := hnn 1 (by omega)
      have h3 : (0 : ℝ) < (df * ((0 + 1 : ℕ) : ℝ) + 1e-6) - (df * (0 : ℕ) + 1e-6) := by push_cast; linarith
      apply mul_pos h3
      simp only [zero_add] at *
      linarith
  have : 0 < trap 50 (fun i : ℕ => df * i + 1e-6)
      (fun i : ℕ => M i * Real.sin (2 * Real.pi * (df * i + 1e-6) * (ifov * x)) / (df * i + 1e-6)) / Real.pi :=
    div_pos htrap hpi
  linarith

theorem rerOf_pos {M : ℕ → ℝ} {df ifov : ℝ} (h0 : 0 < M 0) (hM : ∀ k, 0 ≤ M k) (hdf : 0 < df) (hi : 0 < ifov)
    (hs : ifov * (df * 49 + 1e-6) ≤ 1) : 0 < rerOf M df ifov := by
  unfold rerOf
  rw [edge_neg]
  have := edge_gt_half (x := 1 / 2) h0 hM hdf hi (by norm_num) (by linarith)
  linarith

theorem overshoot_pos {M : ℕ → ℝ} {df ifov e : ℝ} (h0 : 0 < M 0) (hM : ∀ k, 0 ≤ M k) (hdf : 0 < df) (hi : 0 < ifov)
    (hs : 2.5 * ifov * (df * 49 + 1e-6) ≤ 1) (h : IsOvershoot M df ifov e) : 1 / 2 < e := by
  have h1 := edge_gt_half (x := 1 + ((1 : ℕ) : ℝ) / 4) h0 hM hdf hi (by norm_num) (by push_cast; linarith)
  by_cases hc : ∀ i < 8, edge 50 M df ifov (1 + ((i : ℕ) : ℝ) / 4) < edge 50 M df ifov (1 + ((i + 1 : ℕ) : ℝ) / 4)
  · rw [h.1 hc]; exact h1
  · exact h1.trans_le ((h.2 hc).2 1 (by norm_num))

/-- **C70** (well sampled): without a sharpening kernel, if the detectors sample the cutoff frequency at least 2.5
times per cycle in both directions, the edge terms are positive, so that from a positive altitude and with nonzero
contrast and frames the NIIRS is a finite number. -/
theorem C70_well_sampled {env : Env} {s : RealSensor} {g : RealScene} {sc : Scenario} {interp : Bool}
    {B : List (Fin 6 → ℝ)} (h : Imaging env s g sc interp B) (hk : s.filterKernel = [[1]])
    (hq : ∀ c, s.Cutoff B c → 2.5 * (s.pX / s.f) * (c + 1e-6) ≤ 1 ∧ 2.5 * (s.pY / s.f) * (c + 1e-6) ≤ 1)
    (ha : 0 < g.altitude) (hf : 0 < s.frameStacks) (hn : s.electrons B s.targetAt ≠ s.electrons B s.backgroundAt)
    (hcut : 0 < s.cut B) :
    ∃ (m : Metrics) (x y gx gp r e : ℝ), (niirs env s.toSensor sc interp).1 = .ok m ∧ m.niirs = .fin x
      ∧ m.giqe34 = some (.fin (s.pY / s.f * g.slant), .fin gx, .fin r, .fin e, .fin 1, .fin y, .fin gp)
      ∧ 0 < gx ∧ 0 < r ∧ 1 / 2 < e := by
  obtain ⟨m, c, F, ru, rv, eu, ev, φ, gsd, ng, snr, h1, h2, h3, h4, h5, h6, h7, h8, h9, h10, h11, h12, h13⟩ :=
    C70_value h (by rw [hk]; simp)
  have hc := cutoff_pos h.optical.aperture h.wavelengths h2
  have hb := imaging_band h.wavelengths h.distinct h.signal
  obtain ⟨q1, q2⟩ := hq c h2
  have hF : F 0 0 = 1 := h3.1 (by rw [hk]; simp) 0 0
  have hM0 : s.mtf g B F 0 0 = 1 := by
    unfold RealSensor.mtf
    rw [opticsAt_zero h.optical g hb, hF]; simp
  have hU0 : 0 < alongU (s.mtf g B F) (c / 50) 0 := by
    unfold alongU; rw [Nat.cast_zero, zero_mul, hM0]; norm_num
  have hV0 : 0 < alongV (s.mtf g B F) (c / 50) 0 := by
    unfold alongV; rw [Nat.cast_zero, zero_mul, hM0]; norm_num
  have hU : ∀ k, 0 ≤ alongU (s.mtf g B F) (c / 50) k := fun k => abs_nonneg _
  have hV : ∀ k, 0 ≤ alongV (s.mtf g B F) (c / 50) k := fun k => abs_nonneg _
  have hdf : 0 < c / 50 := by positivity
  have ix : 0 < s.pX / s.f := div_pos h.pitchX h.focal
  have iy : 0 < s.pY / s.f := div_pos h.pitchY h.focal
  have hle : c / 50 * 49 + 1e-6 ≤ c + 1e-6 := by linarith
  have b1 : 2.5 * (s.pX / s.f) * (c / 50 * 49 + 1e-6) ≤ 1 :=
    (mul_le_mul_of_nonneg_left hle (by positivity)).trans q1
  have b2 : 2.5 * (s.pY / s.f) * (c / 50 * 49 + 1e-6) ≤ 1 :=
    (mul_le_mul_of_nonneg_left hle (by positivity)).trans q2
  have hw : 0 < c / 50 * 49 + 1e-6 := by positivity
  have r1 : 0 < ru := by
    rw [h4]
    exact rerOf_pos hU0 hU hdf ix (by nlinarith [mul_pos ix hw])
  have r2 : 0 < rv := by
    rw [h5]
    exact rerOf_pos hV0 hV hdf iy (by nlinarith [mul_pos iy hw])
  have e1 := overshoot_pos hU0 hU hdf ix b1 h6
  have e2 := overshoot_pos hV0 hV hdf iy b2 h7
  have hsnr : snr ≠ 0 := by
    rw [h11]
    refine mul_ne_zero (Real.sqrt_pos.mpr hf).ne' ?_
    exact div_ne_zero (mul_ne_zero hcut.ne' (sub_ne_zero.mpr hn)) (noise_pos h.well h.fill h.bits h.counts).ne'
  obtain ⟨v1, v2⟩ := h13 r1 r2 (by linarith) (by linarith) ha hsnr
  have hng : ng = 1 := by rw [h10, hk]; simp
  rw [hng] at v1 v2
  have hsl := slant_pos_of h.viewing
  refine ⟨m, _, _, _, _, _, _, h1, v1, v2, ?_, Real.sqrt_pos.mpr (mul_pos r1 r2), ?_⟩
  · rw [h9]; positivity
  · apply Real.lt_sqrt_of_sq_lt
    nlinarith

/-- **C71** (well sampled): if the detectors sample the cutoff frequency at least once per cycle in both directions,
both relative edge responses are positive, so that from a positive altitude and with nonzero contrast and frames the
NIIRS is a finite number. -/
theorem C71_well_sampled {env : Env} {s : RealSensor} {g : RealScene} {sc : Scenario} {interp : Bool}
    {B : List (Fin 6 → ℝ)} (h : Imaging env s g sc interp B)
    (hq : ∀ c, s.Cutoff B c → s.pX / s.f * (c + 1e-6) ≤ 1 ∧ s.pY / s.f * (c + 1e-6) ≤ 1)
    (ha : 0 < g.altitude) (hf : 0 < s.frameStacks) (hn : s.electrons B s.targetAt ≠ s.electrons B s.backgroundAt)
    (hcut : 0 < s.cut B) :
    ∃ (m : Metrics) (x r1 r2 gw r : ℝ), (niirs5 env s.toSensor sc interp).1 = .ok m ∧ m.niirs = .fin x
      ∧ m.giqe5 = some (.fin r1, .fin r2, .fin gw, .fin r) ∧ 0 < r1 ∧ 0 < r2 ∧ 0 < gw ∧ 0 < r := by
  obtain ⟨m, c, ru, rv, φ, snr, h1, h2, h4, h5, h8, h11, h12, h13⟩ := C71_value h
  have hc := cutoff_pos h.optical.aperture h.wavelengths h2
  have hb := imaging_band h.wavelengths h.distinct h.signal
  obtain ⟨q1, q2⟩ := hq c h2
  have hM0 : s.mtf g B (fun _ _ => 1) 0 0 = 1 := by
    unfold RealSensor.mtf
    rw [opticsAt_zero h.optical g hb]; simp
  have hU0 : 0 < alongU (s.mtf g B fun _ _ => 1) (c / 50) 0 := by
    unfold alongU; rw [Nat.cast_zero, zero_mul, hM0]; norm_num
  have hV0 : 0 < alongV (s.mtf g B fun _ _ => 1) (c / 50) 0 := by
    unfold alongV; rw [Nat.cast_zero, zero_mul, hM0]; norm_num
  have hU : ∀ k, 0 ≤ alongU (s.mtf g B fun _ _ => 1) (c / 50) k := fun k => abs_nonneg _
  have hV : ∀ k, 0 ≤ alongV (s.mtf g B fun _ _ => 1) (c / 50) k := fun k => abs_nonneg _
  have hdf : 0 < c / 50 := by positivity
  have ix : 0 < s.pX / s.f := div_pos h.pitchX h.focal
  have iy : 0 < s.pY / s.f := div_pos h.pitchY h.focal
  have hle : c / 50 * 49 + 1e-6 ≤ c + 1e-6 := by linarith
  have r1 : 0 < ru := by
    rw [h4]
    exact rerOf_pos hU0 hU hdf ix ((mul_le_mul_of_nonneg_left hle ix.le).trans q1)
  have r2 : 0 < rv := by
    rw [h5]
    exact rerOf_pos hV0 hV hdf iy ((mul_le_mul_of_nonneg_left hle iy.le).trans q2)
  have hsnr : snr ≠ 0 := by
    rw [h11]
    refine mul_ne_zero (Real.sqrt_pos.mpr hf).ne' ?_
    exact div_ne_zero (mul_ne_zero hcut.ne' (sub_ne_zero.mpr hn)) (noise_pos h.well h.fill h.bits h.counts).ne'
  obtain ⟨v1, v2⟩ := h13 r1 r2 ha hsnr
  have hsl := slant_pos_of h.viewing
  exact ⟨m, _, _, _, _, _, h1, v1, v2, r1, r2,
    projectedGsd_pos (by positivity) (sin_elev_pos h.viewing ha h8), rer5_pos r1 r2⟩

end PyBSM
