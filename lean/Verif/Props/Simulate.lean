import Verif.Lemmas.Simulate
import Verif.Props.Image
import Verif.Props.NiirsValue

/-!
# C73-C75: `simulate_image` from end to end
-/

noncomputable section

open Classical

namespace PyBSM

open Spec

/-! ## Helpers -/

theorem cutoff_exists {D : ℝ} {pairs : List (ℝ × ℝ)} (h : Band pairs) (hD : 0 < D) :
    ∃ lam : ℝ, amin (pairs.map fun p => XR.fin p.1) = .ok (.fin lam) ∧ lam ≠ 0 ∧ IsCutoff D pairs (D / lam) ∧ 0 < D / lam := by
  have hne : pairs.map (fun p => p.1) ≠ [] := by
    intro e
    have : pairs = [] := List.map_eq_nil_iff.mp e
    have ht := h.total
    rw [this] at ht
    simp at ht
  obtain ⟨lam, h1, h2, h3⟩ := amin_fin hne
  rw [List.map_map] at h1
  obtain ⟨p, hp, hpe⟩ := List.mem_map.mp h2
  have hpos : 0 < lam := by rw [← hpe]; exact h.positive p hp
  refine ⟨lam, h1, hpos.ne', ⟨lam, ⟨p, hp, hpe⟩, ?_, rfl⟩, div_pos hD hpos⟩
  intro q hq
  exact h3 _ (List.mem_map.mpr ⟨q, hq, rfl⟩)

theorem gaussian_value {s : RealSensor} (hb : 0 < s.bitDepth) :
    XR.sqrt (quantizationNoise s.toSensor.maxN s.toSensor.bitDepth ^ 2 + s.toSensor.readNoise ^ 2) = .fin s.gaussian := by
  have e : quantizationNoise s.toSensor.maxN s.toSensor.bitDepth = .fin _ := quantizationNoise_fin s.maxN hb
  have e2 : s.toSensor.readNoise = .fin s.readNoise := rfl
  rw [e, e2, XR.fin_pow, XR.fin_pow, XR.fin_add, XR.fin_sqrt (by positivity)]
  rfl

theorem flatSlant_value {g : RealScene} {sc : Scenario} (h : FlatView g sc) : flatSlantRange sc = .fin g.slant := by
  obtain ⟨rng, h1, h2⟩ := h.distance
  unfold flatSlantRange
  rw [h.sky.altitude, h1, XR.fin_pow, XR.fin_pow, XR.fin_add, XR.fin_sqrt (by positivity), h2]

/-- A view at flat-Earth distance exists whenever the ground range is not absurdly long. -/
theorem flatView_exists {sc : Scenario} {a rng V W n : ℝ} (h1 : sc.altitude = .fin a) (h2 : sc.groundRange = .fin rng)
    (h3 : sc.aircraftSpeed = .fin V) (h4 : sc.haWindSpeed = .fin W) (h5 : sc.cn2At1m = .fin n) (ha : 0 < a)
    (hr : rng ^ 2 ≤ 4 * R * (R + a)) :
    ∃ g : RealScene, g.altitude = a ∧ g.cn2 = n ∧ FlatView g sc := by
  have hR : 0 < R := by norm_num [R]
  have hk : 0 < 2 * R * (R + a) := by positivity
  have hx0 : -1 ≤ 1 - rng ^ 2 / (2 * R * (R + a)) := by
    have : rng ^ 2 / (2 * R * (R + a)) ≤ 2 := by rw [div_le_iff₀ hk]; linarith
    linarith
  have hx1 : 1 - rng ^ 2 / (2 * R * (R + a)) ≤ 1 := by
    have : 0 ≤ rng ^ 2 / (2 * R * (R + a)) := by positivity
    linarith
  set G := R * Real.arccos (1 - rng ^ 2 / (2 * R * (R + a))) with hG
  have hcos : Real.cos (G / R) = 1 - rng ^ 2 / (2 * R * (R + a)) := by
    rw [hG, mul_div_cancel_left₀ _ hR.ne', Real.cos_arccos hx0 hx1]
  have hd : pdist (pointAt a 0) (pointAt 0 G) = Real.sqrt (a ^ 2 + rng ^ 2) := by
    rw [pdist_pointAt]
    congr 1
    unfold sq2
    rw [hcos]
    field_simp
    ring
  refine ⟨⟨a, G, V, W, n⟩, rfl, rfl, ⟨by show 0 < R + a; positivity, ?_⟩, ⟨h1, h3, h4, h5⟩, rng, h2, hd⟩
  show pdist (pointAt a 0) (pointAt 0 G) ≠ 0
  rw [hd]
  exact (Real.sqrt_pos.mpr (by positivity)).ne'

/-! ## C73 -/

/-- **C73**: for every sensor, scenario, atmosphere and calibrated reference image that meet the physical
preconditions, every state of the random generator and every OpenCV installation, `simulate_image` is: the true image
whose pixels hold the photoelectrons of their reflectance; passed to `apply_otf_to_image` with the reference image's
GSD, the flat-Earth distance, the system OTF for the full integration time sampled on 1501 x 1501 frequencies up to the
diffraction cutoff, their spacing, and the mean pixel pitch over the focal length; then Poisson noise with the
blurred image as mean (`ValueError` if a mean is negative) and Gaussian noise. -/
theorem C73_simulation {env : Env} {s : RealSensor} {sc : Scenario} {r : RefImage} {cal : List (ℝ × ℝ)}
    {B : List (Fin 6 → ℝ)} (h : Simulation env s sc r cal B) {g : RealScene} (hv : FlatView g sc) :
    ∃ (T : Img) (srt : List (ℝ × ℝ)) (ρ : ℝ → ℝ) (c : ℝ) (F : ℝ → ℝ → ℝ) (otf : ℕ → ℕ → ℂ) (atm : Atm),
      -- the true image
      srt.Perm cal ∧ Increasing srt ∧ (∀ x, OnExtended srt x (ρ x))
      ∧ T.h = r.img.h ∧ T.w = r.img.w
      ∧ (∀ i < r.img.h, ∀ j < r.img.w, T.px i j = s.pixel B (unit (ρ (r.img.px i j))))
      -- the OTF
      ∧ IsCutoff s.D (s.whiteBand B) c ∧ 0 < c ∧ s.Sharpening env.diag F
      ∧ (∀ i < 1501, ∀ j < 1501, otf i j
          = ((opticsAt s g (s.whiteBand B) s.intTime (colFreq 1501 c j) (rowFreq 1501 c i)
              * F (colFreq 1501 c j) (rowFreq 1501 c i) : ℝ) : ℂ))
      -- the atmosphere
      ∧ (sc.readAtm env.files).1 = .ok atm
      -- the result
      ∧ ∀ (usable : Bool) (rng : Rng), simulateImage env usable rng r s.toSensor sc =
          match applyOtfToImage usable T (.py r.gsd) (.np (.fin g.slant)) 1501 1501 otf (.np (.fin (c / 750)))
              (.py (.fin ((s.pX + s.pY) / 2 / s.f))) with
          | .error e => .error e
          | .ok (blur, _) =>
            if ∃ i < blur.h, ∃ j < blur.w, blur.px i j < 0 then .error .valueError
            else .ok {
              trueImg := T
              blurImg := blur
              noisyImg := { blur with px := fun i j =>
                (rng.poisson i j (blur.px i j) : ℝ) + s.gaussian * rng.normal i j }
              scenario := { sc with atmCache := some atm } } := by
  obtain ⟨rows, hatm, rfl⟩ := h.atmosphere
  set B := s.rowsInBand rows with hB
  obtain ⟨k, hk, hpe⟩ := r2pe_pixel h.usable h.well h.wavelengths h.signal
  rw [← hB] at hpe
  have hb : Band (s.whiteBand B) := positive_band h.wavelengths h.distinct h.signal
  have hbk := band_scaled hk hb
  obtain ⟨lam, c1, c2, c3, c4⟩ := cutoff_exists hbk h.optical.aperture
  have hcut : IsCutoff s.D (s.whiteBand B) (s.D / lam) := by
    obtain ⟨l, ⟨p, hp, hpl⟩, h2, h3⟩ := c3
    obtain ⟨q, hq, rfl⟩ := List.mem_map.mp hp
    refine ⟨l, ⟨q, hq, hpl⟩, fun p hp => ?_, h3⟩
    exact h2 (p.1, p.2 / k) (List.mem_map.mpr ⟨p, hp, rfl⟩)
  have hcache' : (sc.readAtm env.files).2.1 = { sc with atmCache := some (realAtm rows) } := readAtm_cached hatm
  have hv' : FlatView g { sc with atmCache := some (realAtm rows) } :=
    ⟨hv.viewing, ⟨hv.sky.altitude, hv.sky.aircraftSpeed, hv.sky.windSpeed, hv.sky.cn2⟩, hv.distance⟩
  have hgrid := gridOTFs_value env h.optical hv'.viewing hv'.sky hbk s.intTime 1501 (s.D / lam) h.kernel
  obtain ⟨rws, hreal, hget⟩ := grid_rows 1501 (fun i j => opticsAt s g (scaled k (s.whiteBand B)) s.intTime
      (colFreq 1501 (s.D / lam) j) (rowFreq 1501 (s.D / lam) i)
        * filterAt env.diag s (colFreq 1501 (s.D / lam) j) (rowFreq 1501 (s.D / lam) i))
      (rowAt env.diag s g (scaled k (s.whiteBand B)) s.intTime 1501 (s.D / lam))
      (rowAt_system env.diag s g _ s.intTime 1501 (s.D / lam))
  have hstep := simStep c4
  have hcal := fun x => calAt_spec h.image.valid x
  have hifov : Scal.div (.py ((s.toSensor.pX + s.toSensor.pY) / 2)) (.py s.toSensor.f)
      = .ok (.py (.fin ((s.pX + s.pY) / 2 / s.f))) := by
    have e : (s.toSensor.pX + s.toSensor.pY) / 2 = .fin ((s.pX + s.pY) / 2) := by
      show (XR.fin s.pX + XR.fin s.pY) / 2 = _
      rw [XR.fin_add, XR.ofNat_def, XR.fin_div _ (by norm_num)]
    rw [e]
    have hf : ¬ s.toSensor.f.eq 0 := h.optical.focal
    have e2 : XR.fin ((s.pX + s.pY) / 2) / s.toSensor.f = .fin ((s.pX + s.pY) / 2 / s.f) := XR.fin_div _ h.optical.focal
    unfold Scal.div
    simp only [e2]
    exact if_neg hf
  have hkeep := scaled_lists hk B fun a => s.spectral (a 0) (greyRadiance a 1 300)
  refine ⟨imgOfPixels r.img.h r.img.w (r.img.ravel.map fun x => s.pixel B (unit (calAt cal x))), rsort cal, calAt cal,
    s.D / lam, filterAt env.diag s, fun i j => (((rws.getD i []).getD j 0 : ℝ) : ℂ), realAtm rows, (rsort_perm cal), rsort_increasing cal h.image.valid.distinct,
    fun x => (hcal x).1, rfl, rfl, fun i hi j hj => imgOfPixels_map r.img _ hi hj, hcut, c4,
    sharpening_filterAt env.diag h.optical.focal h.kernel, ?_, hatm, fun usable rng => ?_⟩
  rotate_left
  · have hD : s.toSensor.D / .fin lam = .fin (s.D / lam) := XR.fin_div _ c2
    refine simulate_steps hatm hcache' hpe (flatSlant_value hv') (congrArg (List.map (·.1)) hkeep)
      (congrArg (List.map (·.2)) hkeep) (mn := .fin lam) ?_ ?_ ?_ ?_ hifov (gaussian_value h.bits)
      (trueImage_pixel h.image s B) hreal
    · rw [List.map_map]
      exact c1
    · rw [List.map_map, List.map_map, hD]
      exact hgrid
    · rw [hD]
      exact hstep
    · intro hle
      have : s.D / lam / 750 ≤ 0 := (XR.fin_le _ _).mp hle
      have : 0 < s.D / lam / 750 := by positivity
      linarith
  · intro i hi j hj
    beta_reduce
    rw [hget i hi j hj, opticsAt_scaled hk.ne']

end PyBSM
