import Verif.Props.Calibration
import Verif.Props.Photoelectrons
import Verif.Props.Database
import Verif.Lemmas.Edge
import Verif.Spec.Simulation

/-!
# C62, C63: reference images, capture parameters and the true image of the simulator
-/

noncomputable section

open Classical

namespace PyBSM

open Spec

/-! ## C62 -/

/-- **C62** (missing reflectances): pixel values without reflectances are rejected with ValueError, whatever the image. -/
theorem C62_missing (img : Img) (gsd : XR) (p : List XR) (name : String) :
    RefImage.new img gsd (some p) none name = .error .valueError := rfl

theorem mem_ravel {x : Img} {v : ℝ} : v ∈ x.ravel ↔ ∃ i < x.h, ∃ j < x.w, x.px i j = v := by
  unfold Img.ravel
  simp only [List.mem_flatMap, List.mem_map, List.mem_range]

theorem ravel_ne {x : Img} (h1 : x.h ≠ 0) (h2 : x.w ≠ 0) : x.ravel ≠ [] := by
  intro e
  have : x.px 0 0 ∈ x.ravel := mem_ravel.mpr ⟨0, by omega, 0, by omega, rfl⟩
  rw [e] at this
  cases this

/-- **C62** (defaults): without pixel values a non-empty image is calibrated by its 0.2th and 99.8th percentiles, the lower one
not above the upper one and both between the darkest and the brightest pixel, at reflectances 0.05 and 0.95; a
`refl_values` argument is then ignored. -/
theorem C62_default {img : Img} (h1 : img.h ≠ 0) (h2 : img.w ≠ 0) (gsd : XR) (refl : Option (List XR))
    (name : String) :
    ∃ (r : RefImage) (lo hi : ℝ), RefImage.new img gsd none refl name = .ok r ∧ r.img = img ∧ r.gsd = gsd
      ∧ r.name = name ∧ r.pixValues = [.fin lo, .fin hi] ∧ r.reflValues = [.fin 0.05, .fin 0.95] ∧ lo ≤ hi
      ∧ IsPercentile img.ravel 0.2 lo ∧ IsPercentile img.ravel 99.8 hi
      ∧ ∀ a b, Within img a b → a ≤ lo ∧ hi ≤ b := by
  have hne := ravel_ne h1 h2
  refine ⟨⟨img, gsd, [.fin (percentile img.ravel 0.2), .fin (percentile img.ravel 99.8)], [0.05, 0.95], name⟩,
    percentile img.ravel 0.2, percentile img.ravel 99.8, ?_, rfl, rfl, rfl, rfl, rfl, ?_,
    (percentile_iff hne (by norm_num) (by norm_num) _).mpr rfl,
    (percentile_iff hne (by norm_num) (by norm_num) _).mpr rfl, ?_⟩
  · unfold RefImage.new
    simp only
    rw [if_neg (by tauto)]
  · exact percentile_mono hne (by norm_num) (by norm_num) (by norm_num)
  · intro a b hab
    have hb : ∀ x ∈ img.ravel, a ≤ x ∧ x ≤ b := by
      intro x hx
      obtain ⟨i, hi, j, hj, rfl⟩ := mem_ravel.mp hx
      exact hab i hi j hj
    exact ⟨(percentile_mem hne (by norm_num) (by norm_num) hb).1,
      (percentile_mem hne (by norm_num) (by norm_num) hb).2⟩

/-- **C62** (capture parameters): for a positive ground sample distance and altitude, the estimated camera at the
estimated altitude has exactly this ground sample distance (square pixels, full fill factor), looks straight down without
motion or turbulence, and its diffraction cutoff at the middle wavelength is four times its sampling frequency. -/
theorem C62_capture (r : RefImage) {g h : ℝ} (hg : r.gsd = .fin g) (hg0 : 0 < g) (hh0 : 0 < h) :
    ∃ (s : Sensor) (sc : Scenario) (f d : ℝ), r.estimateCaptureParameters (.fin h) = .ok (s, sc)
      ∧ s.f = .fin f ∧ s.D = .fin d ∧ s.pX = .fin 20e-6 ∧ s.pY = .fin 20e-6 ∧ s.wX = .fin 20e-6 ∧ s.wY = .fin 20e-6
      ∧ 0 < f ∧ 0 < d ∧ 20e-6 / f * h = g ∧ d / 540e-9 * (2 * Real.arctan (20e-6 / 2 / f)) = 4
      ∧ sc.altitude = .fin h ∧ sc.groundRange = .fin 0 ∧ sc.aircraftSpeed = .fin 0 ∧ sc.haWindSpeed = .fin 0
      ∧ sc.cn2At1m = .fin 0 ∧ sc.ihaze = 1 ∧ s.name = r.name ∧ sc.name = r.name := by
  have hp : (20e-6 : XR) = .fin 20e-6 := rfl
  have h2 : (2 : XR) = .fin 2 := rfl
  have hf0 : 0 < h * 20e-6 / g := by positivity
  obtain ⟨fs, e1, e2⟩ := Scal.div_fin (a := .py (.fin (h * 20e-6))) (b := .py (.fin g)) rfl rfl hg0.ne'
  obtain ⟨q, e3, e4⟩ := Scal.div_fin (a := .py (.fin (20e-6 / 2))) (b := fs) rfl e2 hf0.ne'
  have hat : 0 < Real.arctan (20e-6 / 2 / (h * 20e-6 / g)) := by
    rw [← Real.arctan_zero]; exact Real.arctan_strictMono (by positivity)
  have e5 : Scal.div (.py (.fin 20e-6)) (.py (.fin 20e-6)) = .ok (.py (.fin 1)) := by
    unfold Scal.div
    simp only
    rw [if_neg, XR.fin_div _ (by norm_num), div_self (by norm_num)]
    intro h
    have : (20e-6 : ℝ) = 0 := h
    norm_num at this
  set d : ℝ := 4 * ((380 * 1.0e-9 + 700 * 1.0e-9) / 2) / (2 * Real.arctan (20e-6 / 2 / (h * 20e-6 / g))) with hd
  have hD : (4 * ((380 * 1.0e-9 + 700 * 1.0e-9) / 2) / (2 * q.val.arctan) : XR) = .fin d := by
    rw [e4]
    have a1 : (2 * (XR.fin (20e-6 / 2 / (h * 20e-6 / g))).arctan : XR)
        = .fin (2 * Real.arctan (20e-6 / 2 / (h * 20e-6 / g))) := XR.fin_mul _ _
    have a2 : (4 * ((380 * 1.0e-9 + 700 * 1.0e-9) / 2) : XR) = .fin (4 * ((380 * 1.0e-9 + 700 * 1.0e-9) / 2)) := by
      have b1 : (380 * 1.0e-9 : XR) = .fin (380 * 1.0e-9) := XR.fin_mul _ _
      have b2 : (700 * 1.0e-9 : XR) = .fin (700 * 1.0e-9) := XR.fin_mul _ _
      have b4 : (4 : XR) = .fin 4 := rfl
      rw [b1, b2, XR.fin_add, h2, XR.fin_div _ two_ne_zero, b4, XR.fin_mul]
    rw [a1, a2, XR.fin_div _ (by positivity)]
  unfold RefImage.estimateCaptureParameters
  have c1 : (XR.fin h * 20e-6 : XR) = .fin (h * 20e-6) := XR.fin_mul _ _
  have c2 : (20e-6 / 2 : XR) = .fin (20e-6 / 2) := by rw [hp, h2, XR.fin_div _ two_ne_zero]
  simp only [c1, hg, e1, ok_bind, c2, e3, hD, e2]
  unfold Sensor.new
  simp only [Option.getD_none, hp, e5, ok_bind]
  refine ⟨_, _, h * 20e-6 / g, d, rfl, rfl, rfl, rfl, rfl, rfl, ?_, hf0, by rw [hd]; positivity, ?_, ?_, rfl, rfl,
    rfl, rfl, rfl, rfl, rfl, rfl⟩
  · show XR.fin 1 * .fin 20e-6 = _
    rw [XR.fin_mul, one_mul]
  · field_simp
  · rw [hd]
    have := hat.ne'
    field_simp
    norm_num

/-- **C62** (zero ground sample distance or altitude): ZeroDivisionError. -/
theorem C62_zero (r : RefImage) (h : ℝ) :
    (r.gsd = .fin 0 → r.estimateCaptureParameters (.fin h) = .error .zeroDivisionError)
    ∧ (∀ g : ℝ, g ≠ 0 → r.gsd = .fin g → r.estimateCaptureParameters (.fin 0) = .error .zeroDivisionError) := by
  have z : ∀ x : XR, Scal.div (.py x) (.py (.fin 0)) = .error .zeroDivisionError := by
    intro x
    exact (Scal.div_error_iff _ _ _).mpr ⟨rfl, trivial, trivial, rfl⟩
  constructor
  · intro hg
    unfold RefImage.estimateCaptureParameters
    simp only [hg, z, error_bind]
  · intro g hg0 hg
    have hp : (20e-6 : XR) = .fin 20e-6 := rfl
    have c1 : (XR.fin 0 * 20e-6 : XR) = .fin 0 := by rw [hp, XR.fin_mul, zero_mul]
    have e : Scal.div (.py (.fin 0)) (.py (.fin g)) = .ok (.py (.fin 0)) := by
      unfold Scal.div
      simp only
      rw [if_neg, XR.fin_div _ hg0, zero_div]
      exact hg0
    unfold RefImage.estimateCaptureParameters
    simp only [hg, c1, e, ok_bind, z, error_bind]

/-- No atmosphere can be loaded, with or without interpolation, above 550 km. -/
theorem no_atmosphere_above (files : Files) {a : ℝ} (ha : 550000 < a) (rng : XR) (haze : ℤ) :
    loadNoInterp files (.fin a) rng haze = .error .indexError
    ∧ loadInterp files (.fin a) rng haze = .error .indexError := by
  constructor
  · apply C03_not_found
    intro a' g r e1 _ hr
    have e1 : a = a' := XR.fin_inj.mp e1
    exfalso
    have h := List.all_eq_true.mp decoder_altitude r hr.1
    have h' : r.altDm ≤ 5500000 := Nat.le_of_ble_eq_true h
    have h3 := hr.2.2.1
    have h4 : (r.altDm : ℝ) ≤ 5500000 := by exact_mod_cast h'
    linarith
  · apply C05_outside
    rintro ⟨b, g, e, -, -, h, -⟩
    rw [XR.fin_inj] at e
    linarith

/-- **C62** (default altitude, finding): the scenario estimated at the default altitude of 2000 km, and at every
altitude above 550 km, has no atmosphere: reading it raises IndexError whatever the database, and the simulator fails. -/
theorem C62_no_atmosphere (files : Files) (r : RefImage) {g h : ℝ} (hg : r.gsd = .fin g) (hg0 : 0 < g)
    (hh : 550000 < h) {s : Sensor} {sc : Scenario} (he : r.estimateCaptureParameters (.fin h) = .ok (s, sc)) :
    (sc.readAtm files).1 = .error .indexError
    ∧ ∀ env usable rng r' s', env.files = files → simulateImage env usable rng r' s' sc = .error .indexError := by
  obtain ⟨s', sc', f, d, e, -, -, -, -, -, -, -, -, -, -, ha, -⟩ := C62_capture r hg hg0 (show 0 < h by linarith)
  rw [he, Except.ok.injEq, Prod.mk.injEq] at e
  obtain ⟨-, rfl⟩ := e
  have hc : sc.atmCache = none := by
    unfold RefImage.estimateCaptureParameters at he
    simp only [bind_ok] at he
    obtain ⟨_, -, _, -, _, -, he⟩ := he
    rw [Except.ok.injEq, Prod.mk.injEq] at he
    rw [← he.2]; rfl
  have hr : (sc.readAtm files).1 = .error .indexError := by
    unfold Scenario.readAtm
    rw [hc]
    simp only
    have : dbLoad files ⟨sc.interp, sc.altitude, sc.groundRange, sc.ihaze⟩ = .error .indexError := by
      unfold dbLoad
      rw [ha]
      cases sc.interp
      · exact (no_atmosphere_above files hh _ _).1
      · exact (no_atmosphere_above files hh _ _).2
    rw [this]
  refine ⟨hr, ?_⟩
  rintro env usable rng r' s' rfl
  unfold simulateImage
  simp only [hr, error_bind]

/-- **C62** (default altitude): called without an altitude, the sensor and scenario are those of 2000 km, above
550 km: every estimate made with the default altitude is unusable. -/
theorem C62_default_altitude (r : RefImage) {g : ℝ} (hg : r.gsd = .fin g) (hg0 : 0 < g) :
    ∃ s sc, r.estimateCaptureParameters = .ok (s, sc) ∧ sc.altitude = .fin 2000000
      ∧ (∀ files : Files, (sc.readAtm files).1 = .error .indexError)
      ∧ ∀ env usable rng r' s', simulateImage env usable rng r' s' sc = .error .indexError := by
  obtain ⟨s, sc, f, d, e, -, -, -, -, -, -, -, -, -, -, ha, -⟩ := C62_capture r (h := 2000000) hg hg0 (by norm_num)
  exact ⟨s, sc, e, ha, fun files => (C62_no_atmosphere files r hg hg0 (by norm_num) e).1,
    fun env usable rng r' s' => (C62_no_atmosphere env.files r hg hg0 (by norm_num) e).2 env usable rng r' s' rfl⟩

/-- An image with a ground sample distance of 0.3 m. -/
example (img : Img) : (RefImage.mk img (.fin 0.3) [] [] "x").gsd = .fin 0.3 ∧ (0 : ℝ) < 0.3 := ⟨rfl, by norm_num⟩

/-! ## C63 -/

/-- A table of an increasing function on `[0, 1]`. -/
structure Spec.UnitTable (tbl : List (ℝ × ℝ)) : Prop where
  inc : Increasing tbl
  first : ∃ y, tbl.head? = some (0, y)
  last : ∃ y, tbl.getLast? = some (1, y)

theorem interp1dStrict_value {tbl : List (ℝ × ℝ)} (h : UnitTable tbl) {x : ℝ} (h0 : 0 ≤ x) (h1 : x ≤ 1) :
    interp1dStrict (tbl.map fun p => .fin p.1) (tbl.map fun p => .fin p.2) (.fin x) = .ok (.fin (tableAt tbl x))
    ∧ OnTable tbl x (tableAt tbl x) := by
  obtain ⟨y0, hf⟩ := h.first
  obtain ⟨y1, hl⟩ := h.last
  have hne : tbl ≠ [] := by rintro rfl; cases hf
  have m0 : (0, y0) ∈ tbl := List.mem_of_mem_head? (by rw [hf]; rfl)
  have m1 : (1, y1) ∈ tbl := List.mem_of_mem_getLast? (by rw [hl]; rfl)
  have hd : (tbl.map fun p => XR.fin p.1).head? = some (.fin 0) := by rw [List.head?_map, hf]; rfl
  have hg : (tbl.map fun p => XR.fin p.1).getLast? = some (.fin 1) := by rw [List.getLast?_map, hl]; rfl
  have hL : (tbl.map fun p => XR.fin p.2).headD .nan = .fin y0 := by
    rw [List.headD_eq_head?_getD, List.head?_map, hf]; rfl
  have hR : (tbl.map fun p => XR.fin p.2).getLastD .nan = .fin y1 := by
    rw [List.getLastD_eq_getLast?, List.getLast?_map, hl]; rfl
  have hz : (tbl.map fun p => XR.fin p.1).zip (tbl.map fun p => XR.fin p.2) = tbl.map finP := by
    rw [List.zip_map']; rfl
  rcases interpTable_fin x y0 y1 hne h.inc with ⟨-, k⟩ | ⟨y, e, k⟩ | ⟨-, k⟩
  · exact absurd (k _ m0) (not_lt.mpr h0)
  · have et := tableAt_onTable h.inc k
    refine ⟨?_, by rw [et]; exact k⟩
    unfold interp1dStrict
    simp only [hd, hg]
    rw [if_neg, hz, hL, hR, e, et]
    rw [XR.fin_lt, XR.fin_lt]
    push Not
    exact ⟨h0, h1⟩
  · exact absurd (k _ m1) (not_lt.mpr h1)

theorem trueImage_value {r : RefImage} {cal : List (ℝ × ℝ)} (hr : RefOf r cal) {tbl : List (ℝ × ℝ)}
    (ht : UnitTable tbl) :
    trueImage r (tbl.map fun p => .fin p.1) (tbl.map fun p => .fin p.2)
      = .ok (r.img.ravel.map fun x => .fin (tableAt tbl (unit (calAt cal x)))) := by
  unfold trueImage
  rw [hr.pix, hr.refl, imgToReflectance_value hr.valid, ok_bind, mapM_ok' (g := fun z => match z with
    | .fin y => .fin (tableAt tbl y)
    | z => z), List.map_map]
  · rfl
  · intro z hz
    obtain ⟨x, -, rfl⟩ := List.mem_map.mp hz
    have := unit_mem (calAt cal x)
    exact (interp1dStrict_value ht this.1 this.2).1

/-- **C63** (range): for every image with a valid calibration and every photoelectron table over reflectances 0 to 1, the
true image exists (the interpolation never rejects a pixel) and lies between any bounds of the table. -/
theorem C63_range {r : RefImage} {cal : List (ℝ × ℝ)} (hr : RefOf r cal) {tbl : List (ℝ × ℝ)} (ht : UnitTable tbl)
    {m M : ℝ} (hb : ∀ q ∈ tbl, m ≤ q.2 ∧ q.2 ≤ M) :
    ∃ out, trueImage r (tbl.map fun p => .fin p.1) (tbl.map fun p => .fin p.2) = .ok out
      ∧ out.length = r.img.ravel.length ∧ ∀ z ∈ out, ∃ y, z = .fin y ∧ m ≤ y ∧ y ≤ M := by
  refine ⟨_, trueImage_value hr ht, List.length_map _, ?_⟩
  intro z hz
  obtain ⟨x, -, rfl⟩ := List.mem_map.mp hz
  have := unit_mem (calAt cal x)
  exact ⟨_, rfl, (interp1dStrict_value ht this.1 this.2).2.range hb⟩

theorem OnTable_extended {tbl : List (ℝ × ℝ)} (hinc : Increasing tbl) (hl : 2 ≤ tbl.length) {x y : ℝ}
    (h : OnTable tbl x y) : OnExtended tbl x y := by
  rcases h with h | ⟨i, a, ya, b, yb, h1, h2, h3, h4, h5⟩
  · obtain ⟨y', -, e⟩ := interp1dSeg_fin x tbl hinc hl
    rwa [e.point hinc h] at e
  · exact ⟨i, a, ya, b, yb, h1, h2, Or.inl h3.le, Or.inl h4.le, h5⟩

theorem UnitTable.two {tbl : List (ℝ × ℝ)} (ht : UnitTable tbl) : 2 ≤ tbl.length := by
  obtain ⟨y0, hf⟩ := ht.first
  obtain ⟨y1, hl⟩ := ht.last
  match tbl, hf, hl with
  | [p], hf, hl =>
    have a := Option.some.inj hf
    have b := Option.some.inj hl
    rw [a] at b
    have := (Prod.mk.inj b).1
    norm_num at this
  | p :: q :: t, _, _ => simp

/-- **C63** (monotone): if brighter pixels have higher reflectance and higher reflectance gives more photoelectrons, a
brighter pixel never has fewer photoelectrons. -/
theorem C63_monotone {r : RefImage} {cal : List (ℝ × ℝ)} (hr : RefOf r cal) (hm : Brightening cal)
    {tbl : List (ℝ × ℝ)} (ht : UnitTable tbl) (htm : Brightening tbl) {i j : ℕ} {x x' : ℝ}
    (hi : r.img.ravel[i]? = some x) (hj : r.img.ravel[j]? = some x') (hx : x ≤ x') :
    ∃ out y y', trueImage r (tbl.map fun p => .fin p.1) (tbl.map fun p => .fin p.2) = .ok out
      ∧ out[i]? = some (.fin y) ∧ out[j]? = some (.fin y') ∧ y ≤ y' := by
  refine ⟨_, tableAt tbl (unit (calAt cal x)), tableAt tbl (unit (calAt cal x')), trueImage_value hr ht, ?_, ?_, ?_⟩
  · rw [List.getElem?_map, hi]; rfl
  · rw [List.getElem?_map, hj]; rfl
  · have u := unit_mem (calAt cal x)
    have u' := unit_mem (calAt cal x')
    have hc : calAt cal x ≤ calAt cal x' :=
      (calAt_spec hr.valid x).1.mono (rsort_increasing cal hr.valid.distinct) (rsort_brightening hm) (calAt_spec hr.valid x').1 hx
    have a := OnTable_extended ht.inc (UnitTable.two ht) (interp1dStrict_value ht u.1 u.2).2
    have b := OnTable_extended ht.inc (UnitTable.two ht) (interp1dStrict_value ht u'.1 u'.2).2
    exact a.mono ht.inc htm b (unit_mono hc)

theorem reflTable (pe : ℕ → ℝ) : UnitTable ((List.range 100).map fun (i : ℕ) => ((i : ℝ) / 99, pe i))
    ∧ vec 100 (fun i => (i : ℝ) / 99) = ((List.range 100).map fun (i : ℕ) => ((i : ℝ) / 99, pe i)).map (fun p => .fin p.1)
    ∧ vec 100 pe = ((List.range 100).map fun (i : ℕ) => ((i : ℝ) / 99, pe i)).map (fun p => .fin p.2) := by
  refine ⟨⟨?_, ?_, ?_⟩, ?_, ?_⟩
  · unfold Increasing
    rw [List.pairwise_map]
    refine List.pairwise_lt_range.imp ?_
    intro a b h
    have : (a : ℝ) < b := by exact_mod_cast h
    show (a : ℝ) / 99 < b / 99
    linarith
  · refine ⟨pe 0, ?_⟩
    rw [List.range_succ_eq_map]
    simp
  · refine ⟨pe 99, ?_⟩
    rw [List.range_succ]
    simp
  · rw [List.map_map]; rfl
  · rw [List.map_map]; rfl

/-- **C63** (sensor): with the photoelectron table of a usable sensor, whatever the integration time, the true image is an
affine function of the calibrated reflectance and never exceeds the full well. -/
theorem C63_well {r : RefImage} {cal : List (ℝ × ℝ)} (hr : RefOf r cal) {s : RealSensor} (hs : s.Usable)
    (hM : 0 < s.maxN) {rows : List (Fin 6 → ℝ)} (t : ℝ) (hpos : ∀ r ∈ s.rowsInBand rows, 0 < r 0)
    (hw : ∃ r ∈ s.rowsInBand rows, 0 < s.spectral (r 0) (greyRadiance r 1 300)) :
    ∃ (ref pe wl w : List XR) (refl : List ℝ) (out : List XR), reflectanceToPhotoelectrons (realAtm rows) s.toSensor (.fin t) = .ok (ref, pe, wl, w)
      ∧ imgToReflectance (r.img.ravel.map .fin) r.pixValues r.reflValues = .ok (refl.map .fin)
      ∧ trueImage r ref pe = .ok out
      ∧ (∃ c0 c1 : ℝ, out = refl.map fun x => .fin (c0 + c1 * x)) ∧ ∀ z ∈ out, ∃ y, z = .fin y ∧ y ≤ s.maxN := by
  obtain ⟨pe, w, e1, e2, ⟨c0, c1, e3⟩, -⟩ := C25_fits_well hs hM t 300 hpos hw
  obtain ⟨t1, t2, t3⟩ := reflTable pe
  set tbl := (List.range 100).map fun (i : ℕ) => ((i : ℝ) / 99, pe i) with htbl
  have hval := trueImage_value hr t1
  have haff : ∀ q ∈ tbl, q.2 = c0 + c1 * q.1 := by
    intro q hq
    obtain ⟨i, hi, rfl⟩ := List.mem_map.mp hq
    exact e3 i (List.mem_range.mp hi)
  have hline : ∀ x, 0 ≤ x → x ≤ 1 → tableAt tbl x = c0 + c1 * x := by
    intro x h0 h1
    rcases (interp1dStrict_value t1 h0 h1).2 with h | ⟨i, a, ya, b, yb, h1, h2, h3, h4, h5⟩
    · exact haff _ h
    · have ha := haff _ (List.mem_of_getElem? h1)
      have hb := haff _ (List.mem_of_getElem? h2)
      simp only at ha hb
      have : b - a ≠ 0 := by linarith
      rw [h5, ha, hb]
      unfold line
      field_simp
      ring
  refine ⟨_, _, _, _, r.img.ravel.map fun x => unit (calAt cal x), _, e1, ?_, ?_, ⟨c0, c1, rfl⟩, ?_⟩
  · rw [hr.pix, hr.refl, imgToReflectance_value hr.valid, List.map_map]; rfl
  · rw [t2, t3, hval, List.map_map]
    congr 1
    apply List.map_congr_left
    intro x _
    have := unit_mem (calAt cal x)
    rw [hline _ this.1 this.2]; rfl
  · intro z hz
    obtain ⟨y, hy, rfl⟩ := List.mem_map.mp hz
    obtain ⟨x, -, rfl⟩ := List.mem_map.mp hy
    refine ⟨_, rfl, ?_⟩
    have u := unit_mem (calAt cal x)
    have a := e2 0 (by norm_num)
    have b := e2 99 (by norm_num)
    rw [e3 0 (by norm_num)] at a
    rw [e3 99 (by norm_num)] at b
    norm_num at a b
    nlinarith [u.1, u.2]

/-- Photoelectron counts of a physical sensor are not negative. -/
theorem counts_nonneg {s : RealSensor} (hs : s.Usable) (hp : s.Physical) {n : ℕ} {A : ℕ → Fin 6 → ℝ}
    (hinc : ∀ i, i + 1 < n → A i 0 ≤ A (i + 1) 0) (hA : ∀ i < n, 0 < A i 0 ∧ 0 ≤ A i 1 ∧ 0 ≤ A i 2 ∧ 0 ≤ A i 4 ∧ 0 ≤ A i 5)
    {t r : ℝ} (ht : 0 ≤ t) (hn : 0 ≤ s.nTdi) (h0 : 0 ≤ r) (h1 : r ≤ 1) : 0 ≤ s.counts n A t r := by
  unfold RealSensor.counts RealSensor.rate
  have hd := hp.dark
  have : 0 ≤ trap n (fun i => A i 0) (fun i => s.spectral (A i 0) (greyRadiance (A i) r 300)) := by
    apply trap_nonneg hinc
    intro i hi
    obtain ⟨a0, a1, a2, a4, a5⟩ := hA i hi
    apply spectral_nonneg hs hp a0
    unfold greyRadiance
    have := planck_pos a0 (show (0 : ℝ) < 300 by norm_num)
    have : 0 ≤ (1 - r) * A i 1 * planck (A i 0) 300 := by
      have : 0 ≤ 1 - r := by linarith
      positivity
    have : 0 ≤ A i 5 * r / 0.15 := by positivity
    linarith
  positivity

/-- **C63** (not negative): for a physical sensor, a nonnegative integration time and an atmosphere with increasing
wavelengths and nonnegative entries, no photoelectron count of the table is negative, hence (`C63_range`) no pixel of the
true image. -/
theorem C63_nonneg {r : RefImage} {cal : List (ℝ × ℝ)} (hr : RefOf r cal) {s : RealSensor} (hs : s.Usable)
    (hp : s.Physical) (hn : 0 ≤ s.nTdi) (hM : 0 < s.maxN) {rows : List (Fin 6 → ℝ)} {t : ℝ} (ht : 0 ≤ t)
    (hpos : ∀ r ∈ s.rowsInBand rows, 0 < r 0 ∧ 0 ≤ r 1 ∧ 0 ≤ r 2 ∧ 0 ≤ r 4 ∧ 0 ≤ r 5)
    (hsort : rows.Pairwise fun p q => p 0 ≤ q 0)
    (hw : ∃ r ∈ s.rowsInBand rows, 0 < s.spectral (r 0) (greyRadiance r 1 300)) :
    ∃ ref pe wl w out, reflectanceToPhotoelectrons (realAtm rows) s.toSensor (.fin t) = .ok (ref, pe, wl, w)
      ∧ trueImage r ref pe = .ok out ∧ ∀ z ∈ out, ∃ y, z = .fin y ∧ 0 ≤ y ∧ y ≤ s.maxN := by
  obtain ⟨pe, w, e1, e2, -, ⟨c, hc, e4, -⟩, -⟩ := C25_fits_well hs hM t 300 (fun r hr => (hpos r hr).1) hw
  obtain ⟨t1, t2, t3⟩ := reflTable pe
  have hsort' : (s.rowsInBand rows).Pairwise fun p q => p 0 ≤ q 0 := hsort.filter _
  have hge : ∀ i < 100, 0 ≤ pe i := by
    intro i hi
    have h := e4 i hi
    have : 0 ≤ s.counts (s.rowsInBand rows).length (fun i => (s.rowsInBand rows).getD i 0) t (i / 99) := by
      have hi' : (i : ℝ) ≤ 99 := by exact_mod_cast (show i ≤ 99 by omega)
      apply counts_nonneg hs hp _ _ ht hn (by positivity) (by rw [div_le_one (by norm_num)]; exact hi')
      · intro k hk
        rw [List.getD_eq_getElem _ _ (by omega), List.getD_eq_getElem _ _ hk]
        exact (List.pairwise_iff_getElem.mp hsort') k (k + 1) _ hk (by omega)
      · intro k hk
        rw [List.getD_eq_getElem _ _ hk]
        exact hpos _ (List.getElem_mem _)
    rw [← h] at this
    exact nonneg_of_mul_nonneg_left this (by linarith)
  obtain ⟨out, o1, -, o2⟩ := C63_range hr t1 (m := 0) (M := s.maxN) (by
    intro q hq
    obtain ⟨i, hi, rfl⟩ := List.mem_map.mp hq
    exact ⟨hge i (List.mem_range.mp hi), e2 i (List.mem_range.mp hi)⟩)
  refine ⟨_, _, _, _, out, e1, ?_, o2⟩
  rw [t2, t3]
  exact o1

/-- Non-vacuity: a reference image with a calibration and the demonstration sensor's atmosphere. -/
example : RefOf (RefImage.mk ⟨2, 2, fun i j => 100 * i + j⟩ (.fin 0.3) [.fin 0, .fin 255] [.fin 0, .fin 1] "x")
    [(0, 0), (255, 1)] ∧ demoRows.Pairwise (fun p q => p 0 ≤ q 0)
    ∧ ∀ r ∈ demoSensor.rowsInBand demoRows, 0 < r 0 ∧ 0 ≤ r 1 ∧ 0 ≤ r 2 ∧ 0 ≤ r 4 ∧ 0 ≤ r 5 := by
  refine ⟨⟨⟨by simp, by simp⟩, rfl, rfl⟩, ?_, ?_⟩
  · simp [demoRows]
    norm_num
  · intro r hr
    have := (List.mem_filter.mp hr).1
    simp only [demoRows, List.mem_cons, List.not_mem_nil, or_false] at this
    rcases this with rfl | rfl | rfl <;> simp <;> norm_num

end PyBSM
