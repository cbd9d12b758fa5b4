import Verif.Lemmas.Calibration
import Verif.Lemmas.Percentile
import Verif.Lemmas.Image

/-!
# C60, C61: reflectance calibration and contrast stretching
-/

noncomputable section

open Classical

namespace PyBSM

open Spec

/-! ## C60 -/

/-- The reflectances that `img_to_reflectance` returns for a real image and calibration. -/
theorem C60_value {cal : List (ℝ × ℝ)} (h : Calibration cal) (img : List ℝ) :
    ∃ srt : List (ℝ × ℝ), srt.Perm cal ∧ Increasing srt ∧ ∃ f : ℝ → ℝ, (∀ x, OnExtended srt x (f x))
      ∧ imgToReflectance (img.map .fin) (cal.map fun p => .fin p.1) (cal.map fun p => .fin p.2)
        = .ok (img.map fun x => .fin (unit (f x))) :=
  ⟨rsort cal, rsort_perm cal, rsort_increasing cal h.distinct, calAt cal, fun x => (calAt_spec h x).1,
    imgToReflectance_value h img⟩

/-- **C60** (range): every pixel of the result is a finite number in `[0, 1]`. -/
theorem C60_range {cal : List (ℝ × ℝ)} (h : Calibration cal) (img : List ℝ) :
    ∃ out, imgToReflectance (img.map .fin) (cal.map fun p => .fin p.1) (cal.map fun p => .fin p.2) = .ok out
      ∧ out.length = img.length ∧ ∀ z ∈ out, ∃ y, z = .fin y ∧ 0 ≤ y ∧ y ≤ 1 := by
  refine ⟨_, imgToReflectance_value h img, List.length_map _, ?_⟩
  intro z hz
  obtain ⟨x, -, rfl⟩ := List.mem_map.mp hz
  exact ⟨_, rfl, unit_mem _⟩

/-- **C60** (order): the order in which the calibration pairs are given does not matter. -/
theorem C60_order {cal cal' : List (ℝ × ℝ)} (h : Calibration cal) (hp : cal.Perm cal') (img : List XR) :
    imgToReflectance img (cal.map fun p => .fin p.1) (cal.map fun p => .fin p.2)
      = imgToReflectance img (cal'.map fun p => .fin p.1) (cal'.map fun p => .fin p.2) := by
  have hd : (cal'.map Prod.fst).Nodup := (hp.map Prod.fst).nodup_iff.mp h.distinct
  have e : rsort cal = rsort cal' := increasing_unique (rsort_increasing cal h.distinct) (rsort_increasing cal' hd)
    ((rsort_perm cal).trans (hp.trans (rsort_perm cal').symm))
  have hz : ∀ c : List (ℝ × ℝ), (c.map fun p => XR.fin p.1).zip (c.map fun p => XR.fin p.2) = c.map finP := by
    intro c; rw [List.zip_map']; rfl
  have hne : ∀ c : List (ℝ × ℝ), c ≠ [] →
      ¬ ((c.map fun p => XR.fin p.1).length ≠ (c.map fun p => XR.fin p.2).length ∨ (c.map fun p => XR.fin p.1) = []) := by
    intro c hc; simp [hc]
  have h0 : cal ≠ [] := by
    rintro rfl
    have := h.two
    simp at this
  have h1 : cal' ≠ [] := by
    rintro rfl
    exact h0 hp.eq_nil
  unfold imgToReflectance
  rw [if_neg (hne cal h0), if_neg (hne cal' h1), hz, hz, sortKey_finP, sortKey_finP, e]

/-- **C60** (calibration points): a calibrated pixel value gets its reflectance, truncated to `[0, 1]`. -/
theorem C60_points {cal : List (ℝ × ℝ)} (h : Calibration cal) (img : List ℝ) {i : ℕ} {p r : ℝ}
    (hi : img[i]? = some p) (hp : (p, r) ∈ cal) :
    ∃ out, imgToReflectance (img.map .fin) (cal.map fun p => .fin p.1) (cal.map fun p => .fin p.2) = .ok out
      ∧ out[i]? = some (.fin (unit r)) ∧ (0 ≤ r → r ≤ 1 → out[i]? = some (.fin r)) := by
  have e : calAt cal p = r := (calAt_spec h p).1.point (rsort_increasing cal h.distinct)
    ((rsort_perm cal).mem_iff.mpr hp)
  have o : (img.map fun x => XR.fin (unit (calAt cal x)))[i]? = some (.fin (unit r)) := by
    rw [List.getElem?_map, hi, Option.map_some, e]
  exact ⟨_, imgToReflectance_value h img, o, fun h0 h1 => by rw [o, unit_self h0 h1]⟩

/-- **C60** (monotone): for a calibration in which larger pixel values are brighter, larger pixel values never get
a smaller reflectance, including values beyond the calibrated range. -/
theorem C60_monotone {cal : List (ℝ × ℝ)} (h : Calibration cal) (hm : Brightening cal) (img : List ℝ) {i j : ℕ}
    {x x' : ℝ} (hi : img[i]? = some x) (hj : img[j]? = some x') (hx : x ≤ x') :
    ∃ out y y', imgToReflectance (img.map .fin) (cal.map fun p => .fin p.1) (cal.map fun p => .fin p.2) = .ok out
      ∧ out[i]? = some (.fin y) ∧ out[j]? = some (.fin y') ∧ y ≤ y' := by
  refine ⟨_, unit (calAt cal x), unit (calAt cal x'), imgToReflectance_value h img, ?_, ?_, unit_mono ?_⟩
  · rw [List.getElem?_map, hi]; rfl
  · rw [List.getElem?_map, hj]; rfl
  · exact (calAt_spec h x).1.mono (rsort_increasing cal h.distinct) (rsort_brightening hm) (calAt_spec h x').1 hx

/-- **C60** (errors): an empty calibration or one whose two arrays differ in length raises ValueError. -/
theorem C60_errors (img pix refl : List XR) (h : pix = [] ∨ pix.length ≠ refl.length) :
    imgToReflectance img pix refl = .error .valueError := by
  unfold imgToReflectance
  rw [if_pos h.symm]

/-- **C60** (single point, finding): with one calibration point there is no ValueError, contrary to the documentation:
every pixel becomes nan. -/
theorem C60_single (img : List XR) (p r : XR) : imgToReflectance img [p] [r] = .ok (img.map fun _ => .nan) := by
  unfold imgToReflectance
  rw [if_neg (by simp)]
  congr 1
  apply List.map_congr_left
  intro x _
  show clip01 XR.nan = XR.nan
  unfold clip01
  have h1 : ¬ XR.lt 1 XR.nan := id
  have h2 : ¬ XR.lt XR.nan 0 := id
  simp only [if_neg h1, if_neg h2]

/-- **C60** (equal pixel values, finding): two calibration points at the same pixel value, as the default calibration has
for an image that is (almost) constant, turn the image into pure black and white, and pixels at that value into nan. -/
theorem C60_equal_pixels (p lo hi x : ℝ) (h : lo < hi) :
    imgToReflectance [.fin x] [.fin p, .fin p] [.fin lo, .fin hi]
      = .ok [if p < x then 1 else if x < p then 0 else .nan] := by
  unfold imgToReflectance
  rw [if_neg (by simp)]
  congr 1
  have hs : sortKey ([XR.fin p, .fin p].zip [XR.fin lo, .fin hi]) = [(.fin p, .fin lo), (.fin p, .fin hi)] := by
    show (if XR.lt (.fin p) (.fin p) then _ else _) = _
    rw [if_neg]
    rw [XR.fin_lt]
    exact lt_irrefl p
  rw [hs]
  show [clip01 (segment _ _ _ _ _)] = _
  congr 1
  unfold segment
  have e1 : (XR.fin hi - XR.fin lo) / (XR.fin p - XR.fin p) = .pinf := by
    xr_simp
    rw [sub_self, XR.fin_div_zero, XR.mulInf, if_pos (by linarith)]
  rw [e1]
  have e2 : XR.fin x - .fin p = .fin (x - p) := by xr_simp
  rw [e2]
  have e3 : XR.pinf * XR.fin (x - p) = if p < x then .pinf else if x < p then .ninf else .nan := by
    show XR.mulInf (x - p) = _
    unfold XR.mulInf
    simp only [sub_pos, sub_neg]
  rw [e3]
  unfold clip01
  rcases lt_trichotomy p x with h | h | h
  · simp only [if_pos h]
    have e4 : XR.pinf + XR.fin lo = .pinf := rfl
    have a1 : XR.lt 1 XR.pinf := trivial
    have a2 : ¬ XR.lt 1 0 := by
      show ¬ (1 : ℝ) < 0
      norm_num
    rw [e4, if_pos a1, if_neg a2]
  · subst h
    simp only [lt_irrefl, if_false]
    have e4 : XR.nan + XR.fin lo = .nan := rfl
    have a1 : ¬ XR.lt 1 XR.nan := id
    have a2 : ¬ XR.lt XR.nan 0 := id
    rw [e4, if_neg a1, if_neg a2]
  · simp only [if_neg (not_lt.mpr h.le), if_pos h]
    have e4 : XR.ninf + XR.fin lo = .ninf := rfl
    have h1 : ¬ XR.lt 1 XR.ninf := id
    have h2 : XR.lt XR.ninf 0 := trivial
    rw [e4, if_neg h1, if_pos h2]

/-- Non-vacuity: an unsorted calibration with three points. -/
example : Calibration [(200, 0.9), (10, 0.1), (100, 0.5)] ∧ Brightening [(200, 0.9), (10, 0.1), (100, 0.5)] := by
  refine ⟨⟨by simp, by simp⟩, ?_⟩
  intro p hp q hq h
  simp only [List.mem_cons, List.not_mem_nil, or_false] at hp hq
  rcases hp with rfl | rfl | rfl <;> rcases hq with rfl | rfl | rfl <;> first | (norm_num; done) | (exfalso; norm_num at h; done)

/-! ## C61 -/

theorem roundHalfEven_mono {x y : ℝ} (h : x ≤ y) : roundHalfEven x ≤ roundHalfEven y := by
  have h1 : ∀ z : ℝ, ⌊z⌋ ≤ roundHalfEven z ∧ roundHalfEven z ≤ ⌊z⌋ + 1 := by
    intro z
    unfold roundHalfEven
    split_ifs <;> omega
  have hf := Int.floor_le_floor h
  rcases lt_or_eq_of_le hf with e | e
  · have := h1 x; have := h1 y; omega
  · unfold roundHalfEven
    rw [← e]
    split_ifs <;> first | omega | (exfalso; linarith)

/-- The 8-bit value of a pixel between two percentile values. -/
theorem stretch_pixel {lo hi v : ℝ} (h : lo < hi) :
    toUint8 (clip255 (.fin (v - lo) / .fin ((hi - lo) / 255)))
      = some (roundHalfEven (255 * unit ((v - lo) / (hi - lo)))).toNat := by
  have hd : 0 < hi - lo := by linarith
  rw [XR.fin_div _ (by positivity)]
  unfold clip255
  have z : (0 : XR) = .fin 0 := rfl
  have t : (255 : XR) = .fin 255 := rfl
  rw [z, t, XR.fin_max, XR.fin_min]
  show some _ = some _
  congr 3
  have e : (v - lo) / ((hi - lo) / 255) = 255 * ((v - lo) / (hi - lo)) := by field_simp
  rw [e]
  unfold unit
  set q := (v - lo) / (hi - lo)
  rcases le_total q 0 with h | h
  · rw [max_eq_right (show 255 * q ≤ 0 by linarith), min_eq_left (show (0 : ℝ) ≤ 255 by norm_num),
      min_eq_right (show q ≤ 1 by linarith), max_eq_left h, mul_zero]
  · rw [max_eq_left (by linarith)]
    rcases le_total q 1 with h' | h'
    · rw [min_eq_left (by linarith), min_eq_right h', max_eq_right h]
    · rw [min_eq_right (by linarith), min_eq_left h', max_eq_right zero_le_one, mul_one]

theorem stretch_pixel_flat (v lo : ℝ) :
    toUint8 (clip255 (.fin (v - lo) / .fin 0)) = if lo < v then some 255 else if v < lo then some 0 else none := by
  have r255 : (roundHalfEven 255).toNat = 255 := by
    have : roundHalfEven 255 = 255 := by
      apply round_unique (roundHalfEven_spec _)
      refine ⟨by norm_num, fun h => by norm_num at h⟩
    rw [this]; rfl
  have r0 : (roundHalfEven 0).toNat = 0 := by
    have : roundHalfEven 0 = 0 := by
      apply round_unique (roundHalfEven_spec _)
      refine ⟨by norm_num, fun h => by norm_num at h⟩
    rw [this]; rfl
  rw [XR.fin_div_zero]
  unfold clip255 XR.mulInf
  rcases lt_trichotomy lo v with h | h | h
  · rw [if_pos (by linarith), if_pos h]
    have e : XR.min (XR.max XR.pinf 0) 255 = .fin 255 := by
      have : XR.max XR.pinf 0 = .pinf := by
        unfold XR.max
        rw [if_neg (by rintro (h | h) <;> exact h), if_neg (show ¬ XR.lt XR.pinf 0 from id)]
      rw [this]
      unfold XR.min
      rw [if_neg (by rintro (h | h) <;> exact h), if_pos (show XR.lt 255 XR.pinf from trivial)]; rfl
    rw [e]; show some _ = _; rw [r255]
  · subst h
    rw [if_neg (by simp), if_neg (by simp), if_neg (lt_irrefl _), if_neg (lt_irrefl _)]
    have e : XR.min (XR.max XR.nan 0) 255 = .nan := by
      have : XR.max XR.nan 0 = .nan := by
        unfold XR.max; rw [if_pos (Or.inl (show XR.isNan XR.nan from trivial))]
      rw [this]
      unfold XR.min; rw [if_pos (Or.inl (show XR.isNan XR.nan from trivial))]
    rw [e]; rfl
  · rw [if_neg (by linarith), if_pos (by linarith), if_neg (by linarith), if_pos h]
    have e : XR.min (XR.max XR.ninf 0) 255 = .fin 0 := by
      have : XR.max XR.ninf 0 = 0 := by
        unfold XR.max
        rw [if_neg (by rintro (h | h) <;> exact h), if_pos (show XR.lt XR.ninf 0 from trivial)]
      rw [this]
      have z : (0 : XR) = .fin 0 := rfl
      have t : (255 : XR) = .fin 255 := rfl
      rw [z, t, XR.fin_min, min_eq_left (by norm_num)]
    rw [e]; show some _ = _; rw [r0]

theorem percentile_shift {a : List ℝ} (ha : a ≠ []) {q : ℝ} (h0 : 0 ≤ q) (h1 : q ≤ 100) (d : ℝ) :
    percentile (a.map (· - d)) q = percentile a q - d := by
  have := percentile_affine ha h0 h1 one_pos (-d)
  rw [one_mul] at this
  rw [← sub_eq_add_neg] at this
  rw [← this]
  congr 2
  funext x
  ring

/-- The output pixel by pixel. -/
theorem stretch_value {img : List ℝ} (ha : img ≠ []) {p0 p1 : ℝ} (h0 : 0 ≤ p0) (h : p0 ≤ p1) (h1 : p1 ≤ 100) :
    stretchContrast img p0 p1 = img.map fun v =>
      if percentile img p0 < percentile img p1 then
        some (roundHalfEven (255 * unit ((v - percentile img p0) / (percentile img p1 - percentile img p0)))).toNat
      else if percentile img p0 < v then some 255 else if v < percentile img p0 then some 0 else none := by
  unfold stretchContrast
  dsimp only
  rw [percentile_shift ha (h0.trans h) h1, List.map_map]
  apply List.map_congr_left
  intro v _
  show toUint8 (clip255 (.fin (v - percentile img p0) / .fin ((percentile img p1 - percentile img p0) / 255))) = _
  by_cases hlt : percentile img p0 < percentile img p1
  · rw [if_pos hlt, stretch_pixel hlt]
  · have e : percentile img p1 - percentile img p0 = 0 := by
      linarith [percentile_mono ha h0 h h1, not_lt.mp hlt]
    rw [if_neg hlt, e, zero_div, stretch_pixel_flat]

theorem round_unit_range (q : ℝ) : 0 ≤ roundHalfEven (255 * unit q) ∧ roundHalfEven (255 * unit q) ≤ 255 := by
  have h := unit_mem q
  have a := roundHalfEven_mono (show (0 : ℝ) ≤ 255 * unit q by linarith)
  have b := roundHalfEven_mono (show 255 * unit q ≤ (255 : ℝ) by linarith)
  have e0 : roundHalfEven 0 = 0 := by
    apply round_unique (roundHalfEven_spec _)
    refine ⟨by norm_num, fun h => by norm_num at h⟩
  have e1 : roundHalfEven 255 = 255 := by
    apply round_unique (roundHalfEven_spec _)
    refine ⟨by norm_num, fun h => by norm_num at h⟩
  rw [e0] at a; rw [e1] at b
  exact ⟨a, b⟩

/-- **C61** (linear map): if the two percentiles differ, pixel `v` becomes the integer nearest (ties to even) to 255
times its position between them, clipped to `[0, 1]`; in particular 0..255, with 0 up to the lower and 255 from the
upper percentile. -/
theorem C61_linear {img : List ℝ} (ha : img ≠ []) {p0 p1 : ℝ} (h0 : 0 ≤ p0) (h : p0 ≤ p1) (h1 : p1 ≤ 100)
    {lo hi : ℝ} (hlo : IsPercentile img p0 lo) (hhi : IsPercentile img p1 hi) (hlt : lo < hi) {i : ℕ} {v : ℝ}
    (hv : img[i]? = some v) :
    ∃ n : ℕ, (stretchContrast img p0 p1)[i]? = some (some n) ∧ n ≤ 255
      ∧ IsRoundHalfEven (255 * unit ((v - lo) / (hi - lo))) n ∧ (v ≤ lo → n = 0) ∧ (hi ≤ v → n = 255) := by
  rw [percentile_iff ha h0 (h.trans h1)] at hlo
  rw [percentile_iff ha (h0.trans h) h1] at hhi
  subst hlo hhi
  set q := (v - percentile img p0) / (percentile img p1 - percentile img p0) with hq
  have hr := round_unit_range q
  have hd : 0 < percentile img p1 - percentile img p0 := by linarith
  have hc : ((roundHalfEven (255 * unit q)).toNat : ℤ) = roundHalfEven (255 * unit q) := Int.toNat_of_nonneg hr.1
  refine ⟨(roundHalfEven (255 * unit q)).toNat, ?_, by omega, ?_, ?_, ?_⟩
  · rw [stretch_value ha h0 h h1, List.getElem?_map, hv]
    simp only [Option.map_some, if_pos hlt, hq]
  · rw [hc]; exact roundHalfEven_spec _
  · intro hv
    have : unit q = 0 := by
      have : q ≤ 0 := div_nonpos_of_nonpos_of_nonneg (by linarith) hd.le
      unfold unit
      rw [min_eq_right (by linarith), max_eq_left this]
    rw [this, mul_zero]
    have : roundHalfEven 0 = 0 := by
      apply round_unique (roundHalfEven_spec _)
      refine ⟨by norm_num, fun h => by norm_num at h⟩
    rw [this]; rfl
  · intro hv
    have : unit q = 1 := by
      have : 1 ≤ q := (one_le_div hd).mpr (by linarith)
      unfold unit
      rw [min_eq_left this, max_eq_right zero_le_one]
    rw [this, mul_one]
    have : roundHalfEven 255 = 255 := by
      apply round_unique (roundHalfEven_spec _)
      refine ⟨by norm_num, fun h => by norm_num at h⟩
    rw [this]; rfl

/-- **C61** (degenerate percentiles): if they coincide, pixels above become 255, pixels below 0, and the others are the
cast of nan, which is undefined. -/
theorem C61_degenerate {img : List ℝ} (ha : img ≠ []) {p0 p1 : ℝ} (h0 : 0 ≤ p0) (h : p0 ≤ p1) (h1 : p1 ≤ 100)
    {c : ℝ} (hlo : IsPercentile img p0 c) (hhi : IsPercentile img p1 c) {i : ℕ} {v : ℝ} (hv : img[i]? = some v) :
    (stretchContrast img p0 p1)[i]? = some (if c < v then some 255 else if v < c then some 0 else none) := by
  rw [percentile_iff ha h0 (h.trans h1)] at hlo
  rw [percentile_iff ha (h0.trans h) h1] at hhi
  subst hlo
  rw [stretch_value ha h0 h h1, List.getElem?_map, hv]
  simp only [Option.map_some, if_neg (not_lt.mpr hhi.symm.le)]

/-- **C61** (percentiles): every percentile of a non-empty image exists and is unique, so the two theorems above cover
every such image. -/
theorem C61_percentiles {img : List ℝ} (ha : img ≠ []) {p0 p1 : ℝ} (h0 : 0 ≤ p0) (h : p0 ≤ p1) (h1 : p1 ≤ 100) :
    ∃ lo hi, lo ≤ hi ∧ (∀ v, IsPercentile img p0 v ↔ v = lo) ∧ (∀ v, IsPercentile img p1 v ↔ v = hi) :=
  ⟨_, _, percentile_mono ha h0 h h1, percentile_iff ha h0 (h.trans h1), percentile_iff ha (h0.trans h) h1⟩

/-- **C61** (default): without percentile arguments the map runs from the 0.1th to the 99.9th percentile. -/
theorem C61_default {img : List ℝ} (ha : img ≠ []) {lo hi : ℝ} (hlo : IsPercentile img 0.1 lo)
    (hhi : IsPercentile img 99.9 hi) (hlt : lo < hi) {i : ℕ} {v : ℝ} (hv : img[i]? = some v) :
    ∃ n : ℕ, (stretchContrast img)[i]? = some (some n) ∧ IsRoundHalfEven (255 * unit ((v - lo) / (hi - lo))) n := by
  obtain ⟨n, h1, _, h2, _⟩ := C61_linear ha (by norm_num) (by norm_num) (by norm_num) hlo hhi hlt hv
  exact ⟨n, h1, h2⟩

/-- **C61** (constant images): every pixel is undefined. -/
theorem C61_constant (n : ℕ) (c : ℝ) {p0 p1 : ℝ} (h0 : 0 ≤ p0) (h : p0 ≤ p1) (h1 : p1 ≤ 100) :
    stretchContrast (List.replicate (n + 1) c) p0 p1 = List.replicate (n + 1) none := by
  have ha : List.replicate (n + 1) c ≠ [] := by simp
  have hb : ∀ x ∈ List.replicate (n + 1) c, c ≤ x ∧ x ≤ c := by
    intro x hx
    rw [List.eq_of_mem_replicate hx]
    exact ⟨le_rfl, le_rfl⟩
  have e : ∀ q : ℝ, 0 ≤ q → q ≤ 100 → percentile (List.replicate (n + 1) c) q = c := by
    intro q a b
    have := percentile_mem ha a b hb
    exact le_antisymm this.2 this.1
  rw [stretch_value ha h0 h h1, e p0 h0 (h.trans h1), e p1 (h0.trans h) h1, List.map_replicate]
  simp

/-- **C61** (range): as many pixels as the image, each an integer in 0..255 or undefined. -/
theorem C61_range {img : List ℝ} (ha : img ≠ []) {p0 p1 : ℝ} (h0 : 0 ≤ p0) (h : p0 ≤ p1) (h1 : p1 ≤ 100) :
    (stretchContrast img p0 p1).length = img.length
    ∧ ∀ n, some n ∈ stretchContrast img p0 p1 → n ≤ 255 := by
  rw [stretch_value ha h0 h h1]
  refine ⟨List.length_map _, ?_⟩
  intro n hn
  obtain ⟨v, -, hv⟩ := List.mem_map.mp hn
  split_ifs at hv with a b c
  · have := round_unit_range ((v - percentile img p0) / (percentile img p1 - percentile img p0))
    rw [Option.some.injEq] at hv
    omega
  · rw [Option.some.injEq] at hv; omega
  · rw [Option.some.injEq] at hv; omega

/-- **C61** (monotone): a brighter pixel never becomes darker, wherever both are defined. -/
theorem C61_monotone {img : List ℝ} (ha : img ≠ []) {p0 p1 : ℝ} (h0 : 0 ≤ p0) (h : p0 ≤ p1) (h1 : p1 ≤ 100)
    {i j m n : ℕ} {v w : ℝ} (hi : img[i]? = some v) (hj : img[j]? = some w) (hvw : v ≤ w)
    (hm : (stretchContrast img p0 p1)[i]? = some (some m)) (hn : (stretchContrast img p0 p1)[j]? = some (some n)) :
    m ≤ n := by
  rw [stretch_value ha h0 h h1, List.getElem?_map, hi] at hm
  rw [stretch_value ha h0 h h1, List.getElem?_map, hj] at hn
  simp only [Option.map_some, Option.some.injEq] at hm hn
  by_cases hlt : percentile img p0 < percentile img p1
  · rw [if_pos hlt, Option.some.injEq] at hm hn
    rw [← hm, ← hn]
    apply Int.toNat_le_toNat
    apply roundHalfEven_mono
    have := unit_mono (div_le_div_of_nonneg_right (show v - percentile img p0 ≤ w - percentile img p0 by linarith)
      (show 0 ≤ percentile img p1 - percentile img p0 by linarith))
    linarith
  · rw [if_neg hlt] at hm hn
    split_ifs at hm hn
    all_goals (rw [Option.some.injEq] at hm hn)
    all_goals first | omega | (exfalso; linarith)

/-- **C61** (invariance): the output does not change if the image is scaled by a positive factor and shifted. -/
theorem C61_invariant {img : List ℝ} (ha : img ≠ []) {p0 p1 : ℝ} (h0 : 0 ≤ p0) (h : p0 ≤ p1) (h1 : p1 ≤ 100)
    {c : ℝ} (hc : 0 < c) (d : ℝ) :
    stretchContrast (img.map fun x => c * x + d) p0 p1 = stretchContrast img p0 p1 := by
  rw [stretch_value (by simpa using ha) h0 h h1, stretch_value ha h0 h h1, List.map_map,
    percentile_affine ha h0 (h.trans h1) hc, percentile_affine ha (h0.trans h) h1 hc]
  apply List.map_congr_left
  intro v _
  have k : ∀ x y : ℝ, c * x + d < c * y + d ↔ x < y := by
    intro x y
    rw [add_lt_add_iff_right, mul_lt_mul_iff_right₀ hc]
  simp only [Function.comp, k]
  have : (c * v + d - (c * percentile img p0 + d)) / (c * percentile img p1 + d - (c * percentile img p0 + d))
      = (v - percentile img p0) / (percentile img p1 - percentile img p0) := by
    rw [show c * v + d - (c * percentile img p0 + d) = c * (v - percentile img p0) by ring,
      show c * percentile img p1 + d - (c * percentile img p0 + d) = c * (percentile img p1 - percentile img p0) by ring,
      mul_div_mul_left _ _ hc.ne']
  rw [this]

/-- Non-vacuity of `C61_linear`: the image 0, 10 and its extreme percentiles. -/
example : IsPercentile [0, 10] 0 0 ∧ IsPercentile [0, 10] 100 10 ∧ (0 : ℝ) < 10 := by
  refine ⟨⟨[0, 10], List.Perm.refl _, by simp, 0, 0, rfl, Or.inl ⟨by norm_num, rfl⟩⟩,
    ⟨[0, 10], List.Perm.refl _, by simp, 1, 10, rfl, Or.inl ⟨by norm_num, rfl⟩⟩, by norm_num⟩

/-- Non-vacuity of `C61_default`: for the image 10, 0 the default percentiles are 0.01 and 9.99. -/
example : IsPercentile [10, 0] 0.1 0.01 ∧ IsPercentile [10, 0] 99.9 9.99 ∧ (0.01 : ℝ) < 9.99 := by
  refine ⟨⟨[0, 10], List.Perm.swap _ _ _, by simp, 0, 0, rfl, Or.inr ⟨by norm_num, by norm_num, 10, rfl, ?_⟩⟩,
    ⟨[0, 10], List.Perm.swap _ _ _, by simp, 0, 0, rfl, Or.inr ⟨by norm_num, by norm_num, 10, rfl, ?_⟩⟩, by norm_num⟩
  all_goals
    unfold line
    norm_num

/-- Non-vacuity of `C61_degenerate`: in the image 0, 5, 5, 5, 9 the percentiles 25 and 75 are both 5. -/
example : IsPercentile [0, 5, 5, 5, 9] 25 5 ∧ IsPercentile [0, 5, 5, 5, 9] 75 5 := by
  refine ⟨⟨[0, 5, 5, 5, 9], List.Perm.refl _, ?_, 1, 5, rfl, Or.inl ⟨by norm_num, rfl⟩⟩,
    ⟨[0, 5, 5, 5, 9], List.Perm.refl _, ?_, 3, 5, rfl, Or.inl ⟨by norm_num, rfl⟩⟩⟩
  all_goals norm_num [List.pairwise_cons]

end PyBSM
