import Verif.Spec.Encoding
import Verif.Props.Exchange
import Verif.Props.Calibration
import Verif.Props.SimulateDemo

/-!
# C130: a reference image may be re-encoded

Gain and offset of the pixel values of a reference image do not matter if its calibration is converted along, or is the
default one.
-/

noncomputable section

open Classical

namespace PyBSM

open Spec

theorem XR.mulInf_mul_scale {k : ℝ} (hk : 0 < k) (x e : ℝ) :
    XR.mulInf x * .fin (k * e) = XR.mulInf x * .fin e := by
  unfold XR.mulInf
  split_ifs
  · exact XR.mulInf_scale hk e
  · exact congrArg XR.neg (XR.mulInf_scale hk e)
  · rfl

theorem XR.div_scale {k : ℝ} (hk : 0 < k) (y : XR) (d e : ℝ) :
    y / .fin (k * d) * .fin (k * e) = y / .fin d * .fin e := by
  have hs : k * d < 0 ↔ d < 0 := by
    constructor
    · intro h; by_contra h'; nlinarith [mul_nonneg hk.le (not_lt.mp h')]
    · intro h; nlinarith
  have hp : ∀ e : ℝ, XR.pinf * .fin (k * e) = XR.pinf * .fin e := fun e => XR.mulInf_scale hk e
  have hn : ∀ e : ℝ, XR.ninf * .fin (k * e) = XR.ninf * .fin e := fun e => congrArg XR.neg (XR.mulInf_scale hk e)
  cases y with
  | fin u =>
    rcases eq_or_ne d 0 with rfl | hd
    · rw [mul_zero, XR.fin_div_zero, XR.mulInf_mul_scale hk]
    · rw [XR.fin_div _ (mul_ne_zero hk.ne' hd), XR.fin_div _ hd, XR.fin_mul, XR.fin_mul]
      congr 1
      field_simp
  | pinf =>
    show (if k * d < 0 then XR.ninf else .pinf) * _ = (if d < 0 then XR.ninf else .pinf) * _
    by_cases h : d < 0
    · rw [if_pos (hs.mpr h), if_pos h, hn]
    · rw [if_neg (fun a => h (hs.mp a)), if_neg h, hp]
  | ninf =>
    show (if k * d < 0 then XR.pinf else .ninf) * _ = (if d < 0 then XR.pinf else .ninf) * _
    by_cases h : d < 0
    · rw [if_pos (hs.mpr h), if_pos h, hp]
    · rw [if_neg (fun a => h (hs.mp a)), if_neg h, hn]
  | nan => rfl

theorem segment_gain {a : ℝ} (ha : 0 < a) (b x0 x1 x : ℝ) (y0 y1 : XR) :
    segment (.fin (a * x0 + b)) y0 (.fin (a * x1 + b)) y1 (.fin (a * x + b))
      = segment (.fin x0) y0 (.fin x1) y1 (.fin x) := by
  unfold segment
  have e : ∀ u v : ℝ, (XR.fin (a * u + b)) - .fin (a * v + b) = .fin (a * (u - v)) := by
    intro u v
    rw [XR.fin_sub]
    congr 1
    ring
  have e' : ∀ u v : ℝ, (XR.fin u) - .fin v = .fin (u - v) := fun u v => XR.fin_sub u v
  rw [e, e, e', e', XR.div_scale ha]

theorem gain_lt {a : ℝ} (ha : 0 < a) (b x y : ℝ) : a * x + b < a * y + b ↔ x < y := by
  rw [add_lt_add_iff_right, mul_lt_mul_iff_right₀ ha]

theorem insertKey_gain {a : ℝ} (ha : 0 < a) (b : ℝ) (p : ℝ × XR) : ∀ t : List (ℝ × XR),
    ∃ s : List (ℝ × XR),
      insertKey (.fin p.1, p.2) (t.map fun q => (.fin q.1, q.2)) = s.map (fun q => (.fin q.1, q.2))
      ∧ insertKey (.fin (a * p.1 + b), p.2) (t.map fun q => (.fin (a * q.1 + b), q.2))
        = s.map fun q => (.fin (a * q.1 + b), q.2)
  | [] => ⟨[p], rfl, rfl⟩
  | q :: t => by
    obtain ⟨s, h1, h2⟩ := insertKey_gain ha b p t
    simp only [List.map_cons, insertKey, XR.fin_lt, gain_lt ha]
    by_cases h : q.1 < p.1
    · refine ⟨q :: s, ?_, ?_⟩
      · rw [if_pos h, h1]; rfl
      · rw [if_pos h, h2]; rfl
    · refine ⟨p :: q :: t, ?_, ?_⟩
      · rw [if_neg h]; rfl
      · rw [if_neg h]; rfl

theorem sortKey_gain {a : ℝ} (ha : 0 < a) (b : ℝ) : ∀ t : List (ℝ × XR), ∃ s : List (ℝ × XR),
    sortKey (t.map fun q => (.fin q.1, q.2)) = s.map (fun q => (.fin q.1, q.2))
      ∧ sortKey (t.map fun q => (.fin (a * q.1 + b), q.2)) = s.map fun q => (.fin (a * q.1 + b), q.2)
  | [] => ⟨[], rfl, rfl⟩
  | p :: t => by
    obtain ⟨s, h1, h2⟩ := sortKey_gain ha b t
    obtain ⟨s', h3, h4⟩ := insertKey_gain ha b p s
    refine ⟨s', ?_, ?_⟩
    · simp only [List.map_cons, sortKey]
      rw [h1, h3]
    · simp only [List.map_cons, sortKey]
      rw [h2, h4]

theorem interp1dSeg_gain {a : ℝ} (ha : 0 < a) (b x : ℝ) : ∀ t : List (ℝ × XR),
    interp1dSeg (.fin (a * x + b)) (t.map fun q => (.fin (a * q.1 + b), q.2))
      = interp1dSeg (.fin x) (t.map fun q => (.fin q.1, q.2))
  | [] => rfl
  | [_] => rfl
  | [p, q] => segment_gain ha b p.1 q.1 x p.2 q.2
  | p :: q :: r :: t => by
    have ih := interp1dSeg_gain ha b x (q :: r :: t)
    simp only [List.map_cons, interp1dSeg] at ih ⊢
    have e : XR.le (.fin (a * x + b)) (.fin (a * q.1 + b)) ↔ XR.le (.fin x) (.fin q.1) := by
      rw [XR.fin_le, XR.fin_le, add_le_add_iff_right, mul_le_mul_iff_right₀ ha]
    by_cases h : XR.le (.fin x) (.fin q.1)
    · rw [if_pos h, if_pos (e.mpr h), segment_gain ha]
    · rw [if_neg h, if_neg (fun k => h (e.mp k))]
      exact ih

theorem OnExtended.unique {t : List (ℝ × ℝ)} (hinc : Increasing t) {x y y' : ℝ}
    (h : OnExtended t x y) (h' : OnExtended t x y') : y = y' := by
  obtain ⟨i, a, ya, b, yb, h1, h2, h3, h4, h5⟩ := h
  obtain ⟨j, c, yc, d, yd, k1, k2, k3, k4, k5⟩ := h'
  have key : ∀ {i j : ℕ} {a ya b yb c yc d yd y y' : ℝ}, t[i]? = some (a, ya) → t[i + 1]? = some (b, yb)
      → (x ≤ b ∨ i + 2 = t.length) → y = line a ya b yb x → t[j]? = some (c, yc) → t[j + 1]? = some (d, yd)
      → (c ≤ x ∨ j = 0) → y' = line c yc d yd x → i < j → y = y' := by
    intro i j a ya b yb c yc d yd y y' h1 h2 h4 h5 k1 k2 k3 k5 hij
    have l2 := (List.getElem?_eq_some_iff.mp k2).1
    have hab : a < b := hinc.lt_of_getElem? h1 h2 (by omega)
    have e1 : x ≤ b := by rcases h4 with h | h; exact h; omega
    have e2 : c ≤ x := by rcases k3 with h | h; exact h; omega
    rcases Nat.eq_or_lt_of_le (show i + 1 ≤ j by omega) with e | e
    · subst e
      rw [h2] at k1
      have := Option.some.inj k1
      simp only [Prod.mk.injEq] at this
      obtain ⟨rfl, rfl⟩ := this
      have ex : x = b := le_antisymm e1 e2
      rw [h5, k5, ex, line_left, line_right hab.ne]
    · have := hinc.lt_of_getElem? h2 k1 e
      linarith
  rcases lt_trichotomy i j with hij | hij | hij
  · exact key h1 h2 h4 h5 k1 k2 k3 k5 hij
  · subst hij
    rw [h1] at k1; rw [h2] at k2
    have u := Option.some.inj k1
    have v := Option.some.inj k2
    simp only [Prod.mk.injEq] at u v
    rw [h5, k5, u.1, u.2, v.1, v.2]
  · exact (key k1 k2 k4 k5 h1 h2 h3 h5 hij).symm

theorem line_affine {a : ℝ} (ha : a ≠ 0) (b x0 y0 x1 y1 x : ℝ) :
    line (a * x0 + b) y0 (a * x1 + b) y1 (a * x + b) = line x0 y0 x1 y1 x := by
  unfold line
  have e : (a * x + b - (a * x0 + b)) / (a * x1 + b - (a * x0 + b)) = (x - x0) / (x1 - x0) := by
    rw [show a * x + b - (a * x0 + b) = a * (x - x0) by ring, show a * x1 + b - (a * x0 + b) = a * (x1 - x0) by ring,
      mul_div_mul_left _ _ ha]
  rw [e]

theorem line_swap {x0 x1 : ℝ} (h : x0 ≠ x1) (y0 y1 x : ℝ) : line x0 y0 x1 y1 x = line x1 y1 x0 y0 x := by
  unfold line
  have h1 : x1 - x0 ≠ 0 := sub_ne_zero.mpr h.symm
  have h2 : x0 - x1 ≠ 0 := sub_ne_zero.mpr h
  field_simp
  ring

/-- The calibration converted to the new encoding. -/
def calGain (a b : ℝ) (cal : List (ℝ × ℝ)) : List (ℝ × ℝ) := cal.map fun p => (a * p.1 + b, p.2)

theorem calGain_calibration {a : ℝ} (ha : a ≠ 0) (b : ℝ) {cal : List (ℝ × ℝ)} (h : Calibration cal) :
    Calibration (calGain a b cal) := by
  refine ⟨by rw [calGain, List.length_map]; exact h.two, ?_⟩
  have e : (calGain a b cal).map Prod.fst = (cal.map Prod.fst).map fun x => a * x + b := by
    rw [calGain, List.map_map, List.map_map]; rfl
  rw [e]
  refine h.distinct.map ?_
  intro x y hxy
  have hxy : a * x + b = a * y + b := hxy
  exact mul_left_cancel₀ ha (by linarith)

theorem OnExtended.negative {a : ℝ} (ha : a < 0) (b : ℝ) {t : List (ℝ × ℝ)} (hinc : Increasing t) {x y : ℝ}
    (h : OnExtended t x y) : OnExtended (calGain a b t).reverse (a * x + b) y := by
  obtain ⟨i, u, yu, v, yv, h1, h2, h3, h4, h5⟩ := h
  have huv : u < v := hinc.lt_of_getElem? h1 h2 (by omega)
  have l := (List.getElem?_eq_some_iff.mp h2).1
  have hl : (calGain a b t).length = t.length := by rw [calGain, List.length_map]
  have g : ∀ k : ℕ, k < t.length → (calGain a b t).reverse[t.length - 1 - k]? = (t[k]?).map fun p => (a * p.1 + b, p.2) := by
    intro k hk
    rw [List.getElem?_reverse (by rw [hl]; omega), hl, show t.length - 1 - (t.length - 1 - k) = k by omega, calGain,
      List.getElem?_map]
  refine ⟨t.length - 1 - (i + 1), a * v + b, yv, a * u + b, yu, ?_, ?_, ?_, ?_, ?_⟩
  · rw [g _ l, h2]; rfl
  · rw [show t.length - 1 - (i + 1) + 1 = t.length - 1 - i by omega, g _ (by omega), h1]; rfl
  · rcases h4 with h | h
    · left; nlinarith
    · right; omega
  · rcases h3 with h | h
    · left; nlinarith
    · right; rw [List.length_reverse, hl]; omega
  · rw [line_affine ha.ne, h5, line_swap huv.ne]

theorem calAt_gain {a : ℝ} (ha : a ≠ 0) (b : ℝ) {cal : List (ℝ × ℝ)} (h : Calibration cal) (x : ℝ) :
    calAt (calGain a b cal) (a * x + b) = calAt cal x := by
  have h' := calGain_calibration ha b h
  have s := (calAt_spec h x).1
  have s' := (calAt_spec h' (a * x + b)).1
  have i := rsort_increasing cal h.distinct
  have i' := rsort_increasing _ h'.distinct
  have pm : (calGain a b (rsort cal)).Perm (calGain a b cal) := (rsort_perm cal).map _
  rcases lt_or_gt_of_ne ha with hn | hp
  · have e : (calGain a b (rsort cal)).reverse = rsort (calGain a b cal) := by
      refine increasing_unique ?_ i' (((List.reverse_perm _).trans pm).trans (rsort_perm _).symm)
      rw [Increasing, List.pairwise_reverse, calGain, List.pairwise_map]
      refine List.Pairwise.imp ?_ i
      intro p q hpq
      show a * q.1 + b < a * p.1 + b
      nlinarith
    have := OnExtended.negative hn b i s
    rw [e] at this
    exact OnExtended.unique i' s' this
  · have e : calGain a b (rsort cal) = rsort (calGain a b cal) := by
      refine increasing_unique ?_ i' (pm.trans (rsort_perm _).symm)
      rw [Increasing, calGain, List.pairwise_map]
      refine List.Pairwise.imp ?_ i
      intro p q hpq
      exact (gain_lt hp b _ _).mpr hpq
    rw [← e] at s' i'
    refine OnExtended.unique i' s' ?_
    obtain ⟨k, u, yu, v, yv, h1, h2, h3, h4, h5⟩ := s
    refine ⟨k, a * u + b, yu, a * v + b, yv, ?_, ?_, ?_, ?_, ?_⟩
    · rw [calGain, List.getElem?_map, h1]; rfl
    · rw [calGain, List.getElem?_map, h2]; rfl
    · rcases h3 with h | h
      · left; nlinarith
      · right; exact h
    · rcases h4 with h | h
      · left; nlinarith
      · right; rw [calGain, List.length_map]; exact h
    · rw [line_affine ha, h5]

theorem reencoded_ravel (a b : ℝ) (x : Img) : (reencoded a b x).ravel = x.ravel.map fun v => a * v + b := by
  unfold Img.ravel reencoded
  rw [List.map_flatMap]
  simp only [List.map_map, Function.comp_def]

theorem simulateImage_congr (env : Env) (usable : Bool) (rng : Rng) {r r' : RefImage} (s : Sensor) (sc : Scenario)
    (hh : r'.img.h = r.img.h) (hw : r'.img.w = r.img.w) (hg : r'.gsd = r.gsd)
    (e : imgToReflectance (r'.img.ravel.map .fin) r'.pixValues r'.reflValues
      = imgToReflectance (r.img.ravel.map .fin) r.pixValues r.reflValues) :
    simulateImage env usable rng r' s sc = simulateImage env usable rng r s sc := by
  have t : ∀ ref pe, trueImage r' ref pe = trueImage r ref pe := by
    intro ref pe
    unfold trueImage
    rw [e]
  unfold simulateImage
  simp only [t, hh, hw, hg]

/-- Positive gain, any calibration. -/
theorem reflectance_gain {a : ℝ} (ha : 0 < a) (b : ℝ) (img pix : List ℝ) (refl : List XR) :
    imgToReflectance ((img.map fun x => a * x + b).map .fin) ((pix.map fun x => a * x + b).map .fin) refl
      = imgToReflectance (img.map .fin) (pix.map .fin) refl := by
  unfold imgToReflectance
  by_cases h : pix.length ≠ refl.length ∨ pix = []
  · rw [if_pos (by simpa using h), if_pos (by simpa using h)]
  · rw [if_neg (by simpa using h), if_neg (by simpa using h)]
    congr 1
    obtain ⟨s, h1, h2⟩ := sortKey_gain ha b (pix.zip refl)
    have z1 : (pix.map XR.fin).zip refl = (pix.zip refl).map fun q => (.fin q.1, q.2) := by
      rw [List.zip_map_left]; rfl
    have z2 : ((pix.map fun x => a * x + b).map XR.fin).zip refl
        = (pix.zip refl).map fun q => (.fin (a * q.1 + b), q.2) := by
      rw [List.map_map, List.zip_map_left]; rfl
    rw [z1, z2, h1, h2, List.map_map, List.map_map, List.map_map]
    apply List.map_congr_left
    intro x _
    simp only [Function.comp]
    rw [interp1dSeg_gain ha]

/-! ## C130 -/

/-- **C130** (reflectances): with a positive gain, image and calibration converted together have the reflectances they
had, whatever the calibration is: duplicate pixel values, reflectances that are not numbers, lists of different length. -/
theorem C130_reflectance {a : ℝ} (ha : 0 < a) (b : ℝ) (img pix : List ℝ) (refl : List XR) :
    imgToReflectance (img.map fun x => .fin (a * x + b)) (pix.map fun x => .fin (a * x + b)) refl
      = imgToReflectance (img.map .fin) (pix.map .fin) refl := by
  rw [← reflectance_gain ha b img pix refl, List.map_map, List.map_map]; rfl

/-- **C130** (negatives): a negative gain is as good, for a calibration with two or more different pixel values. -/
theorem C130_negative {a : ℝ} (ha : a ≠ 0) (b : ℝ) (img : List ℝ) {cal : List (ℝ × ℝ)} (h : Calibration cal) :
    imgToReflectance (img.map fun x => .fin (a * x + b)) (cal.map fun p => .fin (a * p.1 + b))
        (cal.map fun p => .fin p.2)
      = imgToReflectance (img.map .fin) (cal.map fun p => .fin p.1) (cal.map fun p => .fin p.2) := by
  have e := imgToReflectance_value (calGain_calibration ha b h) (img.map fun x => a * x + b)
  rw [imgToReflectance_value h]
  simp only [calGain, List.map_map, Function.comp_def] at e
  rw [e]
  congr 1
  apply List.map_congr_left
  intro x _
  have := calAt_gain ha b h x
  unfold calGain at this
  rw [this]

/-- **C130** (images): a simulation of the converted reference image, of any name, returns what it returns for the
original, with the same noise and the same exceptions. -/
theorem C130_images (env : Env) (usable : Bool) (rng : Rng) (s : Sensor) (sc : Scenario) {a : ℝ} (ha : a ≠ 0) (b : ℝ)
    {cal : List (ℝ × ℝ)} (h : Calibration cal) (img : Img) (gsd : XR) (name name' : String) :
    (do
      let r ← RefImage.new (reencoded a b img) gsd (some (cal.map fun p : ℝ × ℝ => .fin (a * p.1 + b)))
        (some (cal.map fun p : ℝ × ℝ => .fin p.2)) name'
      simulateImage env usable rng r s sc)
    = (do
      let r ← RefImage.new img gsd (some (cal.map fun p : ℝ × ℝ => .fin p.1))
        (some (cal.map fun p : ℝ × ℝ => .fin p.2)) name
      simulateImage env usable rng r s sc) := by
  unfold RefImage.new
  refine simulateImage_congr env usable rng s sc rfl rfl rfl ?_
  dsimp only
  rw [reencoded_ravel, List.map_map]
  exact C130_negative ha b img.ravel h

/-- **C130** (default calibration): without calibration, a positive gain and any offset leave the simulation as it is. -/
theorem C130_default (env : Env) (usable : Bool) (rng : Rng) (s : Sensor) (sc : Scenario) {a : ℝ} (ha : 0 < a) (b : ℝ)
    (img : Img) (gsd : XR) (name name' : String) :
    (do
      let r ← RefImage.new (reencoded a b img) gsd none none name'
      simulateImage env usable rng r s sc)
    = (do
      let r ← RefImage.new img gsd none none name
      simulateImage env usable rng r s sc) := by
  unfold RefImage.new
  dsimp only
  have eh : (reencoded a b img).h = img.h := rfl
  have ew : (reencoded a b img).w = img.w := rfl
  rw [eh, ew]
  by_cases h : img.h = 0 ∨ img.w = 0
  · rw [if_pos h, if_pos h]
  · rw [if_neg h, if_neg h]
    have hr : img.h ≠ 0 ∧ img.w ≠ 0 := by tauto
    refine simulateImage_congr env usable rng s sc rfl rfl rfl ?_
    dsimp only
    rw [reencoded_ravel, percentile_affine (ravel_ne hr.1 hr.2) (by norm_num) (by norm_num) ha,
      percentile_affine (ravel_ne hr.1 hr.2) (by norm_num) (by norm_num) ha]
    exact reflectance_gain ha b img.ravel [_, _] _

theorem percentile_negative {l : List ℝ} (hl : l ≠ []) {q : ℝ} (h0 : 0 ≤ q) (h1 : q ≤ 100) {a : ℝ} (ha : a < 0) (b : ℝ) :
    percentile (l.map fun x => a * x + b) q = a * percentile l (100 - q) + b := by
  have hl' : (l.map fun x => a * x + b) ≠ [] := by simpa using hl
  symm
  rw [← percentile_iff hl' h0 h1]
  obtain ⟨srt, hp, hs, k, x, hk, h⟩ := (percentile_iff hl (q := 100 - q) (by linarith) (by linarith) _).mpr rfl
  have hn : srt.length = l.length := hp.length_eq
  have kl := (List.getElem?_eq_some_iff.mp hk).1
  have g : ∀ k : ℕ, k < l.length →
      (srt.map fun x => a * x + b).reverse[l.length - 1 - k]? = (srt[k]?).map fun x => a * x + b := by
    intro k hk
    rw [List.getElem?_reverse (by rw [List.length_map, hn]; omega), List.length_map, hn,
      show l.length - 1 - (l.length - 1 - k) = k by omega, List.getElem?_map]
  have t : q / 100 * ((l.length : ℝ) - 1) = (l.length : ℝ) - 1 - (100 - q) / 100 * ((l.length : ℝ) - 1) := by ring
  refine ⟨(srt.map fun x => a * x + b).reverse, (List.reverse_perm _).trans (hp.map _), ?_, ?_⟩
  · rw [List.pairwise_reverse, List.pairwise_map]
    refine List.Pairwise.imp ?_ hs
    intro u v huv
    nlinarith
  · rw [List.length_map, t]
    have kl' : k + 1 ≤ l.length := by omega
    have hc : ((l.length - 1 - k : ℕ) : ℝ) = (l.length : ℝ) - 1 - k := by
      rw [Nat.cast_sub (by omega), Nat.cast_sub (by omega)]; norm_num
    rcases h with ⟨e1, e2⟩ | ⟨e1, e2, y, hy, e3⟩
    · refine ⟨l.length - 1 - k, a * x + b, ?_, Or.inl ⟨?_, ?_⟩⟩
      · rw [g _ (by omega), hk]; rfl
      · rw [e1, hc]
      · rw [e2]
    · have yl := (List.getElem?_eq_some_iff.mp hy).1
      have hc' : ((l.length - 1 - (k + 1) : ℕ) : ℝ) = (l.length : ℝ) - 1 - (k + 1) := by
        rw [Nat.cast_sub (by omega), Nat.cast_sub (by omega)]; norm_num
      refine ⟨l.length - 1 - (k + 1), a * y + b, ?_, Or.inr ⟨?_, ?_, a * x + b, ?_, ?_⟩⟩
      · rw [g _ (by omega), hy]; rfl
      · rw [hc']; linarith
      · rw [hc']; linarith
      · rw [show l.length - 1 - (k + 1) + 1 = l.length - 1 - k by omega, g _ (by omega), hk]; rfl
      · rw [e3, hc']
        unfold line
        have d1 : (l.length : ℝ) - 1 - (k + 1) + 1 - ((l.length : ℝ) - 1 - (k + 1)) = 1 := by ring
        have d2 : (k : ℝ) + 1 - k = 1 := by ring
        rw [d1, d2, div_one, div_one]
        ring

theorem unit_one_sub (y : ℝ) : unit (1 - y) = 1 - unit y := by
  unfold unit
  rcases le_total y 0 with h | h
  · rw [min_eq_right (show y ≤ 1 by linarith), max_eq_left h, min_eq_left (by linarith), max_eq_right zero_le_one, sub_zero]
  · rcases le_total y 1 with h' | h'
    · rw [min_eq_right h', max_eq_right h, min_eq_right (by linarith), max_eq_right (by linarith)]
    · rw [min_eq_left h', max_eq_right zero_le_one, min_eq_right (show 1 - y ≤ 1 by linarith),
        max_eq_left (by linarith), sub_self]

theorem imgToReflectance_pair {p q u v : ℝ} (h : p < q) (img : List ℝ) :
    imgToReflectance (img.map .fin) [.fin p, .fin q] [.fin u, .fin v]
      = .ok (img.map fun x => .fin (unit (line p u q v x))) := by
  have hcal : Calibration [(p, u), (q, v)] := ⟨le_rfl, by simp [h.ne]⟩
  have e := imgToReflectance_value hcal img
  rw [show ([(p, u), (q, v)] : List (ℝ × ℝ)).map (fun p => XR.fin p.1) = [.fin p, .fin q] from rfl,
    show ([(p, u), (q, v)] : List (ℝ × ℝ)).map (fun p => XR.fin p.2) = [.fin u, .fin v] from rfl] at e
  rw [e]
  congr 1
  apply List.map_congr_left
  intro x _
  congr 2
  obtain ⟨i, c, yc, d, yd, h1, h2, -, -, h5⟩ := (calAt_spec hcal x).1
  have er : rsort [(p, u), (q, v)] = [(p, u), (q, v)] :=
    increasing_unique (rsort_increasing _ hcal.distinct) (by unfold Increasing; simp [h]) (rsort_perm _)
  rw [er] at h1 h2
  have hi : i = 0 := by
    have := (List.getElem?_eq_some_iff.mp h2).1
    simp at this
    omega
  subst hi
  simp at h1 h2
  rw [h5, ← h1.1, ← h1.2, ← h2.1, ← h2.2]

/-- **C130** (default calibration of a negative): a negative gain without calibration turns every reflectance `y` into
`1 - y`, so what was bright becomes dark: the default calibration takes larger pixel values to be brighter. -/
theorem C130_inverted {a : ℝ} (ha : a < 0) (b : ℝ) (img : Img) (gsd : XR) (name name' : String) {lo hi : ℝ}
    (hne : img.h ≠ 0 ∧ img.w ≠ 0) (hlo : IsPercentile img.ravel 0.2 lo) (hhi : IsPercentile img.ravel 99.8 hi)
    (h : lo < hi) :
    ∃ (r r' : RefImage) (ys : List ℝ), RefImage.new img gsd none none name = .ok r
      ∧ RefImage.new (reencoded a b img) gsd none none name' = .ok r'
      ∧ imgToReflectance (r.img.ravel.map .fin) r.pixValues r.reflValues = .ok (ys.map .fin)
      ∧ imgToReflectance (r'.img.ravel.map .fin) r'.pixValues r'.reflValues
        = .ok (ys.map fun y => .fin (1 - y)) := by
  have hz : ¬ (img.h = 0 ∨ img.w = 0) := by tauto
  have hr := ravel_ne hne.1 hne.2
  rw [percentile_iff hr (by norm_num) (by norm_num)] at hlo hhi
  unfold RefImage.new
  dsimp only
  refine ⟨_, _, img.ravel.map fun x => unit (line lo 0.05 hi 0.95 x), by rw [if_neg hz],
    by rw [if_neg (show ¬ ((reencoded a b img).h = 0 ∨ (reencoded a b img).w = 0) from hz)], ?_, ?_⟩
  · dsimp only
    rw [← hlo, ← hhi, List.map_map]
    exact imgToReflectance_pair h img.ravel
  · dsimp only
    rw [reencoded_ravel, percentile_negative hr (by norm_num) (by norm_num) ha,
      percentile_negative hr (by norm_num) (by norm_num) ha,
      show (100 : ℝ) - 0.2 = 99.8 by norm_num, show (100 : ℝ) - 99.8 = 0.2 by norm_num, ← hlo, ← hhi]
    have e := imgToReflectance_pair (p := a * hi + b) (q := a * lo + b) (u := 0.05) (v := 0.95) (by nlinarith)
      (img.ravel.map fun x => a * x + b)
    refine e.trans ?_
    congr 1
    rw [List.map_map, List.map_map]
    apply List.map_congr_left
    intro x _
    simp only [Function.comp]
    rw [line_affine ha.ne, ← unit_one_sub]
    congr 2
    unfold line
    have d1 : hi - lo ≠ 0 := by linarith
    have d2 : lo - hi ≠ 0 := by linarith
    field_simp
    ring

/-- Non-vacuity of `C130_negative` and `C130_images`: the negative of an image in 8 bits, gain -1 and offset 255. -/
example : Calibration [(10, 0.05), (200, 0.9)] ∧ (-1 : ℝ) ≠ 0
    ∧ imgToReflectance ([(105 : ℝ), 300].map .fin) [.fin 10, .fin 200] [.fin 0.05, .fin 0.9]
      = .ok [.fin 0.475, .fin 1] := by
  refine ⟨⟨le_rfl, by simp⟩, by norm_num, ?_⟩
  rw [imgToReflectance_pair (by norm_num)]
  simp only [List.map_cons, List.map_nil, line, unit]
  norm_num

/-- Non-vacuity of `C130_inverted`: the pixels 0 and 10. -/
example : ∃ img : Img, img.ravel = [0, 10] ∧ (img.h ≠ 0 ∧ img.w ≠ 0)
    ∧ IsPercentile img.ravel 0.2 0.02 ∧ IsPercentile img.ravel 99.8 9.98 ∧ (0.02 : ℝ) < 9.98 := by
  refine ⟨{ h := 1, w := 2, px := fun _ j => 10 * j }, ?_, by simp, ?_, ?_, by norm_num⟩
  · simp [Img.ravel, List.range_succ]
  all_goals
    have e : Img.ravel { h := 1, w := 2, px := fun _ j => 10 * j } = [0, 10] := by simp [Img.ravel, List.range_succ]
    rw [e]
    refine ⟨[0, 10], List.Perm.refl _, by simp, 0, 0, rfl, Or.inr ⟨by norm_num, by norm_num, 10, rfl, ?_⟩⟩
    unfold line
    norm_num

end PyBSM
