import Verif.Lemmas.Geometry
import Verif.Lemmas.Arr
import Mathlib.Analysis.SpecialFunctions.Trigonometric.Bounds
import Mathlib.Analysis.Real.Pi.Bounds

/-!
# C10 - C14: geometry
-/

noncomputable section

open Classical

namespace PyBSM

open Spec

/-! ## C10 -/

/-- **C10.** The slant range is the straight-line distance between the sensor and the target (in
particular never NaN), for all real heights and ground ranges. -/
theorem C10_distance (ht hs g : ℝ) :
    curvedEarthSlantRange (.fin ht) (.fin hs) (.fin g)
      = .fin (pdist (pointAt hs 0) (pointAt ht g)) := by
  rw [slant_fin, pdist_pointAt]

/-- **C10** (law of cosines). -/
theorem C10_law_of_cosines (ht hs g : ℝ) :
    ∃ d, curvedEarthSlantRange (.fin ht) (.fin hs) (.fin g) = .fin d ∧ 0 ≤ d ∧
      d ^ 2 = (R + ht) ^ 2 + (R + hs) ^ 2 - 2 * (R + hs) * (R + ht) * Real.cos (g / R) :=
  ⟨_, slant_fin ht hs g, Real.sqrt_nonneg _, Real.sq_sqrt (sq2_nonneg ht hs g)⟩

/-- **C10** (symmetry). -/
theorem C10_symmetric (h1 h2 g : ℝ) :
    curvedEarthSlantRange (.fin h1) (.fin h2) (.fin g)
      = curvedEarthSlantRange (.fin h2) (.fin h1) (.fin g) := by
  rw [slant_fin, slant_fin]
  have : sq2 h1 h2 g = sq2 h2 h1 g := by unfold sq2; ring
  rw [this]

/-- **C10** (at least the height difference, with equality directly above). -/
theorem C10_at_least_height_difference {ht hs : ℝ} (g : ℝ) (h1 : 0 ≤ R + ht) (h2 : 0 ≤ R + hs) :
    ∃ d, curvedEarthSlantRange (.fin ht) (.fin hs) (.fin g) = .fin d ∧ |hs - ht| ≤ d
      ∧ (g = 0 → d = |hs - ht|) := by
  refine ⟨_, slant_fin ht hs g, ?_, ?_⟩
  · apply Real.abs_le_sqrt
    have := mul_nonneg (mul_nonneg h2 h1) (sub_nonneg.mpr (Real.cos_le_one (g / R)))
    unfold sq2; nlinarith
  · rintro rfl
    have : sq2 ht hs 0 = (hs - ht) ^ 2 := by unfold sq2; simp; ring
    rw [this, Real.sqrt_sq_eq_abs]

/-- **C10** (monotone in ground range up to half way round the earth). -/
theorem C10_increasing {ht hs g g' : ℝ} (h1 : 0 < R + ht) (h2 : 0 < R + hs) (hg : 0 ≤ g)
    (hlt : g < g') (hmax : g' ≤ Real.pi * R) :
    ∃ d d', curvedEarthSlantRange (.fin ht) (.fin hs) (.fin g) = .fin d
      ∧ curvedEarthSlantRange (.fin ht) (.fin hs) (.fin g') = .fin d' ∧ d < d' := by
  refine ⟨_, _, slant_fin ht hs g, slant_fin ht hs g', ?_⟩
  apply Real.sqrt_lt_sqrt (sq2_nonneg ht hs g)
  have hc : Real.cos (g' / R) < Real.cos (g / R) :=
    Real.cos_lt_cos_of_nonneg_of_le_pi (div_nonneg hg R_pos.le)
      ((div_le_iff₀ R_pos).mpr hmax) (div_lt_div_of_pos_right hlt R_pos)
  have := mul_pos (mul_pos h2 h1) (sub_pos.mpr hc)
  unfold sq2; nlinarith

example : (0 : ℝ) < R + 0 ∧ (0 : ℝ) < R + 9000 ∧ (60000 : ℝ) ≤ Real.pi * R := by
  have := Real.pi_gt_three
  refine ⟨by norm_num [R], by norm_num [R], ?_⟩
  unfold R; nlinarith

/-! ## C11 -/

/-- The slant range of a sensor outside the earth's centre: positive unless both coincide. -/
theorem slant_pos {ht hs g : ℝ} (h : pdist (pointAt hs 0) (pointAt ht g) ≠ 0) : 0 < sq2 ht hs g := by
  rw [pdist_pointAt] at h
  exact Real.sqrt_ne_zero'.mp h

/-- **C11.** For every triangle earth centre - sensor - target, `nadir_angle` of the slant range
is the angle at the sensor (whatever mixture of Python and numpy scalars is passed). -/
theorem C11_angle_at_sensor {ht hs g : ℝ} (ha : 0 < R + hs)
    (hd : pdist (pointAt hs 0) (pointAt ht g) ≠ 0) {sH sS sB : Scal} (h1 : sH.val = .fin ht)
    (h2 : sS.val = .fin hs)
    (h3 : sB.val = curvedEarthSlantRange (.fin ht) (.fin hs) (.fin g)) :
    ∃ φ, nadirAngle sH sS sB = .ok (.fin φ) ∧ IsAngle 0 (pointAt hs 0) (pointAt ht g) φ := by
  have hsq := slant_pos hd
  have hb := Real.sqrt_pos.mpr hsq
  rw [slant_fin] at h3
  rw [nadir_val h1 h2 h3 (by positivity)]
  obtain ⟨l, u⟩ := cosNadir_bounds ha hsq
  refine ⟨_, by rw [XR.fin_arccos l u], Real.arccos_nonneg _, Real.arccos_le_pi _, ?_⟩
  rw [Real.cos_arccos l u, cosNadir_eq ha hsq, pdist_pointAt, pdist_symm, pdist_origin_pointAt ha.le]
  rw [div_mul_eq_mul_div, div_eq_iff hb.ne']
  simp only [dot, pointAt, zero_div, Real.sin_zero, Real.cos_zero, Prod.fst_sub, Prod.snd_sub,
    Prod.fst_zero, Prod.snd_zero]
  ring

/-- **C11** (straight down). The nadir angle of a target directly below the sensor is 0. -/
theorem C11_straight_down {ht hs : ℝ} (ha : 0 < R + hs) (hlt : ht < hs) {sB : Scal}
    (h3 : sB.val = curvedEarthSlantRange (.fin ht) (.fin hs) (.fin 0)) :
    nadirAngle (.py (.fin ht)) (.py (.fin hs)) sB = .ok (.fin 0) := by
  have e : sq2 ht hs 0 = (hs - ht) ^ 2 := by unfold sq2; simp; ring
  have hpos : 0 < hs - ht := sub_pos.mpr hlt
  rw [slant_fin, e, Real.sqrt_sq hpos.le] at h3
  rw [nadir_val rfl rfl h3 (by positivity)]
  have : cosNadir ht hs (hs - ht) = 1 := by
    unfold cosNadir; rw [div_eq_one_iff_eq (by positivity)]; ring
  rw [this, XR.fin_arccos (by norm_num) le_rfl, Real.arccos_one]

/-- **C11** (the exception). -/
theorem C11_zero_slant_range {ht hs b : ℝ} (ha : 0 < R + hs) :
    (nadirAngle (.py (.fin ht)) (.py (.fin hs)) (.py (.fin b)) = .error .zeroDivisionError ↔ b = 0)
    ∧ ∀ (sH sS : Scal) (e : PyErr), nadirAngle sH sS (.np (.fin b)) ≠ .error e := by
  constructor
  · constructor
    · intro h
      by_contra hb
      rw [nadir_val rfl rfl rfl (by positivity)] at h
      simp at h
    · rintro rfl
      unfold nadirAngle
      have : Scal.div (Scal.py (-1) * ((Scal.py (.fin rEarth) + Scal.py (.fin ht)) ^ 2
          - (Scal.py (.fin rEarth) + Scal.py (.fin hs)) ^ 2 - Scal.py (.fin 0) ^ 2))
          (Scal.py 2 * (Scal.py (.fin rEarth) + Scal.py (.fin hs)) * Scal.py (.fin 0))
          = .error .zeroDivisionError := by
        rw [Scal.div_error_iff]
        refine ⟨rfl, ?_, ?_, ?_⟩
        · simp only [Scal.isPy_mul, Scal.isPy_sub, Scal.isPy_add, Scal.isPy_pow, Scal.isPy_py, and_self]
        · simp only [Scal.isPy_mul, Scal.isPy_add, Scal.isPy_py, and_self]
        · simp only [Scal.val_mul, Scal.val_add, Scal.val_py]
          xr_simp; ring
      simp only [this, bind, Except.bind]
  · intro sH sS e h
    unfold nadirAngle at h
    obtain ⟨c, hc, -⟩ := Scal.div_ok
      (a := Scal.py (-1) * ((Scal.py (.fin rEarth) + sH) ^ 2 - (Scal.py (.fin rEarth) + sS) ^ 2
        - Scal.np (.fin b) ^ 2))
      (b := Scal.py 2 * (Scal.py (.fin rEarth) + sS) * Scal.np (.fin b)) (by
        rintro ⟨-, h2, -⟩
        simp only [Scal.isPy_mul, Scal.isPy_np, and_false] at h2)
    simp only [hc, bind, Except.bind] at h
    simp at h

/-- Non-trivial instance: sensor at 9 km, target at ground level 60 km away. -/
example : (0 : ℝ) < R + 9000 ∧ pdist (pointAt 9000 0) (pointAt 0 60000) ≠ 0 := by
  refine ⟨by norm_num [R], ?_⟩
  rw [pdist_pointAt]
  have h := mul_nonneg (mul_nonneg (a := R + 9000) (b := R + 0) (by norm_num [R]) (by norm_num [R]))
    (sub_nonneg.mpr (Real.cos_le_one (60000 / R)))
  have : 0 < sq2 0 9000 60000 := by unfold sq2; nlinarith
  exact (Real.sqrt_pos.mpr this).ne'

/-! ## C12 -/

theorem reverse_map_range {α : Type*} (n : ℕ) (f : ℕ → α) :
    ((List.range n).map f).reverse = (List.range n).map fun (k : ℕ) => f (n - 1 - k) := by
  apply List.ext_getElem
  · simp
  · intro i h1 h2
    simp [List.getElem_reverse]

/-- **C12.** The path positions are equally spaced from the target to the sensor, and the altitudes
are the heights above the sphere of the points of the straight segment at these positions. -/
theorem C12_line_of_sight {ht hs g : ℝ} (ha : 0 < R + hs)
    (hd : pdist (pointAt hs 0) (pointAt ht g) ≠ 0) {sH sS sB : Scal} (h1 : sH.val = .fin ht)
    (h2 : sS.val = .fin hs)
    (h3 : sB.val = curvedEarthSlantRange (.fin ht) (.fin hs) (.fin g)) :
    ∃ zs hp : List ℝ, altitudeAlongSlantPath sH sS sB = .ok (zs.map .fin, hp.map .fin)
      ∧ zs.length = 10000 ∧ hp.length = 10000
      ∧ ∀ k : ℕ, k < 10000 →
        zs[k]? = some ((k : ℝ) / 9999 * pdist (pointAt ht g) (pointAt hs 0))
        ∧ hp[k]? = some (heightOf (between (pointAt ht g) (pointAt hs 0) ((k : ℝ) / 9999))) := by
  have hsq := slant_pos hd
  have hb := Real.sqrt_pos.mpr hsq
  rw [slant_fin] at h3
  set d := Real.sqrt (sq2 ht hs g) with hdd
  have hpd : pdist (pointAt ht g) (pointAt hs 0) = d := by rw [pdist_symm, pdist_pointAt]
  obtain ⟨l, u⟩ := cosNadir_bounds ha hsq
  have hcos : d * cosNadir ht hs d = (R + hs) - (R + ht) * Real.cos (g / R) := by
    rw [hdd, cosNadir_eq ha hsq, mul_div_cancel₀ _ hb.ne']
  refine ⟨(List.range 10000).map fun (k : ℕ) => (k : ℝ) / 9999 * d,
    (List.range 10000).map fun (k : ℕ) =>
      heightOf (between (pointAt ht g) (pointAt hs 0) ((k : ℝ) / 9999)), ?_,
    by rw [List.length_map, List.length_range], by rw [List.length_map, List.length_range], ?_⟩
  · unfold altitudeAlongSlantPath
    rw [nadir_val h1 h2 h3 (by positivity)]
    simp only [bind, Except.bind]
    rw [XR.fin_arccos l u, XR.fin_cos, Real.cos_arccos l u, h2, h3, XR.zero_def, linspace_fin,
      rEarth_eq]
    rw [Except.ok.injEq, Prod.mk.injEq]
    constructor
    · rw [List.map_map, List.map_map]
      apply List.map_congr_left
      intro k _
      simp only [Function.comp]
      rw [XR.fin_inj]
      push_cast
      ring
    · simp only [List.map_map]
      rw [reverse_map_range]
      apply List.map_congr_left
      intro k hk
      rw [List.mem_range] at hk
      simp only [Function.comp]
      have hk' : ((10000 - 1 - k : ℕ) : ℝ) = 9999 - k := by
        rw [Nat.cast_sub (by omega)]; norm_num
      rw [hk']
      have e0 : ((9999 - (k : ℝ)) / ((10000 : ℕ) - 1 : ℝ) * (d - 0) + 0) = (1 - (k : ℝ) / 9999) * d := by
        push_cast; ring
      rw [e0]
      xr_simp
      set t : ℝ := (k : ℝ) / 9999
      have hnorm : (R + hs) ^ 2 + ((1 - t) * d) ^ 2
          - 2 * (R + hs) * ((1 - t) * d) * cosNadir ht hs d
          = ((between (pointAt ht g) (pointAt hs 0) t).1) ^ 2
            + ((between (pointAt ht g) (pointAt hs 0) t).2) ^ 2 := by
        have hd2 : d ^ 2 = sq2 ht hs g := Real.sq_sqrt hsq.le
        have e1 : ((1 - t) * d) ^ 2 = (1 - t) ^ 2 * sq2 ht hs g := by rw [mul_pow, hd2]
        have e2 : 2 * (R + hs) * ((1 - t) * d) * cosNadir ht hs d
            = 2 * (R + hs) * (1 - t) * ((R + hs) - (R + ht) * Real.cos (g / R)) := by
          rw [← hcos]; ring
        rw [e1, e2]
        have := Real.sin_sq_add_cos_sq (g / R)
        simp only [between, pointAt, zero_div, Real.sin_zero, Real.cos_zero, Prod.fst_add,
          Prod.snd_add, Prod.smul_fst, Prod.smul_snd, Prod.fst_sub, Prod.snd_sub, smul_eq_mul]
        unfold sq2
        linear_combination (-((1 - t) ^ 2 * (R + ht) ^ 2)) * this
      rw [hnorm, XR.fin_sqrt (by positivity), XR.fin_sub, XR.fin_inj]
      unfold heightOf pdist
      congr 2
      simp only [Prod.fst_zero, Prod.snd_zero]
      ring
  · intro k hk
    rw [hpd]
    simp only [List.getElem?_map]
    rw [List.getElem?_range hk]
    exact ⟨rfl, rfl⟩

/-- **C12** (ends). The path starts at the target height and ends at the sensor height. -/
theorem C12_ends {ht hs : ℝ} (g : ℝ) (h1 : 0 ≤ R + ht) (h2 : 0 ≤ R + hs) :
    heightOf (between (pointAt ht g) (pointAt hs 0) 0) = ht
    ∧ heightOf (between (pointAt ht g) (pointAt hs 0) ((9999 : ℕ) / 9999)) = hs := by
  have e0 : between (pointAt ht g) (pointAt hs 0) 0 = pointAt ht g := by simp [between]
  have e1 : between (pointAt ht g) (pointAt hs 0) ((9999 : ℕ) / 9999) = pointAt hs 0 := by
    have : (((9999 : ℕ) : ℝ) / 9999) = 1 := by norm_num
    rw [this]; simp [between]
  rw [e0, e1]
  unfold heightOf
  rw [pdist_origin_pointAt h1, pdist_origin_pointAt h2]
  constructor <;> ring

/-! ## C13 -/

/-- The angle at the target between the local vertical and the direction to the sensor; the true
elevation angle of the sensor is `pi/2` minus this. -/
def IsZenithAngle (hs ht g ζ : ℝ) : Prop :=
  IsAngle (pointAt ht g + pointAt ht g) (pointAt ht g) (pointAt hs 0) ζ

theorem elevation_excess {ht hs g ζ : ℝ} (ha : 0 < R + hs) (hc : 0 < R + ht)
    (hg : 0 ≤ g) (hg' : g ≤ Real.pi * R)
    (hd : pdist (pointAt hs 0) (pointAt ht g) ≠ 0) {sH sS sB : Scal} (h1 : sH.val = .fin ht)
    (h2 : sS.val = .fin hs)
    (h3 : sB.val = curvedEarthSlantRange (.fin ht) (.fin hs) (.fin g))
    (hζ : IsZenithAngle hs ht g ζ) :
    ∃ φ, nadirAngle sH sS sB = .ok (.fin φ)
      ∧ Real.pi / 2 - φ = (Real.pi / 2 - ζ) + g / R := by
  obtain ⟨φ, e, l, u, hφ⟩ := C11_angle_at_sensor ha hd h1 h2 h3
  refine ⟨φ, e, ?_⟩
  have hsq := slant_pos hd
  have hb := Real.sqrt_pos.mpr hsq
  set d := Real.sqrt (sq2 ht hs g) with hdd
  set θ := g / R with hθ
  have hθ0 : 0 ≤ θ := div_nonneg hg R_pos.le
  have hθ1 : θ ≤ Real.pi := (div_le_iff₀ R_pos).mpr hg'
  have hsc := Real.sin_sq_add_cos_sq θ
  have hd2 : d ^ 2 = (R + ht) ^ 2 + (R + hs) ^ 2 - 2 * (R + hs) * (R + ht) * Real.cos θ :=
    Real.sq_sqrt hsq.le
  -- cosine and sine of the nadir angle
  have c1 : Real.cos φ * d = (R + hs) - (R + ht) * Real.cos θ := by
    rw [pdist_pointAt, pdist_symm, pdist_origin_pointAt ha.le] at hφ
    simp only [dot, pointAt, zero_div, Real.sin_zero, Real.cos_zero, Prod.fst_sub, Prod.snd_sub,
      Prod.fst_zero, Prod.snd_zero] at hφ
    have : (R + hs) * (Real.cos φ * d) = (R + hs) * ((R + hs) - (R + ht) * Real.cos θ) := by
      linear_combination hφ
    exact mul_left_cancel₀ ha.ne' this
  have s1 : Real.sin φ * d = (R + ht) * Real.sin θ := by
    have hs0 : 0 ≤ Real.sin φ * d := mul_nonneg (Real.sin_nonneg_of_nonneg_of_le_pi l u) hb.le
    have hs1 : 0 ≤ (R + ht) * Real.sin θ := mul_nonneg hc.le (Real.sin_nonneg_of_nonneg_of_le_pi hθ0 hθ1)
    rw [← sq_eq_sq₀ hs0 hs1]
    have := Real.sin_sq_add_cos_sq φ
    have e1 : (Real.sin φ * d) ^ 2 = d ^ 2 - (Real.cos φ * d) ^ 2 := by
      linear_combination d ^ 2 * this
    rw [e1, c1, hd2]
    linear_combination -(R + ht) ^ 2 * hsc
  -- cosine of the zenith angle
  obtain ⟨lz, uz, hz⟩ := hζ
  have cz : Real.cos ζ * d = (R + hs) * Real.cos θ - (R + ht) := by
    have n1 : pdist (pointAt ht g) (pointAt ht g + pointAt ht g) = R + ht := by
      rw [← pdist_origin_pointAt hc.le g]
      unfold pdist
      congr 1
      simp only [Prod.fst_add, Prod.snd_add, Prod.fst_zero, Prod.snd_zero]; ring
    rw [n1, pdist_symm, pdist_pointAt] at hz
    simp only [dot, pointAt, zero_div, Real.sin_zero, Real.cos_zero, Prod.fst_sub, Prod.snd_sub,
      Prod.fst_add, Prod.snd_add] at hz
    rw [← hθ] at hz
    have : (R + ht) * (Real.cos ζ * d) = (R + ht) * ((R + hs) * Real.cos θ - (R + ht)) := by
      linear_combination hz - (R + ht) ^ 2 * hsc
    exact mul_left_cancel₀ hc.ne' this
  have csum : Real.cos (φ + θ) = Real.cos ζ := by
    have : Real.cos (φ + θ) * d = Real.cos ζ * d := by
      rw [cz, Real.cos_add]
      linear_combination Real.cos θ * c1 - Real.sin θ * s1 - (R + ht) * hsc
    exact mul_right_cancel₀ hb.ne' this
  have ssum : 0 ≤ Real.sin (φ + θ) := by
    have : Real.sin (φ + θ) * d = (R + hs) * Real.sin θ := by
      rw [Real.sin_add]
      linear_combination Real.cos θ * s1 + Real.sin θ * c1
    have h0 : 0 ≤ Real.sin (φ + θ) * d := by
      rw [this]; exact mul_nonneg ha.le (Real.sin_nonneg_of_nonneg_of_le_pi hθ0 hθ1)
    exact nonneg_of_mul_nonneg_left h0 hb
  have hle : φ + θ ≤ Real.pi := by
    by_contra hgt
    push Not at hgt
    rcases eq_or_lt_of_le (show φ + θ ≤ 2 * Real.pi by linarith) with h | h
    · -- both angles are pi, impossible
      have e1 : φ = Real.pi := by linarith
      have e2 : θ = Real.pi := by linarith
      rw [e1, e2] at c1
      simp only [Real.cos_pi] at c1
      linarith
    · have : Real.sin (φ + θ) < 0 := by
        have := Real.sin_neg_of_neg_of_neg_pi_lt (x := φ + θ - 2 * Real.pi) (by linarith) (by linarith)
        rwa [Real.sin_sub_two_pi] at this
      linarith
  have : φ + θ = ζ := Real.injOn_cos ⟨by linarith, hle⟩ ⟨lz, uz⟩ csum
  linarith

/-- **C13.** `pi/2 - nadir_angle` exceeds the true elevation `pi/2 - ζ` of the sensor at the target
by exactly the earth-centre angle `g / R`. -/
theorem C13_elevation_excess {ht hs g : ℝ} (ha : 0 < R + hs) (hc : 0 < R + ht)
    (hg : 0 ≤ g) (hg' : g ≤ Real.pi * R)
    (hd : pdist (pointAt hs 0) (pointAt ht g) ≠ 0) {sH sS sB : Scal} (h1 : sH.val = .fin ht)
    (h2 : sS.val = .fin hs)
    (h3 : sB.val = curvedEarthSlantRange (.fin ht) (.fin hs) (.fin g)) :
    ∃ φ ζ, nadirAngle sH sS sB = .ok (.fin φ)
      ∧ IsZenithAngle hs ht g ζ ∧ (∀ ζ', IsZenithAngle hs ht g ζ' → ζ' = ζ)
      ∧ Real.pi / 2 - φ = (Real.pi / 2 - ζ) + g / R := by
  have n1 : pdist (pointAt ht g) (pointAt ht g + pointAt ht g) ≠ 0 := by
    have : pdist (pointAt ht g) (pointAt ht g + pointAt ht g) = R + ht := by
      rw [← pdist_origin_pointAt hc.le g]
      unfold pdist
      congr 1
      simp only [Prod.fst_add, Prod.snd_add, Prod.fst_zero, Prod.snd_zero]; ring
    rw [this]; exact hc.ne'
  obtain ⟨ζ, hζ, huniq⟩ := exists_angle n1 (by rw [pdist_symm]; exact hd)
  obtain ⟨φ, e, h⟩ := elevation_excess ha hc hg hg' hd h1 h2 h3 hζ
  exact ⟨φ, ζ, e, hζ, huniq, h⟩

example : (0 : ℝ) < R + 9000 ∧ (0 : ℝ) < R + 0 ∧ (60000 : ℝ) ≤ Real.pi * R
    ∧ pdist (pointAt 9000 0) (pointAt 0 60000) ≠ 0 := by
  have := Real.pi_gt_three
  refine ⟨by norm_num [R], by norm_num [R], by unfold R; nlinarith, ?_⟩
  rw [pdist_pointAt]
  have h := mul_nonneg (mul_nonneg (a := R + 9000) (b := R + 0) (by norm_num [R]) (by norm_num [R]))
    (sub_nonneg.mpr (Real.cos_le_one (60000 / R)))
  have : 0 < sq2 0 9000 60000 := by unfold sq2; nlinarith
  exact (Real.sqrt_pos.mpr this).ne'

/-! ## C14 -/

/-- **C14.** -/
theorem C14_small_angle (ifov s : ℝ) :
    groundSampleDistance (.fin ifov) (.fin s) = .fin (s * ifov) := by
  unfold groundSampleDistance; xr_simp

/-- **C14** (never above the exact flat footprint). -/
theorem C14_below_exact {ifov s : ℝ} (h0 : 0 ≤ ifov) (h1 : ifov < Real.pi) (hs : 0 ≤ s) :
    ∃ d, groundSampleDistance (.fin ifov) (.fin s) = .fin d ∧ d ≤ 2 * s * Real.tan (ifov / 2) := by
  refine ⟨_, C14_small_angle ifov s, ?_⟩
  have : ifov / 2 ≤ Real.tan (ifov / 2) := Real.le_tan (by linarith) (by linarith)
  nlinarith

/-- **C14** (proportional, strictly monotone, zero only at zero). -/
theorem C14_monotone {i i' s s' : ℝ} (hi : 0 < i) (hs : 0 < s) :
    (∀ k, ∃ d, groundSampleDistance (.fin i) (.fin s) = .fin d
      ∧ groundSampleDistance (.fin (k * i)) (.fin s) = .fin (k * d)
      ∧ groundSampleDistance (.fin i) (.fin (k * s)) = .fin (k * d) ∧ 0 < d)
    ∧ (i < i' → ∃ d d', groundSampleDistance (.fin i) (.fin s) = .fin d
        ∧ groundSampleDistance (.fin i') (.fin s) = .fin d' ∧ d < d')
    ∧ (s < s' → ∃ d d', groundSampleDistance (.fin i) (.fin s) = .fin d
        ∧ groundSampleDistance (.fin i) (.fin s') = .fin d' ∧ d < d') := by
  refine ⟨fun k => ⟨s * i, C14_small_angle i s, ?_, ?_, by positivity⟩, fun h => ?_, fun h => ?_⟩
  · rw [C14_small_angle]; congr 1; ring
  · rw [C14_small_angle]; congr 1; ring
  · exact ⟨_, _, C14_small_angle _ _, C14_small_angle _ _, by nlinarith⟩
  · exact ⟨_, _, C14_small_angle _ _, C14_small_angle _ _, by nlinarith⟩

example : (0 : ℝ) ≤ 1e-4 ∧ (1e-4 : ℝ) < Real.pi := by
  constructor
  · norm_num
  · have := Real.pi_gt_three; norm_num; linarith

end PyBSM
