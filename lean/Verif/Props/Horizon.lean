import Verif.Spec.Horizon
import Verif.Props.Database
import Verif.Props.Geometry
import Verif.Props.Simulate

/-!
# C114: the database ends at the horizon
-/

noncomputable section

open Classical

namespace PyBSM

open Spec

/-! ## Helpers -/

/-- All rows of the table are above the horizon, with the cosine replaced by its second-order lower bound. -/
theorem decoder_horizon : (decoderTable.all fun r =>
    Nat.ble ((10 * 6378164 + r.altDm) * r.rangeM ^ 2) (2 * 6378164 ^ 2 * r.altDm) && Nat.ble 20 r.altDm
      && Nat.ble r.altDm 5500000 && Nat.ble r.rangeM 300000) = true := by decide +kernel

theorem row_horizon {r : DecRow} {alt rng : ℝ} {haze : ℤ} (h : IsRow r alt rng haze) :
    (R + alt) * rng ^ 2 ≤ 2 * R ^ 2 * alt ∧ 2 ≤ alt ∧ alt ≤ 550000 ∧ 0 ≤ rng ∧ rng ≤ 300000 := by
  obtain ⟨h1, -, h2, h3⟩ := h
  have := List.all_eq_true.mp decoder_horizon r h1
  simp only [Bool.and_eq_true, Nat.ble_eq] at this
  obtain ⟨⟨⟨k1, k2⟩, k3⟩, k4⟩ := this
  have e1 : (((10 * 6378164 + r.altDm) * r.rangeM ^ 2 : ℕ) : ℝ) ≤ ((2 * 6378164 ^ 2 * r.altDm : ℕ) : ℝ) :=
    Nat.cast_le.mpr k1
  have e2 : (20 : ℝ) ≤ r.altDm := by exact_mod_cast k2
  have e3 : (r.altDm : ℝ) ≤ 5500000 := by exact_mod_cast k3
  have e4 : (r.rangeM : ℝ) ≤ 300000 := by exact_mod_cast k4
  have e5 : (0 : ℝ) ≤ r.rangeM := Nat.cast_nonneg _
  push_cast at e1
  subst h2 h3
  refine ⟨?_, by linarith, by linarith, e5, e4⟩
  unfold R
  linarith

/-- The same for every accepted request. -/
theorem accepted_horizon {files : Files} {alt rng : XR} {haze : ℤ} (h : Accepted files alt rng haze) :
    ∃ a g : ℝ, alt = .fin a ∧ rng = .fin g
      ∧ (R + a) * g ^ 2 ≤ 2 * R ^ 2 * a ∧ 2 ≤ a ∧ a ≤ 550000 ∧ 0 ≤ g ∧ g ≤ 300000 := by
  rcases h with ⟨A, h⟩ | ⟨A, h⟩
  · by_cases hin : ∃ a g : ℝ, alt = .fin a ∧ rng = .fin g ∧ 2 ≤ a ∧ a ≤ 20000 ∧ 0 ≤ g ∧ g ≤ 300000
    · obtain ⟨a, g, rfl, rfl, h1, h2, h3, h4⟩ := hin
      refine ⟨a, g, rfl, rfl, ?_, h1, by linarith, h3, h4⟩
      obtain ⟨aLo, aHi, gLo, gHi, b1, -, b2, -, hs, -⟩ := C05_inside files haze h1 h2 h3 h4
      obtain ⟨B, hB⟩ := hs.mp ⟨A, h⟩ aLo (by simp) gHi (by simp)
      obtain ⟨r, raw, a', g', e1, e2, hr, -⟩ := C04_layout hB
      rw [XR.fin_inj] at e1 e2
      subst e1 e2
      obtain ⟨k1, k2, -, k3, -⟩ := row_horizon hr
      have hRp := R_pos
      have s1 := b1.lo_le
      have s2 : g ^ 2 ≤ gHi ^ 2 := pow_le_pow_left₀ h3 b2.le_hi 2
      -- the height needed grows more slowly than the height
      have q : aLo * (R + a) ≤ a * (R + aLo) := by nlinarith
      have t1 : (R + aLo) * g ^ 2 ≤ 2 * R ^ 2 * aLo := le_trans (by gcongr) k1
      have t2 : (R + a) * ((R + aLo) * g ^ 2) ≤ (R + a) * (2 * R ^ 2 * aLo) := by gcongr
      have t3 : 2 * R ^ 2 * (aLo * (R + a)) ≤ 2 * R ^ 2 * (a * (R + aLo)) := by gcongr
      have t4 : (R + aLo) * ((R + a) * g ^ 2) ≤ (R + aLo) * (2 * R ^ 2 * a) := by linarith
      exact le_of_mul_le_mul_left t4 (by linarith)
    · rw [C05_outside files alt rng haze hin] at h
      exact absurd h (by simp)
  · obtain ⟨r, raw, a, g, rfl, rfl, hr, -⟩ := C04_layout h
    exact ⟨a, g, rfl, rfl, row_horizon hr⟩

/-- Height along the line of sight. -/
theorem sight_sq (h g t : ℝ) :
    pdist 0 (between (pointAt 0 g) (pointAt h 0) t) ^ 2
      = R ^ 2 + 2 * t * R * ((R + h) * Real.cos (g / R) - R) + t ^ 2 * sq2 0 h g := by
  rw [pdist_sq]
  have := Real.sin_sq_add_cos_sq (g / R)
  simp only [between, pointAt, sq2, zero_div, Real.sin_zero, Real.cos_zero, Prod.fst_zero, Prod.snd_zero,
    Prod.fst_add, Prod.snd_add, Prod.smul_fst, Prod.smul_snd, Prod.fst_sub, Prod.snd_sub, smul_eq_mul]
  linear_combination (R + 0) ^ 2 * (1 - t) ^ 2 * this

theorem height_pos_iff {p : Pt} : 0 < heightOf p ↔ R ^ 2 < pdist 0 p ^ 2 := by
  unfold heightOf
  rw [sub_pos]
  exact (sq_lt_sq₀ R_pos.le (pdist_nonneg _ _)).symm

theorem sq2_pos {h : ℝ} (g : ℝ) (hh : 0 < h) : 0 < sq2 0 h g := by
  have hc := Real.cos_le_one (g / R)
  have hR := R_pos
  have : 0 ≤ 2 * (R + h) * R * (1 - Real.cos (g / R)) := by
    apply mul_nonneg (by positivity); linarith
  unfold sq2
  nlinarith [pow_pos hh 2]

/-- **C114** (what it means). A sensor above the ground sees a target exactly if the target is not beyond the horizon:
`(R + h) cos (g / R) ≥ R`. -/
theorem C114_meaning {h g : ℝ} (hh : 0 < h) : AboveHorizon h g ↔ R ≤ (R + h) * Real.cos (g / R) := by
  have hd := sq2_pos g hh
  have hR := R_pos
  constructor
  · intro H
    by_contra hlt
    rw [not_le] at hlt
    set δ := R - (R + h) * Real.cos (g / R) with hδ
    have hδp : 0 < δ := by rw [hδ]; linarith
    set t := min 1 (R * δ / sq2 0 h g) with ht
    have t0 : 0 < t := lt_min one_pos (by positivity)
    have t1 : t ≤ 1 := min_le_left _ _
    have t2 : t * sq2 0 h g ≤ R * δ := by
      have : t ≤ R * δ / sq2 0 h g := min_le_right _ _
      rwa [le_div_iff₀ hd] at this
    have := height_pos_iff.mp (H t t0 t1)
    rw [sight_sq] at this
    have e : (R + h) * Real.cos (g / R) - R = -δ := by rw [hδ]; ring
    rw [e] at this
    have : t * (R * δ) < t * (t * sq2 0 h g) - t * (R * δ) := by linarith
    have : t * (t * sq2 0 h g) ≤ t * (R * δ) := mul_le_mul_of_nonneg_left t2 t0.le
    have : 0 < t * (R * δ) := by positivity
    linarith
  · intro H t t0 _
    rw [height_pos_iff, sight_sq]
    have : 0 ≤ 2 * t * R * ((R + h) * Real.cos (g / R) - R) := by
      apply mul_nonneg (by positivity); linarith
    have : 0 < t ^ 2 * sq2 0 h g := by positivity
    linarith

theorem aboveHorizon_of_sq {h g : ℝ} (hh : 0 < h) (hg : (R + h) * g ^ 2 ≤ 2 * R ^ 2 * h) : AboveHorizon h g := by
  rw [C114_meaning hh]
  have hR := R_pos
  have hc := Real.one_sub_sq_div_two_le_cos (x := g / R)
  have h1 : (R + h) * (1 - (g / R) ^ 2 / 2) ≤ (R + h) * Real.cos (g / R) := by gcongr
  refine le_trans ?_ h1
  have : (R + h) * (1 - (g / R) ^ 2 / 2) = R + h - (R + h) * g ^ 2 / (2 * R ^ 2) := by
    field_simp
  rw [this]
  have : (R + h) * g ^ 2 / (2 * R ^ 2) ≤ h := by
    rw [div_le_iff₀ (by positivity)]; linarith
  linarith

/-! ## C114 -/

/-- **C114** (horizon). Whatever the database files hold, a request for which `load_database_atmosphere` or
`load_database_atmosphere_no_interp` returns an atmosphere is one in which the sensor sees the target: the straight
line between them does not touch the ground before the target. -/
theorem C114_horizon {files : Files} {alt rng : XR} {haze : ℤ} (h : Accepted files alt rng haze) :
    ∃ a g : ℝ, alt = .fin a ∧ rng = .fin g ∧ 2 ≤ a ∧ a ≤ 550000 ∧ 0 ≤ g ∧ g ≤ 300000 ∧ AboveHorizon a g := by
  obtain ⟨a, g, rfl, rfl, h1, h2, h3, h4, h5⟩ := accepted_horizon h
  exact ⟨a, g, rfl, rfl, h2, h3, h4, h5, aboveHorizon_of_sq (by linarith) h1⟩

/-- Heights of the samples of a line of sight above the horizon. -/
theorem path_heights {a G : ℝ} {sH sS sB : Scal} (ha : 0 < a) (hh : AboveHorizon a G) (h1 : sH.val = .fin 0)
    (h2 : sS.val = .fin a) (h3 : sB.val = curvedEarthSlantRange (.fin 0) (.fin a) (.fin G)) :
    ∃ zs hp : List ℝ, altitudeAlongSlantPath sH sS sB = .ok (zs.map .fin, hp.map .fin) ∧ hp.length = 10000
      ∧ hp[0]? = some 0 ∧ (∀ (k : ℕ) (x : ℝ), 0 < k → hp[k]? = some x → 0 < x) ∧ hp[9999]? = some a := by
  have hR := R_pos
  have hd : pdist (pointAt a 0) (pointAt 0 G) ≠ 0 := by
    rw [pdist_pointAt]; exact (Real.sqrt_pos.mpr (sq2_pos G ha)).ne'
  obtain ⟨zs, hp, e, -, l2, hk⟩ := C12_line_of_sight (by linarith) hd h1 h2 h3
  have ends := C12_ends (ht := 0) (hs := a) G (by linarith) (by linarith)
  refine ⟨zs, hp, e, l2, ?_, ?_, ?_⟩
  · rw [(hk 0 (by norm_num)).2]
    have := ends.1
    simpa using this
  · intro k x k0 hx
    have hk' : k < 10000 := by
      rw [← l2]
      by_contra hc
      rw [List.getElem?_eq_none (by omega)] at hx
      exact absurd hx (by simp)
    rw [(hk k hk').2] at hx
    rw [← Option.some.inj hx]
    apply hh
    · have : (0 : ℝ) < k := Nat.cast_pos.mpr k0
      positivity
    · rw [div_le_one (by norm_num)]
      have : k ≤ 9999 := by omega
      exact_mod_cast this
  · rw [(hk 9999 (by norm_num)).2, ends.2]

/-- **C114** (path of `niirs`). For every accepted request, the altitudes along the line of sight that `niirs` integrates
turbulence over are those of a path above the ground: zero at the target, positive everywhere else. -/
theorem C114_path {files : Files} {a g : ℝ} {haze : ℤ} (h : Accepted files (.fin a) (.fin g) haze) {sH sS sB : Scal}
    (h1 : sH.val = .fin 0) (h2 : sS.val = .fin a) (h3 : sB.val = curvedEarthSlantRange (.fin 0) (.fin a) (.fin g)) :
    ∃ zs hp : List ℝ, altitudeAlongSlantPath sH sS sB = .ok (zs.map .fin, hp.map .fin) ∧ hp.length = 10000
      ∧ hp[0]? = some 0 ∧ (∀ (k : ℕ) (x : ℝ), 0 < k → hp[k]? = some x → 0 < x) ∧ hp[9999]? = some a := by
  obtain ⟨a', g', e1, e2, k2, -, -, -, hh⟩ := C114_horizon h
  rw [XR.fin_inj] at e1 e2
  subst e1 e2
  exact path_heights (by linarith) hh h1 h2 h3

/-- **C114** (path of `simulate_image`). The same holds for the path that `simulate_image` integrates turbulence over,
although it takes the flat-Earth distance for the slant range. -/
theorem C114_simulated_path {files : Files} {sc : Scenario} (h : Accepted files sc.altitude sc.groundRange sc.ihaze)
    {sH sS sB : Scal} (h1 : sH.val = .fin 0) (h2 : sS.val = sc.altitude) (h3 : sB.val = flatSlantRange sc) :
    ∃ zs hp : List ℝ, altitudeAlongSlantPath sH sS sB = .ok (zs.map .fin, hp.map .fin) ∧ hp.length = 10000
      ∧ hp[0]? = some 0 ∧ (∀ (k : ℕ) (x : ℝ), 0 < k → hp[k]? = some x → 0 < x)
      ∧ (hp[9999]?).map .fin = some sc.altitude := by
  obtain ⟨a, g, e1, e2, k1, k2, k3, k4, k5⟩ := accepted_horizon h
  have hR := R_pos
  have ha : 0 < a := by linarith
  have hsq : g ^ 2 ≤ 2 * R * a := by
    have : R * g ^ 2 ≤ R * (2 * R * a) := by nlinarith [mul_nonneg ha.le (sq_nonneg g)]
    exact le_of_mul_le_mul_left this hR
  -- the ground range whose curved-Earth distance is the flat-Earth distance
  set x := 1 - g ^ 2 / (2 * R * (R + a)) with hx
  have hk : 0 < 2 * R * (R + a) := by positivity
  have x0 : -1 ≤ x := by
    have : g ^ 2 / (2 * R * (R + a)) ≤ 1 := by rw [div_le_one hk]; nlinarith
    rw [hx]; linarith
  have x1 : x ≤ 1 := by
    have : 0 ≤ g ^ 2 / (2 * R * (R + a)) := by positivity
    rw [hx]; linarith
  have hcos : Real.cos (R * Real.arccos x / R) = x := by
    rw [mul_div_cancel_left₀ _ hR.ne', Real.cos_arccos x0 x1]
  have hs2 : sq2 0 a (R * Real.arccos x) = a ^ 2 + g ^ 2 := by
    unfold sq2
    rw [hcos, hx]
    field_simp
    ring
  have hh : AboveHorizon a (R * Real.arccos x) := by
    rw [C114_meaning ha, hcos, hx]
    have : (R + a) * (1 - g ^ 2 / (2 * R * (R + a))) = R + a - g ^ 2 / (2 * R) := by
      field_simp
    rw [this]
    have : g ^ 2 / (2 * R) ≤ a := by rw [div_le_iff₀ (by positivity)]; linarith
    linarith
  have hB : sB.val = curvedEarthSlantRange (.fin 0) (.fin a) (.fin (R * Real.arccos x)) := by
    rw [h3, slant_fin, hs2]
    unfold flatSlantRange
    rw [e1, e2, XR.fin_pow, XR.fin_pow, XR.fin_add, XR.fin_sqrt (by positivity)]
  obtain ⟨zs, hp, p1, p2, p3, p4, p5⟩ := path_heights ha hh h1 (h2.trans e1) hB
  exact ⟨zs, hp, p1, p2, p3, p4, by rw [p5, e1]; rfl⟩

/-- **C114** (two distances). For every accepted request, the distance `niirs` uses is at least 0.9998 times the one
`simulate_image` uses and at most `sqrt (1 + a / R)` times as long. The two therefore differ by less than 0.16 percent for
all altitudes up to 20 km, and by less than 4.3 percent for the one higher orbit in the database. -/
theorem C114_distances {files : Files} {sc : Scenario} (h : Accepted files sc.altitude sc.groundRange sc.ihaze) :
    ∃ a S F : ℝ, sc.altitude = .fin a ∧ curvedEarthSlantRange 0 sc.altitude sc.groundRange = .fin S
      ∧ flatSlantRange sc = .fin F ∧ 0 < F
      ∧ 0.9998 * F ≤ S ∧ S ≤ Real.sqrt (1 + a / R) * F ∧ (a ≤ 20000 → S ≤ 1.0016 * F) ∧ S ≤ 1.043 * F := by
  obtain ⟨a, g, e1, e2, k1, k2, k3, k4, k5⟩ := accepted_horizon h
  have hR := R_pos
  have ha : 0 < a := by linarith
  have hF : 0 < Real.sqrt (a ^ 2 + g ^ 2) := Real.sqrt_pos.mpr (by positivity)
  have hsq : sq2 0 a g = a ^ 2 + 2 * (R + a) * R * (1 - Real.cos (g / R)) := by
    unfold sq2; ring
  have hg : g = (g / R) * R := by field_simp
  have hx0 : 0 ≤ g / R := by positivity
  have hx1 : g / R ≤ 0.04704 := by rw [div_le_iff₀ hR]; unfold R; linarith
  have up : Real.sqrt (sq2 0 a g) ≤ Real.sqrt (1 + a / R) * Real.sqrt (a ^ 2 + g ^ 2) := by
    rw [← Real.sqrt_mul (by positivity)]
    apply Real.sqrt_le_sqrt
    rw [hsq]
    have hc := Real.one_sub_sq_div_two_le_cos (x := g / R)
    have t0 : 2 * (R + a) * R * (1 - Real.cos (g / R)) ≤ 2 * (R + a) * R * ((g / R) ^ 2 / 2) := by
      gcongr; linarith
    have e : 2 * (R + a) * R * ((g / R) ^ 2 / 2) = (1 + a / R) * g ^ 2 := by field_simp
    have : 0 ≤ a / R * a ^ 2 := by positivity
    rw [e] at t0
    linarith
  have upTo : ∀ b c : ℝ, 0 ≤ c → a ≤ b → 1 + b / R ≤ c ^ 2 →
      Real.sqrt (sq2 0 a g) ≤ c * Real.sqrt (a ^ 2 + g ^ 2) := by
    intro b c hc hab hbc
    refine up.trans (mul_le_mul_of_nonneg_right ?_ hF.le)
    apply Real.sqrt_le_iff.mpr ⟨hc, le_trans ?_ hbc⟩
    gcongr
  refine ⟨a, Real.sqrt (sq2 0 a g), Real.sqrt (a ^ 2 + g ^ 2), e1, ?_, ?_, hF, ?_, up, ?_, ?_⟩
  · rw [e1, e2, XR.zero_def, slant_fin]
  · unfold flatSlantRange
    rw [e1, e2, XR.fin_pow, XR.fin_pow, XR.fin_add, XR.fin_sqrt (by positivity)]
  · have hc : Real.cos (g / R) ≤ 1 - (g / R) ^ 2 / 2 + (g / R) ^ 4 * (5 / 96) := by
      have := Real.cos_bound (x := g / R) (by rw [abs_of_nonneg hx0]; linarith)
      rw [abs_of_nonneg hx0] at this
      linarith [(abs_le.mp this).2]
    have e9 : (0.9998 : ℝ) = Real.sqrt (0.9998 ^ 2) := (Real.sqrt_sq (by norm_num)).symm
    rw [e9, ← Real.sqrt_mul (by norm_num)]
    apply Real.sqrt_le_sqrt
    rw [hsq]
    have hlow : (g / R) ^ 2 / 2 * 0.9997 ≤ 1 - Real.cos (g / R) := by
      have hy : (g / R) ^ 2 ≤ 0.04704 ^ 2 := pow_le_pow_left₀ hx0 hx1 2
      have h4 : (g / R) ^ 4 ≤ (g / R) ^ 2 * 0.04704 ^ 2 := by
        have : (g / R) ^ 4 = (g / R) ^ 2 * (g / R) ^ 2 := by ring
        rw [this]; gcongr
      have := sq_nonneg (g / R)
      linarith
    have t1 : 2 * (R + a) * R * ((g / R) ^ 2 / 2 * 0.9997) ≤ 2 * (R + a) * R * (1 - Real.cos (g / R)) := by gcongr
    have e : 2 * (R + a) * R * ((g / R) ^ 2 / 2 * 0.9997) = (1 + a / R) * g ^ 2 * 0.9997 := by field_simp
    rw [e] at t1
    have : 0 ≤ a / R * g ^ 2 := by positivity
    have := sq_nonneg a
    have := sq_nonneg g
    linarith
  · intro h20
    exact upTo 20000 1.0016 (by norm_num) h20 (by unfold R; norm_num)
  · exact upTo 550000 1.043 (by norm_num) k3 (by unfold R; norm_num)

/-- **C114** (elevation). For every accepted request the sensor stands above the
target's horizon (true zenith angle at most a right angle), and the elevation angle that `niirs` uses is at most 0.0471
(2.7 degrees) higher than the true one. -/
theorem C114_elevation {files : Files} {a g : ℝ} {haze : ℤ} (h : Accepted files (.fin a) (.fin g) haze) {sH sS sB : Scal}
    (h1 : sH.val = .fin 0) (h2 : sS.val = .fin a) (h3 : sB.val = curvedEarthSlantRange (.fin 0) (.fin a) (.fin g)) :
    ∃ φ ζ, nadirAngle sH sS sB = .ok (.fin φ) ∧ IsZenithAngle a 0 g ζ ∧ ζ ≤ Real.pi / 2
      ∧ Real.pi / 2 - ζ ≤ Real.pi / 2 - φ ∧ Real.pi / 2 - φ ≤ (Real.pi / 2 - ζ) + 0.0471 := by
  obtain ⟨a', g', e1, e2, k1, k2, k3, k4, k5⟩ := accepted_horizon h
  rw [XR.fin_inj] at e1 e2
  subst e1 e2
  have hR := R_pos
  have ha : 0 < a := by linarith
  have hd : pdist (pointAt a 0) (pointAt 0 g) ≠ 0 := by
    rw [pdist_pointAt]; exact (Real.sqrt_pos.mpr (sq2_pos g ha)).ne'
  have hpi : g ≤ Real.pi * R := by
    have := Real.pi_gt_three
    unfold R; nlinarith
  obtain ⟨φ, ζ, c1, c2, -, c3⟩ := C13_elevation_excess (ht := 0) (hs := a) (by linarith) (by linarith) k4 hpi hd h1 h2 h3
  have hx0 : 0 ≤ g / R := by positivity
  have hx1 : g / R ≤ 0.0471 := by rw [div_le_iff₀ hR]; unfold R; linarith
  refine ⟨φ, ζ, c1, c2, ?_, by linarith, by linarith⟩
  obtain ⟨z1, z2, z3⟩ := c2
  have hor := (C114_meaning ha).mp (aboveHorizon_of_sq ha k1)
  have hdot : 0 ≤ dot (pointAt 0 g + pointAt 0 g - pointAt 0 g) (pointAt a 0 - pointAt 0 g) := by
    have e : dot (pointAt 0 g + pointAt 0 g - pointAt 0 g) (pointAt a 0 - pointAt 0 g)
        = R * ((R + a) * Real.cos (g / R) - R) := by
      have := Real.sin_sq_add_cos_sq (g / R)
      simp only [dot, pointAt, zero_div, Real.sin_zero, Real.cos_zero, Prod.fst_add, Prod.snd_add, Prod.fst_sub,
        Prod.snd_sub]
      linear_combination -R ^ 2 * this
    rw [e]
    exact mul_nonneg hR.le (by linarith)
  rw [← z3] at hdot
  have hpos : 0 < pdist (pointAt 0 g) (pointAt 0 g + pointAt 0 g) * pdist (pointAt 0 g) (pointAt a 0) := by
    apply mul_pos
    · have : pdist (pointAt 0 g) (pointAt 0 g + pointAt 0 g) = pdist 0 (pointAt 0 g) := by
        unfold pdist; congr 1
        simp only [Prod.fst_add, Prod.snd_add, Prod.fst_zero, Prod.snd_zero]
        ring
      rw [this, pdist_origin_pointAt (by linarith)]
      linarith
    · rw [pdist_symm]
      exact lt_of_le_of_ne (pdist_nonneg _ _) hd.symm
  have hcz : 0 ≤ Real.cos ζ := by
    by_contra hneg
    rw [not_le] at hneg
    have := mul_neg_of_neg_of_pos hneg hpos
    linarith
  by_contra hgt
  rw [not_le] at hgt
  have := Real.cos_neg_of_pi_div_two_lt_of_lt hgt (by linarith [Real.pi_pos])
  linarith

/-- **C114** (outside the database). The geometry functions themselves do not know the horizon: for a target 6 km away and
a sensor at 2 m the line of sight is below the ground somewhere, yet slant range, nadir angle and path are computed
without an error. -/
theorem C114_not_checked : ¬ AboveHorizon 2 6000
    ∧ ∃ (S φ : ℝ) (zs hp : List ℝ), curvedEarthSlantRange 0 2 (.fin 6000) = .fin S
      ∧ nadirAngle (.py 0) (.py 2) (.np (.fin S)) = .ok (.fin φ)
      ∧ altitudeAlongSlantPath (.py 0) (.py 2) (.np (.fin S)) = .ok (zs.map .fin, hp.map .fin) := by
  have hR := R_pos
  refine ⟨?_, ?_⟩
  · rw [C114_meaning (by norm_num), not_le]
    have hc : Real.cos (6000 / R) ≤ 1 - (6000 / R) ^ 2 / 2 + (6000 / R) ^ 4 * (5 / 96) := by
      have := Real.cos_bound (x := 6000 / R) (by rw [abs_of_nonneg (by positivity)]; unfold R; norm_num)
      rw [abs_of_nonneg (show (0 : ℝ) ≤ 6000 / R by positivity)] at this
      linarith [(abs_le.mp this).2]
    have : (R + 2) * Real.cos (6000 / R) ≤ (R + 2) * (1 - (6000 / R) ^ 2 / 2 + (6000 / R) ^ 4 * (5 / 96)) := by gcongr
    refine this.trans_lt ?_
    unfold R; norm_num
  · have hd : pdist (pointAt 2 0) (pointAt 0 6000) ≠ 0 := by
      rw [pdist_pointAt]; exact (Real.sqrt_pos.mpr (sq2_pos 6000 (by norm_num))).ne'
    have e := slant_fin 0 2 6000
    obtain ⟨φ, c1, -⟩ := C11_angle_at_sensor (ht := 0) (hs := 2) (g := 6000) (sH := .py 0) (sS := .py 2)
      (sB := .np (.fin (Real.sqrt (sq2 0 2 6000)))) (by linarith) hd rfl rfl e.symm
    obtain ⟨zs, hp, c2, -⟩ := C12_line_of_sight (ht := 0) (hs := 2) (g := 6000) (sH := .py 0) (sS := .py 2)
      (sB := .np (.fin (Real.sqrt (sq2 0 2 6000)))) (by linarith) hd rfl rfl e.symm
    exact ⟨_, φ, zs, hp, e, c1, c2⟩

/-- The documented altitudes in tenths of a metre. -/
def storedAltitudesDm : List ℕ :=
  [20, 325, 750, 1500, 2250, 5000, 10000, 20000, 30000, 40000, 50000, 60000, 70000, 80000, 90000, 100000,
   110000, 120000, 140000, 160000, 180000, 200000, 245000]

theorem mem_stored {a : ℝ} (h : a ∈ storedAltitudes) : ∃ n ∈ storedAltitudesDm, a = (n : ℝ) / 10 := by
  have key : storedAltitudes = storedAltitudesDm.map fun n : ℕ => (n : ℝ) / 10 := by
    norm_num [storedAltitudes, storedAltitudesDm]
  rw [key] at h
  obtain ⟨n, hn, rfl⟩ := List.mem_map.mp h
  exact ⟨n, hn, rfl⟩

/-- Second-order test: certainly above the horizon. -/
def surelyAbove (a g : ℕ) : Bool := Nat.ble ((10 * 6378164 + a) * g ^ 2) (2 * 6378164 ^ 2 * a)

/-- Fourth-order test: certainly below the horizon. -/
def surelyBelow (a g : ℕ) : Bool :=
  Nat.blt ((10 * 6378164 + a) * (96 * 6378164 ^ 4 + 5 * g ^ 4))
    (960 * 6378164 ^ 5 + (10 * 6378164 + a) * (48 * 6378164 ^ 2 * g ^ 2))

theorem stored_ranges : ∀ h ∈ [1, 2], ∀ a ∈ storedAltitudesDm,
    rangesOf h a = gridRangesNat.filter (fun g => surelyAbove a g) := by
  decide +kernel

theorem stored_decided : ∀ a ∈ storedAltitudesDm, ∀ g ∈ gridRangesNat, surelyAbove a g = true ∨ surelyBelow a g = true := by
  decide +kernel

theorem below_of_sure {a g : ℕ} (ha : 0 < a) (hg : g ≤ 300000) (h : surelyBelow a g = true) :
    ¬ AboveHorizon ((a : ℝ) / 10) g := by
  have hR := R_pos
  have ha' : (0 : ℝ) < a := Nat.cast_pos.mpr ha
  have hg' : (g : ℝ) ≤ 300000 := by exact_mod_cast hg
  have hg0 : (0 : ℝ) ≤ g := Nat.cast_nonneg _
  rw [C114_meaning (by positivity), not_le]
  unfold surelyBelow at h
  rw [Nat.blt_eq] at h
  have h' : (((10 * 6378164 + a) * (96 * 6378164 ^ 4 + 5 * g ^ 4) : ℕ) : ℝ)
      < ((960 * 6378164 ^ 5 + (10 * 6378164 + a) * (48 * 6378164 ^ 2 * g ^ 2) : ℕ) : ℝ) := Nat.cast_lt.mpr h
  push_cast at h'
  have hR' : R = 6378164 := rfl
  have hx0 : (0 : ℝ) ≤ g / R := by positivity
  have hx1 : (g : ℝ) / R ≤ 1 := by rw [div_le_one hR]; unfold R; linarith
  have hc : Real.cos (g / R) ≤ 1 - (g / R) ^ 2 / 2 + (g / R) ^ 4 * (5 / 96) := by
    have := Real.cos_bound (x := g / R) (by rwa [abs_of_nonneg hx0])
    rw [abs_of_nonneg hx0] at this
    linarith [(abs_le.mp this).2]
  have t : (R + a / 10) * Real.cos (g / R) ≤ (R + a / 10) * (1 - (g / R) ^ 2 / 2 + (g / R) ^ 4 * (5 / 96)) := by gcongr
  refine t.trans_lt ?_
  have e : (R + (a : ℝ) / 10) * (1 - (g / R) ^ 2 / 2 + (g / R) ^ 4 * (5 / 96))
      = ((10 * R + a) * (96 * R ^ 4 + 5 * (g : ℝ) ^ 4) - (10 * R + a) * (48 * R ^ 2 * (g : ℝ) ^ 2)) / (960 * R ^ 4) := by
    field_simp
    ring
  rw [e, div_lt_iff₀ (by positivity), hR']
  linarith

/-- **C114** (documented ranges). At each documented altitude the ground ranges in the database are exactly, as documented,
the values of the documented list that do not exceed the distance to the horizon. -/
theorem C114_documented {files : Files} (hc : Complete files) {alt rng : ℝ} {haze : ℤ} (hh : haze = 1 ∨ haze = 2)
    (ha : alt ∈ storedAltitudes) :
    (∃ A, loadNoInterp files (.fin alt) (.fin rng) haze = .ok A) ↔ rng ∈ gridRanges ∧ AboveHorizon alt rng := by
  obtain ⟨a, ha', rfl⟩ := mem_stored ha
  have ha0 : 0 < a := by
    have : ∀ a ∈ storedAltitudesDm, 0 < a := by decide
    exact this a ha'
  have ha0' : (0 : ℝ) < a := Nat.cast_pos.mpr ha0
  obtain ⟨h, hh1, rfl⟩ : ∃ h ∈ [1, 2], haze = ((h : ℕ) : ℤ) := by
    rcases hh with rfl | rfl
    · exact ⟨1, by simp, by simp⟩
    · exact ⟨2, by simp, by simp⟩
  rw [load_complete_iff hc]
  constructor
  · rintro ⟨r, hr⟩
    refine ⟨?_, aboveHorizon_of_sq (by positivity) (row_horizon hr).1⟩
    obtain ⟨h1, h2, h3, h4⟩ := hr
    have e3 : r.altDm = a := by
      have : (r.altDm : ℝ) = a := by linarith
      exact_mod_cast this
    have := row_iff_range.mp ⟨r, h1, by exact_mod_cast h2, e3, rfl⟩
    rw [stored_ranges h hh1 a ha', List.mem_filter] at this
    rw [← h4]
    exact mem_gridRanges.mpr ⟨_, this.1, rfl⟩
  · rintro ⟨hg, hab⟩
    obtain ⟨n, hn, rfl⟩ := mem_gridRanges.mp hg
    have hn3 : n ≤ 300000 := by
      have := (gridRanges_bounds hg).2
      exact_mod_cast this
    have hs : surelyAbove a n = true := by
      rcases stored_decided a ha' n hn with k | k
      · exact k
      · exact absurd hab (below_of_sure ha0 hn3 k)
    have : n ∈ rangesOf h a := by
      rw [stored_ranges h hh1 a ha', List.mem_filter]
      exact ⟨hn, hs⟩
    obtain ⟨r, k1, k2, k3, k4⟩ := row_iff_range.mpr this
    exact ⟨r, k1, by rw [k2], by rw [k3], by rw [k4]⟩

/-- **C114** (out of reach). The database has 24.5 km, and straight down from 550 km, but `load_database_atmosphere`
rejects both: they can only be had without interpolation. -/
theorem C114_out_of_reach {files : Files} (hc : Complete files) {haze : ℤ} (hh : haze = 1 ∨ haze = 2) :
    (∀ rng ∈ gridRanges, (∃ A, loadNoInterp files (.fin 24500) (.fin rng) haze = .ok A)
      ∧ loadInterp files (.fin 24500) (.fin rng) haze = .error .indexError)
    ∧ (∃ A, loadNoInterp files (.fin 550000) (.fin 0) haze = .ok A)
      ∧ loadInterp files (.fin 550000) (.fin 0) haze = .error .indexError := by
  have out : ∀ a rng : ℝ, 20000 < a → loadInterp files (.fin a) (.fin rng) haze = .error .indexError := by
    intro a rng ha
    apply C05_outside
    rintro ⟨a', g, e, -, -, k, -⟩
    rw [XR.fin_inj] at e
    linarith
  refine ⟨fun rng hr => ⟨?_, out _ _ (by norm_num)⟩, ?_, out _ _ (by norm_num)⟩
  · rw [C114_documented hc hh (by norm_num [storedAltitudes])]
    refine ⟨hr, aboveHorizon_of_sq (by norm_num) ?_⟩
    obtain ⟨l, u⟩ := gridRanges_bounds hr
    have : rng ^ 2 ≤ 300000 ^ 2 := pow_le_pow_left₀ l u 2
    unfold R
    nlinarith
  · rw [load_complete_iff hc]
    have : ∀ h ∈ [1, 2], 0 ∈ rangesOf h 5500000 := by decide +kernel
    obtain ⟨h, hh1, rfl⟩ : ∃ h ∈ [1, 2], haze = ((h : ℕ) : ℤ) := by
      rcases hh with rfl | rfl
      · exact ⟨1, by simp, by simp⟩
      · exact ⟨2, by simp, by simp⟩
    obtain ⟨r, k1, k2, k3, k4⟩ := row_iff_range.mpr (this h hh1)
    exact ⟨r, k1, by rw [k2], by rw [k3]; norm_num, by rw [k4]; norm_num⟩

theorem accepted_of_niirsAtm {env : Env} {s : Sensor} {sc : Scenario} {interp : Bool} {A : Atm}
    (h : niirsAtm env s sc interp = .ok A) : Accepted env.files sc.altitude sc.groundRange sc.ihaze := by
  unfold niirsAtm at h
  cases interp with
  | true =>
    left
    cases e : loadInterp env.files sc.altitude sc.groundRange sc.ihaze with
    | ok B => exact ⟨B, rfl⟩
    | error x => simp [e, bind, Except.bind] at h
  | false =>
    right
    cases e : loadNoInterp env.files sc.altitude sc.groundRange sc.ihaze with
    | ok B => exact ⟨B, rfl⟩
    | error x => simp [e, bind, Except.bind] at h

/-- **C114** (results). Whenever `niirs`, `niirs5` or `simulate_image` returns a result, the sensor sees the target. For
`simulate_image` the atmosphere the scenario holds, if any, is the one for its parameters (which C01 guarantees). -/
theorem C114_results {env : Env} {s : Sensor} {sc : Scenario} :
    (∀ interp m, (niirs env s sc interp).1 = .ok m ∨ (niirs5 env s sc interp).1 = .ok m →
      ∃ a g : ℝ, sc.altitude = .fin a ∧ sc.groundRange = .fin g ∧ AboveHorizon a g)
    ∧ ∀ usable rng r out, (∀ A, sc.atmCache = some A →
        (if sc.interp then loadInterp env.files sc.altitude sc.groundRange sc.ihaze
          else loadNoInterp env.files sc.altitude sc.groundRange sc.ihaze) = .ok A) →
      simulateImage env usable rng r s sc = .ok out →
      ∃ a g : ℝ, sc.altitude = .fin a ∧ sc.groundRange = .fin g ∧ AboveHorizon a g := by
  have weaken : Accepted env.files sc.altitude sc.groundRange sc.ihaze →
      ∃ a g : ℝ, sc.altitude = .fin a ∧ sc.groundRange = .fin g ∧ AboveHorizon a g := by
    intro h
    obtain ⟨a, g, e1, e2, -, -, -, -, hh⟩ := C114_horizon h
    exact ⟨a, g, e1, e2, hh⟩
  refine ⟨?_, ?_⟩
  · intro interp m h
    apply weaken
    cases e : niirsAtm env s sc interp with
    | ok A => exact accepted_of_niirsAtm e
    | error x =>
      unfold niirs niirs5 at h
      simp [e] at h
  · intro usable rng r out hc h
    apply weaken
    have key : ∀ A, (if sc.interp then loadInterp env.files sc.altitude sc.groundRange sc.ihaze
        else loadNoInterp env.files sc.altitude sc.groundRange sc.ihaze) = .ok A →
        Accepted env.files sc.altitude sc.groundRange sc.ihaze := by
      intro A hA
      by_cases hi : sc.interp = true
      · rw [if_pos hi] at hA; exact Or.inl ⟨A, hA⟩
      · rw [if_neg hi] at hA; exact Or.inr ⟨A, hA⟩
    cases e : (sc.readAtm env.files).1 with
    | error x => simp [simulateImage, e, bind, Except.bind] at h
    | ok A =>
      unfold Scenario.readAtm at e
      cases hcache : sc.atmCache with
      | some B => exact key B (hc B hcache)
      | none =>
        rw [hcache] at e
        simp only [dbLoad] at e
        split at e
        · rename_i B hB; exact key B hB
        · simp at e

/-- Non-trivial instance: with a complete database the request for 9 km altitude and 60 km ground range is accepted. -/
example {files : Files} (hc : Complete files) : Accepted files (.fin 9000) (.fin 60000) 1 :=
  Or.inl (C08_guaranteed hc (Or.inl rfl) (by norm_num) (by norm_num) (by norm_num) (by norm_num))

end PyBSM
