import Verif.Spec.Distance
import Verif.Props.Compare
import Verif.Props.Turned

/-!
# What the distance to the target does to a rating (C140)
-/

noncomputable section

open Classical

namespace PyBSM

open Spec

/-! ## The triangle of sensor, target and the centre of the Earth -/

/-- How far the target lies below the sensor, along the vertical of the sensor. -/
def dropOf (g : RealScene) : ℝ := R + g.altitude - R * Real.cos (g.groundRange / R)

/-- How far the target lies to the side of that vertical. -/
def sideOf (g : RealScene) : ℝ := R * Real.sin (g.groundRange / R)

theorem distance_R_pos : (0 : ℝ) < R := by unfold R; norm_num

theorem slant_sq (g : RealScene) : g.slant ^ 2 = dropOf g ^ 2 + sideOf g ^ 2 := by
  unfold RealScene.slant pdist pointAt dropOf sideOf
  rw [Real.sq_sqrt (by positivity)]
  simp only [zero_div, Real.sin_zero, Real.cos_zero]
  ring

theorem drop_pos {g : RealScene} (ha : 0 < g.altitude) : 0 < dropOf g := by
  unfold dropOf
  have := mul_le_mul_of_nonneg_left (Real.cos_le_one (g.groundRange / R)) distance_R_pos.le
  linarith

theorem sin_elev_eq {g : RealScene} (hg : g.Viewing) {φ : ℝ}
    (h : IsAngle 0 (pointAt g.altitude 0) (pointAt 0 g.groundRange) φ) : Real.sin (Real.pi / 2 - φ) = dropOf g / g.slant := by
  rw [Real.sin_pi_div_two_sub]
  obtain ⟨-, -, h⟩ := h
  have hs := slant_pos_of hg
  have ha := hg.above
  have e0 : pdist (pointAt g.altitude 0) 0 = R + g.altitude := by
    unfold pdist pointAt
    simp [Real.sqrt_sq_eq_abs, abs_of_pos ha]
  have e1 : dot (0 - pointAt g.altitude 0) (pointAt 0 g.groundRange - pointAt g.altitude 0) = (R + g.altitude) * dropOf g := by
    unfold dot pointAt dropOf
    simp
    ring
  have e2 : pdist (pointAt g.altitude 0) (pointAt 0 g.groundRange) = g.slant := rfl
  rw [e0, e1, e2] at h
  rw [eq_div_iff hs.ne']
  have : (R + g.altitude) * (Real.cos φ * g.slant) = (R + g.altitude) * dropOf g := by linarith
  exact mul_left_cancel₀ ha.ne' this

/-- Further round the Earth is further away. -/
theorem slant_lt {g g' : RealScene} (hg : g.Viewing) (hA : g'.altitude = g.altitude) (h0 : 0 ≤ g.groundRange)
    (hlt : g.groundRange < g'.groundRange) (hmax : g'.groundRange ≤ Real.pi * R) : g.slant < g'.slant := by
  have hR := distance_R_pos
  have hc : Real.cos (g'.groundRange / R) < Real.cos (g.groundRange / R) :=
    Real.cos_lt_cos_of_nonneg_of_le_pi (by positivity) (by rwa [div_le_iff₀ hR]) (by gcongr)
  refine lt_of_pow_lt_pow_left₀ 2 (Real.sqrt_nonneg _) ?_
  show g.slant ^ 2 < g'.slant ^ 2
  rw [slant_sq, slant_sq]
  unfold dropOf sideOf
  rw [hA]
  have h1 := Real.sin_sq_add_cos_sq (g.groundRange / R)
  have h2 := Real.sin_sq_add_cos_sq (g'.groundRange / R)
  have h3 : 0 < R * (R + g.altitude) := mul_pos hR hg.above
  have key : ∀ s c : ℝ, s ^ 2 + c ^ 2 = 1 → (R + g.altitude - R * c) ^ 2 + (R * s) ^ 2
      = (R + g.altitude) ^ 2 + R ^ 2 - 2 * (R * (R + g.altitude)) * c := by
    intro s c h
    have : s ^ 2 = 1 - c ^ 2 := by linarith
    rw [mul_pow R s, this]; ring
  rw [key _ _ h1, key _ _ h2]
  nlinarith [mul_pos h3 (sub_pos.mpr hc)]

/-- The vertical drop in terms of the distance. -/
theorem drop_eq (g : RealScene) : 2 * (R + g.altitude) * dropOf g = g.slant ^ 2 + ((R + g.altitude) ^ 2 - R ^ 2) := by
  rw [slant_sq]
  unfold dropOf sideOf
  have h1 := Real.sin_sq_add_cos_sq (g.groundRange / R)
  have : Real.sin (g.groundRange / R) ^ 2 = 1 - Real.cos (g.groundRange / R) ^ 2 := by linarith
  rw [mul_pow R (Real.sin _), this]
  ring

/-! ## Pixels on the ground -/

/-- With the weight `1 / n` for the elevation, the size of a pixel on the ground to the power `n`. -/
theorem ground_pow {n : ℕ} (hn : n ≠ 0) {k d N : ℝ} (hk : 0 < k) (hd : 0 < d) (hN : 0 < N) :
    (k * d / (N / d) ^ (1 / n : ℝ)) ^ n = k ^ n * (d ^ (n + 1) / N) := by
  rw [div_pow, ← Real.rpow_natCast ((N / d) ^ _) n, ← Real.rpow_mul (by positivity), one_div_mul_cancel (by exact_mod_cast hn),
    Real.rpow_one, mul_pow, pow_succ d n]
  field_simp

theorem ground_lt_iff {n : ℕ} (hn : n ≠ 0) {k d N d' N' : ℝ} (hk : 0 < k) (hd : 0 < d) (hN : 0 < N) (hd' : 0 < d') (hN' : 0 < N') :
    k * d / (N / d) ^ (1 / n : ℝ) < k * d' / (N' / d') ^ (1 / n : ℝ) ↔ d ^ (n + 1) * N' < d' ^ (n + 1) * N := by
  rw [← pow_lt_pow_iff_left₀ (a := k * d / (N / d) ^ (1 / n : ℝ)) (by positivity) (by positivity) hn, ground_pow hn hk hd hN,
    ground_pow hn hk hd' hN', mul_lt_mul_iff_right₀ (by positivity), div_lt_div_iff₀ hN hN']

/-! ## The two pictures -/

theorem calm_mtf {s : RealSensor} {g g' : RealScene} {B : List (Fin 6 → ℝ)} {F : ℝ → ℝ → ℝ} (c : g.cn2 ≤ 0) (c' : g'.cn2 ≤ 0) :
    s.mtf g' B F = s.mtf g B F := by
  funext u v
  unfold RealSensor.mtf opticsAt turbulenceAt
  rw [if_neg (not_lt.mpr c), if_neg (not_lt.mpr c')]

theorem same_detector {s : RealSensor} {g g' : RealScene} {B : List (Fin 6 → ℝ)} {m m' : Metrics} (h : Radiometry s g B m)
    (h' : Radiometry s g' B m') : m'.snr = m.snr := by
  have e := h.detector
  have e' := h'.detector
  rw [h.wavelengths, h.target, h.background] at e
  rw [h'.wavelengths, h'.target, h'.background, e] at e'
  exact (Except.ok.inj e').symm

theorem two_views {env env' : Env} {s : RealSensor} {g g' : RealScene} {sc sc' : Scenario} {interp interp' : Bool}
    {B : List (Fin 6 → ℝ)} (h : Imaging env s g sc interp B) (h' : Imaging env' s g' sc' interp' B) (hq : s.Sampled B)
    (hc : Contrast s g B) (ha' : 0 < g'.altitude) (calm : g.cn2 ≤ 0) (calm' : g'.cn2 ≤ 0) :
    ∃ (m m' : Metrics) (x x' ε ε' : ℝ), (niirs5 env s.toSensor sc interp).1 = .ok m
      ∧ (niirs5 env' s.toSensor sc' interp').1 = .ok m' ∧ EquallySharp m m'
      ∧ m.niirs = .fin x ∧ m'.niirs = .fin x' ∧ m.elevAngle = .fin ε ∧ m'.elevAngle = .fin ε'
      ∧ Real.sin ε = dropOf g / g.slant ∧ Real.sin ε' = dropOf g' / g'.slant
      ∧ x' - x = 3.32 * lg (projectedGsd (1 / 4) (s.pX / s.f * g.slant) ε / 0.0254)
        - 3.32 * lg (projectedGsd (1 / 4) (s.pX / s.f * g'.slant) ε' / 0.0254) := by
  obtain ⟨m, c, φ, gw, rer, e1, e2, e3, -, -, e6, e7, e8, e9⟩ := niirs5_value h
  obtain ⟨m', c', φ', gw', rer', f1, f2, f3, -, -, f6, f7, f8, f9⟩ := niirs5_value h'
  have hcc : c' = c := cutoff_unique f3.isCutoff e3.isCutoff
  subst hcc
  have hb := imaging_band h.wavelengths h.distinct h.signal
  have hcp := cutoff_pos h.optical.aperture h.wavelengths e3.isCutoff
  rw [calm_mtf calm calm'] at f8 f9
  obtain ⟨q1, q2⟩ := hq _ e3.isCutoff
  have ix : 0 < s.pX / s.f := div_pos h.pitchX h.focal
  have iy : 0 < s.pY / s.f := div_pos h.pitchY h.focal
  have hdf : 0 < c' / 50 := by positivity
  have hle : c' / 50 * 49 + 1e-6 ≤ c' + 1e-6 := by linarith
  have qx := (mul_le_mul_of_nonneg_left hle ix.le).trans q1
  have qy := (mul_le_mul_of_nonneg_left hle iy.le).trans q2
  have hM0 : s.mtf g B (fun _ _ => 1) 0 0 = 1 := by
    unfold RealSensor.mtf
    rw [opticsAt_zero h.optical g hb]; simp
  have p1 : 0 < rerOf (alongU (s.mtf g B fun _ _ => 1) (c' / 50)) (c' / 50) (s.pX / s.f) := by
    refine rerOf_pos ?_ (fun k => abs_nonneg _) hdf ix qx
    unfold alongU; rw [Nat.cast_zero, zero_mul, hM0]; norm_num
  have p2 : 0 < rerOf (alongV (s.mtf g B fun _ _ => 1) (c' / 50)) (c' / 50) (s.pY / s.f) := by
    refine rerOf_pos ?_ (fun k => abs_nonneg _) hdf iy qy
    unfold alongV; rw [Nat.cast_zero, zero_mul, hM0]; norm_num
  have hsn := (contrast_pos h hc).ne'
  have g0 := mul_pos ix (slant_pos_of h.viewing)
  have g0' := mul_pos ix (slant_pos_of h'.viewing)
  rw [giqe5_fin rfl p1 p2 g0 hsn (sin_elev_pos h.viewing hc.altitude e6), Except.ok.injEq, Prod.mk.injEq, Prod.mk.injEq] at e9
  rw [giqe5_fin rfl p1 p2 g0' hsn (sin_elev_pos h'.viewing ha' f6), Except.ok.injEq, Prod.mk.injEq, Prod.mk.injEq] at f9
  refine ⟨m, m', _, _, _, _, e1, f1, ⟨same_detector e2 f2, ?_⟩, e9.1.symm, f9.1.symm, e7, f7, sin_elev_eq h.viewing e6,
    sin_elev_eq h'.viewing f6, ?_⟩
  · rw [e8, f8, ← e9.2.2, ← f9.2.2]
    rfl
  · unfold Spec.niirs5
    ring

theorem lg_gsd {a b : ℝ} (ha : 0 < a) (hb : 0 < b) : 3.32 * lg (a / 0.0254) - 3.32 * lg (b / 0.0254) = -(3.32 * lg (b / a)) := by
  unfold lg
  rw [Real.logb_div ha.ne' (by norm_num), Real.logb_div hb.ne' (by norm_num), Real.logb_div hb.ne' ha.ne']
  ring

/-- **C140** (formula): one sensor, one air without turbulence, two places to see the target from. The pictures are equally sharp and
the ratings of `niirs5` differ by what the size of a pixel on the ground gives: the ratio of the distances, and to the
power 1/4 that of the sines of the elevation angles. -/
theorem C140_formula {env env' : Env} {s : RealSensor} {g g' : RealScene} {sc sc' : Scenario} {interp interp' : Bool}
    {B : List (Fin 6 → ℝ)} (h : Imaging env s g sc interp B) (h' : Imaging env' s g' sc' interp' B) (hq : s.Sampled B)
    (hc : Contrast s g B) (ha' : 0 < g'.altitude) (calm : g.cn2 ≤ 0) (calm' : g'.cn2 ≤ 0) :
    ∃ (m m' : Metrics) (x x' ε ε' : ℝ), (niirs5 env s.toSensor sc interp).1 = .ok m
      ∧ (niirs5 env' s.toSensor sc' interp').1 = .ok m' ∧ EquallySharp m m'
      ∧ m.niirs = .fin x ∧ m'.niirs = .fin x' ∧ m.elevAngle = .fin ε ∧ m'.elevAngle = .fin ε'
      ∧ 0 < Real.sin ε ∧ 0 < Real.sin ε'
      ∧ x' = x - 3.32 * Real.logb 10 (g'.slant / g.slant * (Real.sin ε / Real.sin ε') ^ (1 / 4 : ℝ)) := by
  obtain ⟨m, m', x, x', ε, ε', e1, e2, e3, e4, e5, e6, e7, e8, e9, e10⟩ := two_views h h' hq hc ha' calm calm'
  have ix : 0 < s.pX / s.f := div_pos h.pitchX h.focal
  have d := slant_pos_of h.viewing
  have d' := slant_pos_of h'.viewing
  have s0 : 0 < Real.sin ε := by rw [e8]; exact div_pos (drop_pos hc.altitude) d
  have s0' : 0 < Real.sin ε' := by rw [e9]; exact div_pos (drop_pos ha') d'
  refine ⟨m, m', x, x', ε, ε', e1, e2, e3, e4, e5, e6, e7, s0, s0', ?_⟩
  unfold projectedGsd at e10
  rw [lg_gsd (by positivity) (by positivity)] at e10
  have : s.pX / s.f * g'.slant / Real.sin ε' ^ (1 / 4 : ℝ) / (s.pX / s.f * g.slant / Real.sin ε ^ (1 / 4 : ℝ))
      = g'.slant / g.slant * (Real.sin ε / Real.sin ε') ^ (1 / 4 : ℝ) := by
    rw [Real.div_rpow s0.le s0'.le]
    have := h.pitchX
    have := h.focal
    field_simp
  rw [this] at e10
  unfold lg at e10
  linarith

/-- Which of two places gives the better rating. -/
theorem better_iff {env env' : Env} {s : RealSensor} {g g' : RealScene} {sc sc' : Scenario} {interp interp' : Bool}
    {B : List (Fin 6 → ℝ)} (h : Imaging env s g sc interp B) (h' : Imaging env' s g' sc' interp' B) (hq : s.Sampled B)
    (hc : Contrast s g B) (ha' : 0 < g'.altitude) (calm : g.cn2 ≤ 0) (calm' : g'.cn2 ≤ 0) :
    ∃ (m m' : Metrics) (x x' ε ε' : ℝ), (niirs5 env s.toSensor sc interp).1 = .ok m
      ∧ (niirs5 env' s.toSensor sc' interp').1 = .ok m' ∧ EquallySharp m m'
      ∧ m.niirs = .fin x ∧ m'.niirs = .fin x' ∧ m.elevAngle = .fin ε ∧ m'.elevAngle = .fin ε'
      ∧ Real.sin ε = dropOf g / g.slant ∧ Real.sin ε' = dropOf g' / g'.slant
      ∧ (x' < x ↔ g.slant ^ 5 * dropOf g' < g'.slant ^ 5 * dropOf g)
      ∧ (x < x' ↔ g'.slant ^ 5 * dropOf g < g.slant ^ 5 * dropOf g') := by
  obtain ⟨m, m', x, x', ε, ε', e1, e2, e3, e4, e5, e6, e7, e8, e9, e10⟩ := two_views h h' hq hc ha' calm calm'
  have ix : 0 < s.pX / s.f := div_pos h.pitchX h.focal
  have d := slant_pos_of h.viewing
  have d' := slant_pos_of h'.viewing
  have n := drop_pos hc.altitude
  have n' := drop_pos ha'
  have a0 : 0 < s.pX / s.f * g.slant / (dropOf g / g.slant) ^ (1 / 4 : ℝ) := by positivity
  have b0 : 0 < s.pX / s.f * g'.slant / (dropOf g' / g'.slant) ^ (1 / 4 : ℝ) := by positivity
  refine ⟨m, m', x, x', ε, ε', e1, e2, e3, e4, e5, e6, e7, e8, e9, ?_⟩
  unfold projectedGsd lg at e10
  rw [e8, e9] at e10
  have k1 := ground_lt_iff (n := 4) (by norm_num) ix d n d' n'
  have k2 := ground_lt_iff (n := 4) (by norm_num) ix d' n' d n
  norm_num only [Nat.cast_ofNat] at k1 k2
  norm_num only at e10 a0 b0
  have hlog : ∀ a b : ℝ, 0 < a → 0 < b → (Real.logb 10 (a / 0.0254) < Real.logb 10 (b / 0.0254) ↔ a < b) := by
    intro a b ha hb
    rw [Real.logb_lt_logb_iff (by norm_num) (by positivity) (by positivity)]
    exact div_lt_div_iff_of_pos_right (by norm_num)
  have l1 := hlog _ _ a0 b0
  have l2 := hlog _ _ b0 a0
  norm_num only at l1 l2
  rw [← k1, ← k2, ← l1, ← l2]
  constructor <;> constructor <;> intro hh <;> linarith

/-- **C140** (further away): from the same altitude, a target further away along the ground gets a lower rating. -/
theorem C140_further {env env' : Env} {s : RealSensor} {g g' : RealScene} {sc sc' : Scenario} {interp interp' : Bool}
    {B : List (Fin 6 → ℝ)} (h : Imaging env s g sc interp B) (h' : Imaging env' s g' sc' interp' B) (hq : s.Sampled B)
    (hc : Contrast s g B) (calm : g.cn2 ≤ 0) (calm' : g'.cn2 ≤ 0) (hA : g'.altitude = g.altitude) (h0 : 0 ≤ g.groundRange)
    (hlt : g.groundRange < g'.groundRange) (hmax : g'.groundRange ≤ Real.pi * R) :
    ∃ (m m' : Metrics) (x x' : ℝ), (niirs5 env s.toSensor sc interp).1 = .ok m
      ∧ (niirs5 env' s.toSensor sc' interp').1 = .ok m' ∧ EquallySharp m m' ∧ m.niirs = .fin x ∧ m'.niirs = .fin x' ∧ x' < x := by
  have ha' : 0 < g'.altitude := by rw [hA]; exact hc.altitude
  obtain ⟨m, m', x, x', ε, ε', e1, e2, e3, e4, e5, -, -, -, -, e8, -⟩ := better_iff h h' hq hc ha' calm calm'
  refine ⟨m, m', x, x', e1, e2, e3, e4, e5, e8.mpr ?_⟩
  have d := slant_pos_of h.viewing
  have hd := slant_lt h.viewing hA h0 hlt hmax
  have k := drop_eq g
  have k' := drop_eq g'
  rw [hA] at k'
  have hR := distance_R_pos
  have h3 : 0 < R + g.altitude := h.viewing.above
  have hK : 0 < (R + g.altitude) ^ 2 - R ^ 2 := by nlinarith [hc.altitude, mul_pos hR hc.altitude]
  have e : ∀ a b : ℝ, a < b ↔ 2 * (R + g.altitude) * a < 2 * (R + g.altitude) * b := fun a b =>
    (mul_lt_mul_iff_right₀ (by positivity)).symm
  rw [e]
  have : ∀ a b : ℝ, 2 * (R + g.altitude) * (a * b) = a * (2 * (R + g.altitude) * b) := fun a b => by ring
  rw [this, this, k, k']
  generalize (R + g.altitude) ^ 2 - R ^ 2 = K at hK
  generalize g.slant = a at d hd
  generalize g'.slant = b at hd
  have b0 : 0 < b := d.trans hd
  have p5 : a ^ 5 < b ^ 5 := pow_lt_pow_left₀ hd d.le (by norm_num)
  have p3 : a ^ 3 < b ^ 3 := pow_lt_pow_left₀ hd d.le (by norm_num)
  have : a ^ 2 * b ^ 2 * a ^ 3 < a ^ 2 * b ^ 2 * b ^ 3 := by gcongr
  nlinarith [mul_lt_mul_of_pos_right p5 hK]

/-- **C140** (straight above): seen from straight above, each factor in altitude costs 3.32 times its decimal logarithm; twice the altitude
costs nearly one level. -/
theorem C140_overhead {env env' : Env} {s : RealSensor} {g g' : RealScene} {sc sc' : Scenario} {interp interp' : Bool}
    {B : List (Fin 6 → ℝ)} (h : Imaging env s g sc interp B) (h' : Imaging env' s g' sc' interp' B) (hq : s.Sampled B)
    (hc : Contrast s g B) (ha' : 0 < g'.altitude) (calm : g.cn2 ≤ 0) (calm' : g'.cn2 ≤ 0) (h0 : g.groundRange = 0)
    (h0' : g'.groundRange = 0) :
    ∃ (m m' : Metrics) (x x' : ℝ), (niirs5 env s.toSensor sc interp).1 = .ok m
      ∧ (niirs5 env' s.toSensor sc' interp').1 = .ok m' ∧ EquallySharp m m' ∧ m.niirs = .fin x ∧ m'.niirs = .fin x'
      ∧ x' = x - 3.32 * Real.logb 10 (g'.altitude / g.altitude) := by
  obtain ⟨m, m', x, x', ε, ε', e1, e2, e3, e4, e5, -, -, e8, e9, e10⟩ := two_views h h' hq hc ha' calm calm'
  refine ⟨m, m', x, x', e1, e2, e3, e4, e5, ?_⟩
  have ix : 0 < s.pX / s.f := div_pos h.pitchX h.focal
  have key : ∀ {k : RealScene}, k.groundRange = 0 → 0 < k.altitude → k.slant = k.altitude ∧ dropOf k = k.altitude := by
    intro k hk ha
    have e : dropOf k = k.altitude := by unfold dropOf; rw [hk]; simp
    refine ⟨?_, e⟩
    have := slant_sq k
    rw [e] at this
    unfold sideOf at this
    rw [hk] at this
    simp only [zero_div, Real.sin_zero, mul_zero, ne_eq, OfNat.ofNat_ne_zero, not_false_eq_true, zero_pow, add_zero] at this
    exact (pow_left_inj₀ (Real.sqrt_nonneg _) ha.le (by norm_num)).mp this
  obtain ⟨k1, k2⟩ := key h0 hc.altitude
  obtain ⟨k3, k4⟩ := key h0' ha'
  have a0 := hc.altitude
  have s1 : Real.sin ε = 1 := by rw [e8, k1, k2, div_self a0.ne']
  have s2 : Real.sin ε' = 1 := by rw [e9, k3, k4, div_self ha'.ne']
  unfold projectedGsd at e10
  rw [s1, s2, Real.one_rpow, div_one, div_one, k1, k3, lg_gsd (by positivity) (by positivity),
    mul_div_mul_left _ _ ix.ne'] at e10
  unfold lg at e10
  linarith

/-- **C140** (GIQE 3 and 4): the ratings of `niirs`. In GIQE 3 only the distance counts; in GIQE 4, whose factor depends on whether the
relative edge response reaches 0.9, also the square root of the sine of the elevation angle. -/
theorem C140_giqe34 {env env' : Env} {s : RealSensor} {g g' : RealScene} {sc sc' : Scenario} {interp interp' : Bool}
    {B : List (Fin 6 → ℝ)} (h : Imaging env s g sc interp B) (h' : Imaging env' s g' sc' interp' B)
    (hk : s.filterKernel.flatten.sum = 1) (hd : env'.diag = env.diag) (hc : Contrast s g B) (ha' : 0 < g'.altitude) (calm : g.cn2 ≤ 0)
    (calm' : g'.cn2 ≤ 0) :
    ∃ (m m' : Metrics) (ε ε' : ℝ), (niirs env s.toSensor sc interp).1 = .ok m ∧ (niirs env' s.toSensor sc' interp').1 = .ok m'
      ∧ m'.snr = m.snr ∧ m.elevAngle = .fin ε ∧ m'.elevAngle = .fin ε'
      ∧ ∃ gy gm rer eho ng n4 gp gy' gm' n4' gp', m.giqe34 = some (gy, gm, rer, eho, ng, n4, gp)
        ∧ m'.giqe34 = some (gy', gm', rer, eho, ng, n4', gp')
        ∧ ∀ r e : ℝ, rer = .fin r → eho = .fin e → 0 < r → ∃ x x' y y' : ℝ, m.niirs = .fin x ∧ m'.niirs = .fin x'
          ∧ n4 = .fin y ∧ n4' = .fin y'
          ∧ x' = x - 3.32 * Real.logb 10 (g'.slant / g.slant)
          ∧ y' = y - (if 0.9 ≤ r then 3.32 else 3.16)
              * Real.logb 10 (g'.slant / g.slant * (Real.sin ε / Real.sin ε') ^ (1 / 2 : ℝ)) := by
  obtain ⟨m, c, eu, ev, φ, rer, eho, n4, gp, e1, e2, e3, -, -, e6, e7, o1, o2, e8, e9, e10, e11, e12⟩ := niirs_value h hk
  obtain ⟨m', c', eu', ev', φ', rer', eho', n4', gp', f1, f2, f3, -, -, f6, f7, q1, q2, f8, f9, f10, f11, f12⟩ := niirs_value h' hk
  have hcc : c' = c := cutoff_unique f3.isCutoff e3.isCutoff
  subst hcc
  rw [hd, calm_mtf calm calm'] at q1 q2 f8
  have k1 : eu' = eu := overshoot_unique q1 o1
  have k2 : ev' = ev := overshoot_unique q2 o2
  rw [k1, k2, ← e9] at f9
  rw [← e8] at f8
  subst f8 f9
  refine ⟨m, m', _, _, e1, f1, same_detector e2 f2, e7, f7, _, _, _, _, _, _, _, _, _, _, _, e10, f10, ?_⟩
  intro r e hr he r0
  have d := slant_pos_of h.viewing
  have d' := slant_pos_of h'.viewing
  have ix : 0 < s.pX / s.f := div_pos h.pitchX h.focal
  have iy : 0 < s.pY / s.f := div_pos h.pitchY h.focal
  have q : ∀ {t : ℝ}, 0 < t → Real.sqrt (s.pX / s.f * t * (s.pY / s.f * t)) = Real.sqrt (s.pX / s.f * (s.pY / s.f)) * t := by
    intro t ht
    have : s.pX / s.f * t * (s.pY / s.f * t) = s.pX / s.f * (s.pY / s.f) * t ^ 2 := by ring
    rw [this, Real.sqrt_mul (by positivity), Real.sqrt_sq ht.le]
  have w : 0 < Real.sqrt (s.pX / s.f * (s.pY / s.f)) := Real.sqrt_pos.mpr (by positivity)
  rw [q d] at e11 e12
  rw [q d'] at f11 f12
  generalize Real.sqrt (s.pX / s.f * (s.pY / s.f)) = k at *
  have g0 : 0 < k * g.slant := by positivity
  have g0' : 0 < k * g'.slant := by positivity
  have hsn := (contrast_pos h hc).ne'
  have s0 := sin_elev_pos h.viewing hc.altitude e6
  have s0' := sin_elev_pos h'.viewing ha' f6
  rw [giqe3_fin (rer := .np _) (eho := .np _) hr rfl he rfl rfl r0 g0 hsn, Except.ok.injEq] at e11
  rw [giqe3_fin (rer := .np _) (eho := .np _) hr rfl he rfl rfl r0 g0' hsn, Except.ok.injEq] at f11
  rw [giqe4_fin (rer := .np _) (eho := .np _) hr rfl he rfl rfl r0 g0 hsn s0, Except.ok.injEq, Prod.mk.injEq] at e12
  rw [giqe4_fin (rer := .np _) (eho := .np _) hr rfl he rfl rfl r0 g0' hsn s0', Except.ok.injEq, Prod.mk.injEq] at f12
  refine ⟨_, _, _, _, e11.symm, f11.symm, e12.1.symm, f12.1.symm, ?_, ?_⟩
  · unfold niirs3 lg
    rw [Real.logb_div r0.ne' (by positivity), Real.logb_div r0.ne' (by positivity), Real.logb_div g0.ne' (by norm_num),
      Real.logb_div g0'.ne' (by norm_num), Real.logb_mul w.ne' d.ne', Real.logb_mul w.ne' d'.ne', Real.logb_div d'.ne' d.ne']
    ring
  · have p1 : 0 < Real.sin (Real.pi / 2 - φ) ^ (1 / 2 : ℝ) := by positivity
    have p2 : 0 < Real.sin (Real.pi / 2 - φ') ^ (1 / 2 : ℝ) := by positivity
    have L : ∀ {t w' : ℝ}, 0 < t → 0 < w' → Real.logb 10 (k * t / w' / 0.0254)
        = Real.logb 10 k + Real.logb 10 t - Real.logb 10 w' - Real.logb 10 0.0254 := by
      intro t w' ht hw
      rw [Real.logb_div (by positivity) (by norm_num), Real.logb_div (by positivity) hw.ne', Real.logb_mul w.ne' ht.ne']
    unfold niirs4 projectedGsd lg
    rw [Real.div_rpow s0.le s0'.le, Real.logb_mul (by positivity) (by positivity), Real.logb_div p1.ne' p2.ne',
      Real.logb_div d'.ne' d.ne', L d p1, L d' p2]
    split_ifs <;> ring

/-! ## Climbing -/

theorem climb_poly {a b : ℝ} (ha : 0 < a) (hab : a < b) :
    (b ≤ 1 / 4 → (1 + b) ^ 5 * a < (1 + a) ^ 5 * b) ∧ (1 / 4 ≤ a → (1 + a) ^ 5 * b < (1 + b) ^ 5 * a) := by
  have e : (1 + a) ^ 5 * b - (1 + b) ^ 5 * a
      = (b - a) * (1 - a * b * (10 + 10 * (a + b) + 5 * (a ^ 2 + a * b + b ^ 2) + (a ^ 3 + a ^ 2 * b + a * b ^ 2 + b ^ 3))) := by ring
  have hb : 0 < b := ha.trans hab
  constructor
  · intro h
    have a4 : a < 1 / 4 := hab.trans_le h
    have f1 : a * b < 1 / 16 := by nlinarith
    have f2 : 10 + 10 * (a + b) + 5 * (a ^ 2 + a * b + b ^ 2) + (a ^ 3 + a ^ 2 * b + a * b ^ 2 + b ^ 3) ≤ 16 := by
      have u1 : a ^ 2 ≤ (1 / 4) ^ 2 := by gcongr
      have u2 : b ^ 2 ≤ (1 / 4) ^ 2 := by gcongr
      have u3 : a ^ 3 ≤ (1 / 4) ^ 3 := by gcongr
      have u4 : b ^ 3 ≤ (1 / 4) ^ 3 := by gcongr
      have u5 : a ^ 2 * b ≤ (1 / 4) ^ 2 * (1 / 4) := by gcongr
      have u6 : a * b ^ 2 ≤ (1 / 4) * (1 / 4) ^ 2 := by gcongr
      norm_num at u1 u2 u3 u4 u5 u6
      linarith
    have f3 : 0 < 10 + 10 * (a + b) + 5 * (a ^ 2 + a * b + b ^ 2) + (a ^ 3 + a ^ 2 * b + a * b ^ 2 + b ^ 3) := by positivity
    have f4 : 0 < a * b := mul_pos ha hb
    have : 0 < (b - a) * (1 - a * b * (10 + 10 * (a + b) + 5 * (a ^ 2 + a * b + b ^ 2) + (a ^ 3 + a ^ 2 * b + a * b ^ 2 + b ^ 3))) :=
      mul_pos (sub_pos.mpr hab) (by nlinarith)
    linarith
  · intro h
    have b4 : 1 / 4 < b := h.trans_lt hab
    have f1 : 1 / 16 < a * b := by nlinarith
    have f2 : 16 ≤ 10 + 10 * (a + b) + 5 * (a ^ 2 + a * b + b ^ 2) + (a ^ 3 + a ^ 2 * b + a * b ^ 2 + b ^ 3) := by
      have u1 : (1 / 4) ^ 2 ≤ a ^ 2 := by gcongr
      have u2 : (1 / 4) ^ 2 ≤ b ^ 2 := by gcongr
      have u3 : (1 / 4) ^ 3 ≤ a ^ 3 := by gcongr
      have u4 : (1 / 4) ^ 3 ≤ b ^ 3 := by gcongr
      have u5 : (1 / 4) ^ 2 * (1 / 4) ≤ a ^ 2 * b := by gcongr
      have u6 : (1 / 4) * (1 / 4) ^ 2 ≤ a * b ^ 2 := by gcongr
      norm_num at u1 u2 u3 u4 u5 u6
      linarith
    have : 0 < (b - a) * (a * b * (10 + 10 * (a + b) + 5 * (a ^ 2 + a * b + b ^ 2) + (a ^ 3 + a ^ 2 * b + a * b ^ 2 + b ^ 3)) - 1) :=
      mul_pos (sub_pos.mpr hab) (by nlinarith)
    linarith

/-- For a target off to the side, the comparison of two drops. -/
theorem climb_drop {S N N' d d' : ℝ} (hS : S ≠ 0) (hN : 0 < N) (hNN : N < N') (hd : 0 < d) (hd' : 0 < d') (e : d ^ 2 = N ^ 2 + S ^ 2)
    (e' : d' ^ 2 = N' ^ 2 + S ^ 2) :
    (5 * N' ^ 2 ≤ d' ^ 2 → d' ^ 5 * N < d ^ 5 * N') ∧ (d ^ 2 ≤ 5 * N ^ 2 → d ^ 5 * N' < d' ^ 5 * N) := by
  have hN' : 0 < N' := hN.trans hNN
  have S2 : 0 < S ^ 2 := by positivity
  have ab : (N / S) ^ 2 < (N' / S) ^ 2 := by
    rw [div_pow, div_pow]
    gcongr
  have a0 : 0 < (N / S) ^ 2 := by positivity
  obtain ⟨c1, c2⟩ := climb_poly a0 ab
  have f : ∀ {M c : ℝ}, c ^ 2 = M ^ 2 + S ^ 2 → 1 + (M / S) ^ 2 = c ^ 2 / S ^ 2 := by
    intro M c hc
    rw [hc]
    field_simp
    ring
  rw [f e, f e', div_pow (d ^ 2), div_pow (d' ^ 2), div_pow N, div_pow N'] at c1 c2
  have key : ∀ {M M' c c' : ℝ}, (c ^ 2) ^ 5 / (S ^ 2) ^ 5 * (M ^ 2 / S ^ 2) < (c' ^ 2) ^ 5 / (S ^ 2) ^ 5 * (M' ^ 2 / S ^ 2) →
      0 ≤ c' ^ 5 * M' → c ^ 5 * M < c' ^ 5 * M' := by
    intro M M' c c' hh h0
    rw [div_mul_div_comm, div_mul_div_comm, div_lt_div_iff_of_pos_right (by positivity)] at hh
    refine lt_of_pow_lt_pow_left₀ 2 h0 ?_
    calc (c ^ 5 * M) ^ 2 = (c ^ 2) ^ 5 * M ^ 2 := by ring
      _ < (c' ^ 2) ^ 5 * M' ^ 2 := hh
      _ = (c' ^ 5 * M') ^ 2 := by ring
  constructor
  · intro hh
    refine key (c1 ?_) (by positivity)
    rw [div_le_div_iff₀ S2 (by norm_num)]
    linarith
  · intro hh
    refine key (c2 ?_) (by positivity)
    rw [div_le_div_iff₀ (by norm_num) S2]
    linarith

/-- **C140** (climbing): above one point of the ground, beside the target, climbing makes the rating better as long as the sine of the
elevation angle stays at most `1/√5` (the target is seen more than 63.4° away from straight down), and worse once it is at least that. -/
theorem C140_climb {env env' : Env} {s : RealSensor} {g g' : RealScene} {sc sc' : Scenario} {interp interp' : Bool}
    {B : List (Fin 6 → ℝ)} (h : Imaging env s g sc interp B) (h' : Imaging env' s g' sc' interp' B) (hq : s.Sampled B)
    (hc : Contrast s g B) (calm : g.cn2 ≤ 0) (calm' : g'.cn2 ≤ 0) (hG : g'.groundRange = g.groundRange)
    (h0 : 0 < g.groundRange) (hmax : g.groundRange < Real.pi * R) (hlt : g.altitude < g'.altitude) :
    ∃ (m m' : Metrics) (x x' ε ε' : ℝ), (niirs5 env s.toSensor sc interp).1 = .ok m
      ∧ (niirs5 env' s.toSensor sc' interp').1 = .ok m' ∧ EquallySharp m m' ∧ m.niirs = .fin x ∧ m'.niirs = .fin x'
      ∧ m.elevAngle = .fin ε ∧ m'.elevAngle = .fin ε' ∧ Real.sin ε < Real.sin ε'
      ∧ (Real.sin ε' ≤ 1 / Real.sqrt 5 → x < x') ∧ (1 / Real.sqrt 5 ≤ Real.sin ε → x' < x) := by
  have ha' := hc.altitude.trans hlt
  obtain ⟨m, m', x, x', ε, ε', e1, e2, e3, e4, e5, e6, e7, e8, e9, e10, e11⟩ := better_iff h h' hq hc ha' calm calm'
  have d := slant_pos_of h.viewing
  have d' := slant_pos_of h'.viewing
  have n := drop_pos hc.altitude
  have n' := drop_pos ha'
  have hR := distance_R_pos
  have es : sideOf g' = sideOf g := by unfold sideOf; rw [hG]
  have hs : sideOf g ≠ 0 := by
    unfold sideOf
    have : 0 < Real.sin (g.groundRange / R) := Real.sin_pos_of_pos_of_lt_pi (by positivity) (by rwa [div_lt_iff₀ hR])
    positivity
  have hn : dropOf g < dropOf g' := by unfold dropOf; rw [hG]; linarith
  have q := slant_sq g
  have q' := slant_sq g'
  rw [es] at q'
  obtain ⟨c1, c2⟩ := climb_drop hs n hn d d' q q'
  have s5 : 0 < Real.sqrt 5 := by positivity
  have sq5 : Real.sqrt 5 ^ 2 = 5 := Real.sq_sqrt (by norm_num)
  refine ⟨m, m', x, x', ε, ε', e1, e2, e3, e4, e5, e6, e7, ?_, ?_, ?_⟩
  · rw [e8, e9]
    refine lt_of_pow_lt_pow_left₀ 2 (by positivity) ?_
    rw [div_pow, div_pow, q, q', div_lt_div_iff₀ (by positivity) (by positivity)]
    have : dropOf g ^ 2 < dropOf g' ^ 2 := by gcongr
    have s2 : 0 < sideOf g ^ 2 := by positivity
    nlinarith
  · intro hh
    rw [e9, div_le_div_iff₀ d' s5, one_mul] at hh
    refine e11.mpr (c1 ?_)
    calc 5 * dropOf g' ^ 2 = (dropOf g' * Real.sqrt 5) ^ 2 := by rw [mul_pow, sq5]; ring
      _ ≤ g'.slant ^ 2 := by gcongr
  · intro hh
    rw [e8, div_le_div_iff₀ s5 d, one_mul] at hh
    refine e10.mpr (c2 ?_)
    calc g.slant ^ 2 ≤ (dropOf g * Real.sqrt 5) ^ 2 := by gcongr
      _ = 5 * dropOf g ^ 2 := by rw [mul_pow, sq5]; ring

end PyBSM
