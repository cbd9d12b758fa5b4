import Verif.Lemmas.DoubleFried
import Verif.Props.DoubleGeometry
import Verif.Props.DoubleMtf

/-!
# C119: the turbulence of a scene in double precision
-/

noncomputable section

open Classical

namespace PyBSM

open Spec

variable {fl cosD acosD : ℝ → ℝ} {L : MathLib}

theorem slant_sq2 (h g : ℝ) : pdist (pointAt 0 g) (pointAt h 0) = Real.sqrt (sq2 0 h g) := by
  have e := Real.sin_sq_add_cos_sq (g / R)
  unfold pdist
  congr 1
  simp only [pointAt, sq2, zero_div, Real.sin_zero, Real.cos_zero]
  linear_combination ((R + 0) ^ 2) * e

/-- **C119** (heights). The heights along the line of sight at which the program evaluates the turbulence are within a tenth
of a micrometre of the exact ones: the slant range, the nadir angle and the law of cosines lose half of the digits. -/
theorem C119_heights (hfl : RoundsToNearest fl) (hc : IsCosine cosD) (ha : IsArccos acosD) {h g : ℝ} (h0 : 2 ≤ h) (h1 : h ≤ 1000000)
    (g0 : 1 ≤ g) (g1 : g ≤ 1000000) :
    ∃ b, slantRangeD fl cosD 0 h g = .fin b ∧ ∀ i < 10000, ∃ y,
      pathHeightD fl cosD h b (nadirAngleD fl acosD 0 h (.fin b)) i = .fin y ∧ |y - pathHeight h g ((i : ℝ) / 9999)| ≤ 5e-8 := by
  obtain ⟨b, x, hb, hd, b0, -, -, b3, q0, q1, hn, x0, x1, hx⟩ := nadir_facts (acosD := acosD) hfl hc h0 h1 g0 g1
  refine ⟨b, hb, fun i hi => ?_⟩
  obtain ⟨y, e1, e2, -, -⟩ := height_near hfl hc ha h0 h1 hd b0 b3 q1 (by linarith) x0 x1 hx hi
  exact ⟨y, by rw [hn, e1], by rw [pathHeight_eq]; exact e2⟩

/-- **C119** (profile). The turbulence computed at a height that is off by at most `5 · 10^-8` is within a factor
`exp (1.2 · 10^-8)` of the exact one, everywhere on a line of sight. -/
theorem C119_profile (hfl : RoundsToNearest fl) (hL : MathLibrary L) (hT : TenthPower L) {v cn2 h' h : ℝ} (v0 : 0 ≤ v)
    (v1 : v ≤ 1000) (c0 : 0 < cn2) (hh : |h' - h| ≤ 5e-8) (l0 : -78200 ≤ h) (l1 : h ≤ 1000000) :
    WithinFactor 1.2e-8 (hvD fl L v cn2 h') (hv v cn2 h) := profile_within hfl hL hT v0 v1 c0 hh l0 l1

/-- **C119** (coherence diameter). For every order of adding, Fried's coherence diameter computed by the program is a number
within a factor `exp (10^-8 + 0.11 / d²)` of the exact one, where `d` is the slant range in metres. -/
theorem C119_diameter (hfl : RoundsToNearest fl) (hc : IsCosine cosD) (ha : IsArccos acosD) (hL : MathLibrary L) (hT : TenthPower L)
    {order : SumTree} (ho : order.leaves.Perm (List.range 9999)) (hr : order.depth ≤ 2000) {h g wind cn2 l : ℝ} (h0 : 2 ≤ h)
    (h1 : h ≤ 1000000) (g0 : 1 ≤ g) (g1 : g ≤ 1000000) (v0 : 0 ≤ wind) (v1 : wind ≤ 1000) (c0 : 0 < cn2) (c1 : cn2 ≤ 1)
    (hl : Ordinary l) :
    ∃ r, friedD fl cosD acosD L order h g wind cn2 l = .fin r
      ∧ WithinFactor (1e-8 + 0.11 / pdist (pointAt 0 g) (pointAt h 0) ^ 2) r (fried h g wind cn2 l) := by
  obtain ⟨b, x, hb, hd, b0, -, b2, b3, q0, q1, hn, x0, x1, hx⟩ := nadir_facts (acosD := acosD) hfl hc h0 h1 g0 g1
  have hy : ∀ i < 10000, ∃ y, pathHeightD fl cosD h b (nadirAngleD fl acosD 0 h (.fin b)) i = .fin y
      ∧ |y - pathHeight h g ((i : ℝ) / 9999)| ≤ 5e-8 ∧ -78200 ≤ pathHeight h g ((i : ℝ) / 9999)
      ∧ pathHeight h g ((i : ℝ) / 9999) ≤ 1000000 := by
    intro i hi
    obtain ⟨y, e1, e2, e3, e4⟩ := height_near hfl hc ha h0 h1 hd b0 b3 q1 (by linarith) x0 x1 hx hi
    rw [← pathHeight_eq] at e2 e3 e4
    exact ⟨y, by rw [hn, e1], e2, e3, e4⟩
  unfold friedD
  simp only [hb]
  have hnan : ¬ ∃ i < 10000, pathHeightD fl cosD h b (nadirAngleD fl acosD 0 h (.fin b)) i = .nan := by
    rintro ⟨i, hi, e⟩
    obtain ⟨y, e1, -⟩ := hy i hi
    rw [e1] at e
    cases e
  rw [if_neg hnan]
  refine ⟨_, rfl, ?_⟩
  have hq : 2.2 ≤ Real.sqrt (sq2 0 h g) := Real.le_sqrt_of_sq_le (by norm_num; linarith)
  have hq' : Real.sqrt (sq2 0 h g) ≤ 1.5e6 := Real.sqrt_le_sqrt q1 |>.trans (by
    rw [Real.sqrt_le_left (by norm_num)]; norm_num)
  unfold fried turbPath
  simp only [slant_sq2]
  refine diameter_within hfl hL ho hr hd b0 hq hq' b2 (c := fun k => hv wind cn2 (pathHeight h g ((k : ℝ) / 9999))) ?_ ?_ hl
  · intro i hi
    obtain ⟨y, e1, e2, e3, e4⟩ := hy i hi
    rw [e1]
    exact profile_within hfl hL hT v0 v1 c0 e2 e3 e4
  · intro i hi
    obtain ⟨y, -, -, e3, e4⟩ := hy i hi
    exact hv_bounds v0 v1 c0 c1 e3 e4

/-! ## The turbulence MTF -/

/-- **C119** (sensitivity). A coherence diameter that is off by a factor `exp δ` changes the MTF of the turbulence by no more
than `1.1 δ`, at all frequencies up to three times the cutoff. -/
theorem C119_sensitivity {l D r r' t vel u v δ : ℝ} (hl : 0 < l) (hD : 0 < D) (hv : 0 ≤ vel * t)
    (hq : l * Real.sqrt (u ^ 2 + v ^ 2) / D ≤ 3) (hr : WithinFactor δ r' r) (hd : δ ≤ 0.012) :
    |turbMix l D r' t vel u v - turbMix l D r t vel u v| ≤ 1.1 * δ := by
  have hδ := hr.nonneg
  have hr0 := hr.2.1
  have hr1 := hr.1
  have hy : (l * Real.sqrt (u ^ 2 + v ^ 2) / D) ^ ((1 : ℝ) / 3) ≤ 1.45 := by
    have h1 : (l * Real.sqrt (u ^ 2 + v ^ 2) / D) ^ ((1 : ℝ) / 3) ≤ ((1.45 : ℝ) ^ (3 : ℝ)) ^ ((1 : ℝ) / 3) :=
      Real.rpow_le_rpow (by positivity) (hq.trans (by norm_num)) (by norm_num)
    rw [← Real.rpow_mul (by norm_num)] at h1
    norm_num at h1 ⊢
    linarith
  have hy0 : 0 ≤ (l * Real.sqrt (u ^ 2 + v ^ 2) / D) ^ ((1 : ℝ) / 3) := by positivity
  have hw : |Real.exp (-(vel * t / r')) - Real.exp (-(vel * t / r))| ≤ 0.38 * δ := by
    rcases hv.eq_or_lt with e | e
    · rw [← e, zero_div, zero_div, sub_self, abs_zero]; positivity
    · have := (WithinFactor.refl e).div hr
      exact (this.exp_neg (by linarith)).trans (by linarith)
  have hx : ∀ k : ℝ, 0 < k → |Real.exp (-(3.44 * (l * Real.sqrt (u ^ 2 + v ^ 2) / r') ^ ((5 : ℝ) / 3) * k))
      - Real.exp (-(3.44 * (l * Real.sqrt (u ^ 2 + v ^ 2) / r) ^ ((5 : ℝ) / 3) * k))| ≤ 0.64 * δ := by
    intro k hk
    rcases (Real.sqrt_nonneg (u ^ 2 + v ^ 2)).eq_or_lt with e | e
    · rw [← e, mul_zero, zero_div, zero_div, sub_self, abs_zero]; positivity
    · have a1 := (WithinFactor.refl (mul_pos hl e)).div hr
      have a2 := (((WithinFactor.refl (x := 3.44) (by norm_num)).mul (a1.rpow (p := 5 / 3) (by norm_num))).mul (WithinFactor.refl hk))
      exact (a2.exp_neg (by linarith)).trans (by linarith)
  have hS := hx (1 - 0.5 * (l * Real.sqrt (u ^ 2 + v ^ 2) / D) ^ ((1 : ℝ) / 3)) (by linarith)
  have hLg := hx 1 (by norm_num)
  rw [mul_one, mul_one] at hLg
  have w0 := Real.exp_pos (-(vel * t / r'))
  have w1 : Real.exp (-(vel * t / r')) ≤ 1 := Real.exp_le_one_iff.mpr (by
    have : 0 ≤ vel * t / r' := by positivity
    linarith)
  have x0 : 0 ≤ 3.44 * (l * Real.sqrt (u ^ 2 + v ^ 2) / r) ^ ((5 : ℝ) / 3) := by positivity
  have sl : |Real.exp (-(3.44 * (l * Real.sqrt (u ^ 2 + v ^ 2) / r) ^ ((5 : ℝ) / 3)
        * (1 - 0.5 * (l * Real.sqrt (u ^ 2 + v ^ 2) / D) ^ ((1 : ℝ) / 3))))
      - Real.exp (-(3.44 * (l * Real.sqrt (u ^ 2 + v ^ 2) / r) ^ ((5 : ℝ) / 3)))| ≤ 1 := by
    have b1 := Real.exp_pos (-(3.44 * (l * Real.sqrt (u ^ 2 + v ^ 2) / r) ^ ((5 : ℝ) / 3)))
    have b2 := Real.exp_pos (-(3.44 * (l * Real.sqrt (u ^ 2 + v ^ 2) / r) ^ ((5 : ℝ) / 3)
        * (1 - 0.5 * (l * Real.sqrt (u ^ 2 + v ^ 2) / D) ^ ((1 : ℝ) / 3))))
    have b3 : Real.exp (-(3.44 * (l * Real.sqrt (u ^ 2 + v ^ 2) / r) ^ ((5 : ℝ) / 3))) ≤ 1 :=
      Real.exp_le_one_iff.mpr (by linarith)
    have b4 : Real.exp (-(3.44 * (l * Real.sqrt (u ^ 2 + v ^ 2) / r) ^ ((5 : ℝ) / 3)
        * (1 - 0.5 * (l * Real.sqrt (u ^ 2 + v ^ 2) / D) ^ ((1 : ℝ) / 3)))) ≤ 1 :=
      Real.exp_le_one_iff.mpr (by
        have : 0 ≤ 1 - 0.5 * (l * Real.sqrt (u ^ 2 + v ^ 2) / D) ^ ((1 : ℝ) / 3) := by linarith
        have := mul_nonneg x0 this
        linarith)
    rw [abs_le]
    constructor <;> linarith
  unfold turbMix
  dsimp only
  generalize Real.exp (-(3.44 * (l * Real.sqrt (u ^ 2 + v ^ 2) / r) ^ ((5 : ℝ) / 3)
        * (1 - 0.5 * (l * Real.sqrt (u ^ 2 + v ^ 2) / D) ^ ((1 : ℝ) / 3)))) = S at *
  generalize Real.exp (-(3.44 * (l * Real.sqrt (u ^ 2 + v ^ 2) / r) ^ ((5 : ℝ) / 3))) = G at *
  generalize Real.exp (-(3.44 * (l * Real.sqrt (u ^ 2 + v ^ 2) / r') ^ ((5 : ℝ) / 3)
        * (1 - 0.5 * (l * Real.sqrt (u ^ 2 + v ^ 2) / D) ^ ((1 : ℝ) / 3)))) = S' at *
  generalize Real.exp (-(3.44 * (l * Real.sqrt (u ^ 2 + v ^ 2) / r') ^ ((5 : ℝ) / 3))) = G' at *
  generalize Real.exp (-(vel * t / r')) = w' at *
  generalize Real.exp (-(vel * t / r)) = w at *
  have f1 : |w' * (S' - S)| ≤ w' * (0.64 * δ) := by
    rw [abs_mul, abs_of_pos w0]; exact mul_le_mul_of_nonneg_left hS w0.le
  have f2 : |(1 - w') * (G' - G)| ≤ (1 - w') * (0.64 * δ) := by
    rw [abs_mul, abs_of_nonneg (by linarith : 0 ≤ 1 - w')]; exact mul_le_mul_of_nonneg_left hLg (by linarith)
  have f3 : |(w' - w) * (S - G)| ≤ 0.38 * δ * 1 := by
    rw [abs_mul]; exact mul_le_mul hw sl (abs_nonneg _) (by positivity)
  rw [show w' * S' + (1 - w') * G' - (w * S + (1 - w) * G) = w' * (S' - S) + (1 - w') * (G' - G) + (w' - w) * (S - G) by ring]
  have := abs_add_le (w' * (S' - S) + (1 - w') * (G' - G)) ((w' - w) * (S - G))
  have := abs_add_le (w' * (S' - S)) ((1 - w') * (G' - G))
  nlinarith

theorem wmean_sub (pairs : List (ℝ × ℝ)) (F G : ℝ → ℝ) : wmean pairs F - wmean pairs G = wmean pairs fun l => F l - G l := by
  unfold wmean
  rw [← sub_div]
  congr 1
  induction pairs with
  | nil => simp
  | cons p t ih =>
    simp only [List.map_cons, List.sum_cons]
    rw [← ih]
    ring

/-- **C119** (system, sensitivity). Coherence diameters that are off by a factor `exp δ` change the system MTF by no more than
`1.1 δ`. -/
theorem C119_system_sensitivity {s : RealSensor} {order : SumTree} {pairs : List (ℝ × ℝ)} {cn2 vel t : ℝ} {r r' : ℝ → ℝ} {u v δ : ℝ}
    (h : OrdinarySystem s order pairs cn2 vel t r u v) (hr : 0 < cn2 → ∀ p ∈ pairs, WithinFactor δ (r' p.1) (r p.1))
    (h0 : 0 ≤ δ) (hd : δ ≤ 0.012) :
    |systemAt s pairs cn2 vel t r' u v - systemAt s pairs cn2 vel t r u v| ≤ 1.1 * δ := by
  have hb := h.band
  have heta : 0 ≤ s.eta ∧ s.eta < 1 := by
    rcases h.obscuration with e | ⟨e1, e2, -⟩
    · rw [e]; norm_num
    · constructor <;> linarith
  have ba : |apertureAt s pairs u v| ≤ 1 := by
    have h1 := le_wmean (F := fun l => diffractionMTF l s.D s.eta u v) hb.weights hb.total (c := 0) (fun p hp => (mtf_range h.aperture heta.1 heta.2 u v).1)
    have h2 := wmean_le (F := fun l => diffractionMTF l s.D s.eta u v) hb.weights hb.total (c := 1) (fun p hp => (mtf_range h.aperture heta.1 heta.2 u v).2)
    unfold apertureAt
    rw [abs_of_nonneg h1]
    exact h2
  have bw : |wavefrontAt s pairs u v| ≤ 1 := by
    have hf : ∀ p ∈ pairs, wavefrontMtf s p.1 u v ≤ 1 := by
      intro p hp
      unfold wavefrontMtf
      apply Real.exp_le_one_iff.mpr
      have h1 : Real.exp (-(p.1 ^ 2 * ((u / s.lX) ^ 2 + (v / s.lY) ^ 2))) ≤ 1 := by
        apply Real.exp_le_one_iff.mpr
        have : 0 ≤ p.1 ^ 2 * ((u / s.lX) ^ 2 + (v / s.lY) ^ 2) := by positivity
        linarith
      have : 0 ≤ s.pv * (s.pvWavelength / p.1) ^ 2 * (1 - Real.exp (-(p.1 ^ 2 * ((u / s.lX) ^ 2 + (v / s.lY) ^ 2)))) :=
        mul_nonneg (mul_nonneg h.phase.1 (sq_nonneg _)) (by linarith)
      linarith
    have h1 := le_wmean (F := fun l => wavefrontMtf s l u v) hb.weights hb.total (c := 0) (fun p hp => (Real.exp_pos _).le)
    have h2 := wmean_le (F := fun l => wavefrontMtf s l u v) hb.weights hb.total (c := 1) hf
    show |wmean pairs fun l => wavefrontMtf s l u v| ≤ 1
    rw [abs_of_nonneg h1]
    exact h2
  have bde : |detectorAt s u v| ≤ 1 := by
    unfold detectorAt
    rw [abs_mul]
    exact mul_le_one₀ (abs_sinc_le _) (abs_nonneg _) (abs_sinc_le _)
  have bdr : |driftAt s t u v| ≤ 1 := by
    unfold driftAt
    rw [abs_mul]
    exact mul_le_one₀ (abs_sinc_le _) (abs_nonneg _) (abs_sinc_le _)
  have bji : |jitterAt s u v| ≤ 1 := by
    unfold jitterAt
    rw [abs_of_pos (Real.exp_pos _)]
    apply Real.exp_le_one_iff.mpr
    have : 0 ≤ 2 * Real.pi ^ 2 * ((s.sX * u) ^ 2 + (s.sY * v) ^ 2) := by positivity
    linarith
  have TU : |(if 0 < cn2 then wmean pairs fun l => turbMix l s.D (r' l) (t * s.nTdi) vel u v else 1)
      - (if 0 < cn2 then wmean pairs fun l => turbMix l s.D (r l) (t * s.nTdi) vel u v else 1)| ≤ 1.1 * δ := by
    by_cases hc : 0 < cn2
    · simp only [if_pos hc]
      obtain ⟨t1, t2, t3⟩ := h.turbulence hc
      have key : ∀ p ∈ pairs, |turbMix p.1 s.D (r' p.1) (t * s.nTdi) vel u v - turbMix p.1 s.D (r p.1) (t * s.nTdi) vel u v| ≤ 1.1 * δ := by
        intro p hp
        obtain ⟨o1, o2, -, o3⟩ := t3 p hp
        refine C119_sensitivity o1 o2 (mul_nonneg t1 t2) ?_ (hr hc p hp) hd
        rcases o3 with e | e
        · rw [e]; norm_num
        · exact e.2.2
      rw [wmean_sub, abs_le]
      exact ⟨le_wmean hb.weights hb.total fun p hp => (abs_le.mp (key p hp)).1,
        wmean_le hb.weights hb.total fun p hp => (abs_le.mp (key p hp)).2⟩
    · simp only [if_neg hc, sub_self, abs_zero]
      positivity
  unfold systemAt
  generalize (if 0 < cn2 then wmean pairs fun l => turbMix l s.D (r' l) (t * s.nTdi) vel u v else 1) = b' at *
  generalize (if 0 < cn2 then wmean pairs fun l => turbMix l s.D (r l) (t * s.nTdi) vel u v else 1) = b at *
  generalize apertureAt s pairs u v = a at *
  generalize wavefrontAt s pairs u v = w at *
  generalize detectorAt s u v = c at *
  generalize jitterAt s u v = j at *
  generalize driftAt s t u v = d at *
  rw [show a * b' * c * j * d * w - a * b * c * j * d * w = (b' - b) * (a * c * j * d * w) by ring, abs_mul]
  have le1 : ∀ {x y : ℝ}, |x| ≤ 1 → |y| ≤ 1 → |x * y| ≤ 1 := by
    intro x y hx hy
    rw [abs_mul]
    exact mul_le_one₀ hx (abs_nonneg _) hy
  have := mul_le_mul TU (le1 (le1 (le1 (le1 ba bde) bji) bdr) bw) (abs_nonneg _) (by positivity)
  linarith

theorem scene_slant (g : RealScene) : g.slant = pdist (pointAt 0 g.groundRange) (pointAt g.altitude 0) := by
  unfold RealScene.slant
  rw [slant_sq2, pdist_pointAt]

theorem scene_slant_ge {g : RealScene} (h0 : 4 ≤ g.altitude) : g.altitude ≤ g.slant := by
  rw [scene_slant, slant_sq2]
  refine Real.le_sqrt_of_sq_le ?_
  have hcos := Real.cos_le_one (g.groundRange / R)
  have hR : R = 6378164 := rfl
  have hp : 0 ≤ 2 * R * (R + g.altitude) * (1 - Real.cos (g.groundRange / R)) :=
    mul_nonneg (by rw [hR]; positivity) (by linarith)
  unfold sq2
  nlinarith

theorem scene_slant_small {g : RealScene} (h0 : 4 ≤ g.altitude) : 0.11 / g.slant ^ 2 ≤ 0.007 := by
  have hs := scene_slant_ge h0
  rw [div_le_iff₀ (by nlinarith)]; nlinarith

/-- The coherence diameters the program computes for a scene. -/
theorem scene_fried (hfl : RoundsToNearest fl) (hc : IsCosine cosD) (ha : IsArccos acosD) (hL : MathLibrary L) (hT : TenthPower L)
    {g : RealScene} {order' : SumTree} (ho : order'.leaves.Perm (List.range 9999)) (hr : order'.depth ≤ 2000) (h0 : 4 ≤ g.altitude)
    (h1 : g.altitude ≤ 1000000) (g0 : 1 ≤ g.groundRange) (g1 : g.groundRange ≤ 1000000) (v0 : 0 ≤ g.windSpeed) (v1 : g.windSpeed ≤ 1000)
    (c1 : g.cn2 ≤ 1) (c0 : 0 < g.cn2) {l : ℝ} (hl : Ordinary l) : WithinFactor (1e-8 + 0.11 / g.slant ^ 2)
      (friedD fl cosD acosD L order' g.altitude g.groundRange g.windSpeed g.cn2 l).number
      (fried g.altitude g.groundRange g.windSpeed g.cn2 l) := by
  obtain ⟨r, e1, e2⟩ := C119_diameter hfl hc ha hL hT ho hr (by linarith : 2 ≤ g.altitude) h1 g0 g1 v0 v1 c0 c1 hl
  rw [e1, scene_slant]
  exact e2

/-- A system that is ordinary for the exact coherence diameters is ordinary for slightly different ones. -/
theorem Spec.OrdinarySystem.change {s : RealSensor} {order : SumTree} {pairs : List (ℝ × ℝ)} {cn2 vel t : ℝ} {r r' : ℝ → ℝ} {u v δ : ℝ}
    (h : OrdinarySystem s order pairs cn2 vel t r u v) (hw : 0 < cn2 → ∀ p ∈ pairs, WithinFactor δ (r' p.1) (r p.1)) (hd : δ ≤ 0.009)
    (hl : 0 < cn2 → ∀ p ∈ pairs, (Real.sqrt (u ^ 2 + v ^ 2) = 0
      ∨ 1e-29 ≤ p.1 * Real.sqrt (u ^ 2 + v ^ 2) / r p.1 ∧ p.1 * Real.sqrt (u ^ 2 + v ^ 2) / r p.1 ≤ 1e29)) :
    OrdinarySystem s order pairs cn2 vel t r' u v := by
  refine { h with turbulence := fun c0 => ?_ }
  obtain ⟨t1, t2, t3⟩ := h.turbulence c0
  refine ⟨t1, t2, fun p hp => ?_⟩
  obtain ⟨o1, o2, o3, o4⟩ := t3 p hp
  have w := hw c0 p hp
  refine ⟨o1, o2, w.1, ?_⟩
  rcases hl c0 p hp with e | ⟨e1, e2⟩
  · exact Or.inl e
  · rcases o4 with o4 | ⟨-, o5, o6⟩
    · exact Or.inl o4
    · have hρ : 0 < p.1 * Real.sqrt (u ^ 2 + v ^ 2) := by
        by_contra hcon
        have : p.1 * Real.sqrt (u ^ 2 + v ^ 2) / r p.1 ≤ 0 := div_nonpos_of_nonpos_of_nonneg (not_lt.mp hcon) o3.le
        linarith
      have w2 := (WithinFactor.refl hρ).div w
      have w3 := abs_le.mp (w2.error (by linarith))
      generalize p.1 * Real.sqrt (u ^ 2 + v ^ 2) / r' p.1 = q' at *
      generalize p.1 * Real.sqrt (u ^ 2 + v ^ 2) / r p.1 = q at *
      have hq : 1.02 * (0 + δ) * q ≤ 0.01 * q := mul_le_mul_of_nonneg_right (by linarith) (by linarith)
      exact Or.inr ⟨⟨by linarith, by linarith⟩, o5, o6⟩

/-- **C119** (system). The system MTF that the program computes for a scene, with the coherence diameters it computes for it,
is within `1.2 · 10^-6 + 0.125 / d²` of the exact one, where `d` is the slant range in metres, for every ordinary system at
every frequency at which the obscuration is not misjudged. -/
theorem C119_system (hfl : RoundsToNearest fl) (hc : IsCosine cosD) (ha : IsArccos acosD) (hL : MathLibrary L) (hT : TenthPower L)
    {s : RealSensor} {g : RealScene} {order order' : SumTree} {pairs : List (ℝ × ℝ)} {t u v : ℝ}
    (h : OrdinarySystem s order pairs g.cn2 g.aircraftSpeed t (fried g.altitude g.groundRange g.windSpeed g.cn2) u v)
    (ho : order'.leaves.Perm (List.range 9999)) (hr : order'.depth ≤ 2000) (h0 : 4 ≤ g.altitude) (h1 : g.altitude ≤ 1000000)
    (g0 : 1 ≤ g.groundRange) (g1 : g.groundRange ≤ 1000000) (v0 : 0 ≤ g.windSpeed) (v1 : g.windSpeed ≤ 1000) (c1 : g.cn2 ≤ 1)
    (hl : 0 < g.cn2 → ∀ p ∈ pairs, Ordinary p.1 ∧ (Real.sqrt (u ^ 2 + v ^ 2) = 0
      ∨ 1e-29 ≤ p.1 * Real.sqrt (u ^ 2 + v ^ 2) / fried g.altitude g.groundRange g.windSpeed g.cn2 p.1
        ∧ p.1 * Real.sqrt (u ^ 2 + v ^ 2) / fried g.altitude g.groundRange g.windSpeed g.cn2 p.1 ≤ 1e29)) :
    |systemD fl L order s pairs g.cn2 g.aircraftSpeed t
        (fun l => (friedD fl cosD acosD L order' g.altitude g.groundRange g.windSpeed g.cn2 l).number) u v
      - opticsAt s g pairs t u v| ≤ 1.2e-6 + 0.125 / g.slant ^ 2 := by
  have hs2 := scene_slant_small h0
  have hs0 : 0 ≤ 0.11 / g.slant ^ 2 := by positivity
  have hw : 0 < g.cn2 → ∀ p ∈ pairs, WithinFactor (1e-8 + 0.11 / g.slant ^ 2)
      (friedD fl cosD acosD L order' g.altitude g.groundRange g.windSpeed g.cn2 p.1).number
      (fried g.altitude g.groundRange g.windSpeed g.cn2 p.1) :=
    fun c0 p hp => scene_fried hfl hc ha hL hT ho hr h0 h1 g0 g1 v0 v1 c1 c0 (hl c0 p hp).1
  have A := C119_system_sensitivity (δ := 1e-8 + 0.11 / g.slant ^ 2)
    (r' := fun l => (friedD fl cosD acosD L order' g.altitude g.groundRange g.windSpeed g.cn2 l).number) h hw (by linarith) (by linarith)
  have h' := h.change (r' := fun l => (friedD fl cosD acosD L order' g.altitude g.groundRange g.windSpeed g.cn2 l).number) hw (by linarith)
    fun c0 p hp => (hl c0 p hp).2
  have B := C118_system hfl hL h'
  rw [← systemAt_optics]
  refine (abs_sub_le _ _ _).trans ((add_le_add B A).trans ?_)
  have : 0.125 / g.slant ^ 2 = 0.125 / 0.11 * (0.11 / g.slant ^ 2) := by ring
  linarith

/-! ## The hypotheses can be met -/

/-- Adding the halves of a list separately. -/
def SumTree.halves : ℕ → ℕ → ℕ → SumTree
  | 0, lo, n => if n = 0 then zero else leaf lo
  | k + 1, lo, n => node (halves k lo (n / 2)) (halves k (lo + n / 2) (n - n / 2))

theorem halves_leaves (k : ℕ) : ∀ lo n, n ≤ 2 ^ k → (SumTree.halves k lo n).leaves = List.range' lo n := by
  induction k with
  | zero =>
    intro lo n hn
    have : n = 0 ∨ n = 1 := by
      rw [pow_zero] at hn
      omega
    rcases this with e | e <;> simp [e, SumTree.halves, SumTree.leaves]
  | succ k ih =>
    intro lo n hn
    rw [pow_succ] at hn
    rw [SumTree.halves, SumTree.leaves, ih _ _ (by omega), ih _ _ (by omega)]
    have h := List.range'_append (s := lo) (m := n / 2) (n := n - n / 2) (step := 1)
    rw [one_mul] at h
    rw [h]
    congr 1
    omega

theorem halves_depth (k : ℕ) : ∀ lo n, (SumTree.halves k lo n).depth ≤ k := by
  induction k with
  | zero =>
    intro lo n
    rw [SumTree.halves]
    split_ifs <;> simp [SumTree.depth]
  | succ k ih =>
    intro lo n
    have h1 := ih lo (n / 2)
    have h2 := ih (lo + n / 2) (n - n / 2)
    rw [SumTree.halves, SumTree.depth]
    omega

theorem tenth_rounded (hfl : RoundsToNearest fl) : TenthPower (roundedLib fl) := by
  intro x
  have h0 : 0 ≤ x ^ 10 := by
    rw [show x ^ 10 = (x ^ 5) ^ 2 by ring]
    positivity
  have := hfl.error (x ^ 10)
  rw [abs_of_nonneg h0] at this
  show |fl (x ^ (10 : ℝ)) - x ^ 10| ≤ _
  rw [show (10 : ℝ) = ((10 : ℕ) : ℝ) by norm_num, Real.rpow_natCast]
  norm_num at this ⊢
  linarith

theorem demo_sq2 : 8.1e7 ≤ sq2 0 9000 60000 ∧ sq2 0 9000 60000 ≤ 3.7e9 := by
  have h1 := Real.cos_le_one (60000 / R)
  have h2 := Real.one_sub_sq_div_two_le_cos (x := 60000 / R)
  have hR : R = 6378164 := rfl
  unfold sq2
  rw [hR] at h1 h2 ⊢
  constructor <;> linarith

theorem demo_path {t : ℝ} (h0 : 0 ≤ t) (h1 : t ≤ 1) : -100 ≤ pathHeight 9000 60000 t ∧ pathHeight 9000 60000 t ≤ 9000 := by
  obtain ⟨q0, q1⟩ := demo_sq2
  rw [pathHeight_eq]
  have e : (6378164 + 9000) ^ 2 + (1 - t) ^ 2 * sq2 0 9000 60000 - (1 - t) * ((6378164 + 9000) ^ 2 + sq2 0 9000 60000 - 6378164 ^ 2)
      = t * 6387164 ^ 2 + (1 - t) * 6378164 ^ 2 - t * (1 - t) * sq2 0 9000 60000 := by ring
  rw [e]
  have ht : t * (1 - t) ≤ 1 / 4 := by nlinarith [sq_nonneg (t - 1 / 2)]
  have ht0 : 0 ≤ t * (1 - t) := mul_nonneg h0 (by linarith)
  have m1 : t * (1 - t) * sq2 0 9000 60000 ≤ 1 / 4 * 3.7e9 := mul_le_mul ht q1 (by linarith) (by norm_num)
  have m0 : 0 ≤ t * (1 - t) * sq2 0 9000 60000 := mul_nonneg ht0 (by linarith)
  constructor
  · have : (6378064 : ℝ) ≤ Real.sqrt (t * 6387164 ^ 2 + (1 - t) * 6378164 ^ 2 - t * (1 - t) * sq2 0 9000 60000) :=
      Real.le_sqrt_of_sq_le (by linarith)
    linarith
  · have : Real.sqrt (t * 6387164 ^ 2 + (1 - t) * 6378164 ^ 2 - t * (1 - t) * sq2 0 9000 60000) ≤ 6387164 :=
      Real.sqrt_le_iff.mpr ⟨by norm_num, by linarith⟩
    linarith

theorem demo_hv {h : ℝ} (h0 : -100 ≤ h) (h1 : h ≤ 9000) : 5e-19 ≤ hv 21 1.7e-14 h ∧ hv 21 1.7e-14 h ≤ 1e-12 := by
  have p0 : 0 ≤ h ^ 10 := by
    rw [show h ^ 10 = (h ^ 5) ^ 2 by ring]
    positivity
  have p1 : h ^ 10 ≤ 9000 ^ 10 := by
    have := pow_le_pow_left₀ (abs_nonneg h) (abs_le.mpr ⟨by linarith, h1⟩ : |h| ≤ 9000) 10
    rwa [← abs_pow, abs_of_nonneg p0] at this
  have e : Real.exp 1 ≤ 2.72 := by linarith [Real.exp_one_lt_d9]
  have e1 : Real.exp (-h / 1000) ≤ 2.72 := (Real.exp_le_exp.mpr (by linarith)).trans e
  have e2 : Real.exp (-h / 1500) ≤ 2.72 := (Real.exp_le_exp.mpr (by linarith)).trans e
  have e3 : Real.exp (-h / 100) ≤ 2.72 := (Real.exp_le_exp.mpr (by linarith)).trans e
  have e4 : 0.002 ≤ Real.exp (-h / 1500) := by
    refine le_trans ?_ (Real.exp_le_exp.mpr (by linarith : (-6 : ℝ) ≤ -h / 1500))
    rw [Real.exp_neg, le_inv_comm₀ (by norm_num) (Real.exp_pos _)]
    have := pow_le_pow_left₀ (Real.exp_pos _).le e 6
    rw [← Real.exp_nat_mul] at this
    norm_num at this ⊢
    linarith
  have n1 := mul_up (mul_nonneg (by norm_num : (0 : ℝ) ≤ 5.94e-53 * (21 / 27) ^ 2) p0)
    (mul_le_mul_of_nonneg_left p1 (by norm_num)) (Real.exp_pos (-h / 1000)).le e1
  have x3 := Real.exp_pos (-h / 100)
  unfold hv
  constructor
  · linarith [n1.1]
  · have : 5.94e-53 * (21 / 27) ^ 2 * 9000 ^ 10 * 2.72 ≤ (5e-13 : ℝ) := by norm_num
    linarith [n1.2]

theorem demo_fried {l : ℝ} (l0 : 3e-6 ≤ l) (l1 : l ≤ 5e-6) : 1e-6 ≤ fried 9000 60000 21 1.7e-14 l ∧ fried 9000 60000 21 1.7e-14 l ≤ 1e6 := by
  obtain ⟨q0, q1⟩ := demo_sq2
  have d0 : 9000 ≤ Real.sqrt (sq2 0 9000 60000) := Real.le_sqrt_of_sq_le (by linarith)
  have d1 : Real.sqrt (sq2 0 9000 60000) ≤ 61000 := Real.sqrt_le_iff.mpr ⟨by norm_num, by linarith⟩
  unfold fried turbPath
  simp only [slant_sq2]
  obtain ⟨lo, hi⟩ := path_bounds (m := 5e-19) (M := 1e-12) (c := fun k => hv 21 1.7e-14 (pathHeight 9000 60000 ((k : ℝ) / 9999)))
    (by norm_num) (by
      intro i hi
      have hi' : (i : ℝ) ≤ 9999 := by exact_mod_cast (by omega : i ≤ 9999)
      have := demo_path (t := (i : ℝ) / 9999) (by positivity) (by linarith)
      exact demo_hv this.1 this.2) (by linarith : 0 ≤ Real.sqrt (sq2 0 9000 60000))
  generalize trap 10000 _ _ = T at *
  have k0 : 6e11 ≤ 0.423 * (2 * Real.pi / l) ^ 2 := by
    have := Real.pi_gt_d6
    have : 1.25e6 ≤ 2 * Real.pi / l := by rw [le_div_iff₀ (by linarith)]; linarith
    have := pow_le_pow_left₀ (by norm_num) this 2
    linarith
  have k1 : 0.423 * (2 * Real.pi / l) ^ 2 ≤ 2e12 := by
    have := Real.pi_lt_d6
    have : 2 * Real.pi / l ≤ 2.1e6 := by rw [div_le_iff₀ (by linarith)]; linarith
    have := pow_le_pow_left₀ (by have := Real.pi_pos; have : 0 < l := by linarith
                                 positivity) this 2
    linarith
  generalize 0.423 * (2 * Real.pi / l) ^ 2 = K at *
  have t0 : 2e-19 ≤ T := le_trans (by linarith) lo
  have t1 : T ≤ 1e-7 := hi.trans (by linarith)
  have p0 : (10 : ℝ) ^ (-10 : ℝ) ≤ K * T := by
    have := mul_le_mul k0 t0 (by norm_num) (by linarith)
    refine le_trans ?_ this
    rw [show (-10 : ℝ) = ((-10 : ℤ) : ℝ) by norm_num, Real.rpow_intCast]
    norm_num
  have p1 : K * T ≤ (10 : ℝ) ^ (10 : ℝ) := by
    have := mul_le_mul k1 t1 (by linarith) (by norm_num)
    refine this.trans ?_
    rw [show (10 : ℝ) ^ (10 : ℝ) = 10 ^ 10 by norm_num]
    norm_num
  have hp : 0 < K * T := lt_of_lt_of_le (by positivity) p0
  constructor
  · have := Real.rpow_le_rpow_of_nonpos hp p1 (by norm_num : (-(3 : ℝ) / 5) ≤ 0)
    rw [← Real.rpow_mul (by norm_num)] at this
    refine le_trans ?_ this
    rw [show (10 : ℝ) * (-3 / 5) = ((-6 : ℤ) : ℝ) by norm_num, Real.rpow_intCast]
    norm_num
  · have := Real.rpow_le_rpow_of_nonpos (by positivity) p0 (by norm_num : (-(3 : ℝ) / 5) ≤ 0)
    rw [← Real.rpow_mul (by norm_num)] at this
    refine this.trans ?_
    rw [show (-10 : ℝ) * (-3 / 5) = ((6 : ℤ) : ℝ) by norm_num, Real.rpow_intCast]
    norm_num

theorem root_demo : Real.sqrt (600 ^ 2 + 800 ^ 2) = 1000 := by
  rw [show (600 : ℝ) ^ 2 + 800 ^ 2 = 1000 ^ 2 by norm_num]
  exact Real.sqrt_sq (by norm_num)

theorem demo_scene_ordinary : OrdinarySystem demoSensor (.leaf 0) [(4e-6, 2)] demoScene.cn2 demoScene.aircraftSpeed 0.01
    (fried demoScene.altitude demoScene.groundRange demoScene.windSpeed demoScene.cn2) 600 800 := by
  refine { demo_mtf_ordinary with turbulence := fun _ => ⟨by norm_num [demoScene], by norm_num [demoSensor], ?_⟩ }
  intro p hp
  rw [List.mem_singleton] at hp
  subst hp
  obtain ⟨f0, f1⟩ := demo_fried (l := 4e-6) (by norm_num) (by norm_num)
  rw [root_demo]
  show OrdinaryTurbulence 4e-6 demoSensor.D (fried 9000 60000 21 1.7e-14 4e-6) 1000
  generalize fried 9000 60000 21 1.7e-14 4e-6 = r at *
  have hr : 0 < r := by linarith
  refine ⟨by norm_num, by norm_num [demoSensor], hr, Or.inr ⟨⟨?_, ?_⟩, ?_, ?_⟩⟩
  · rw [le_div_iff₀ hr]; linarith
  · rw [div_le_iff₀ hr]; linarith
  · norm_num [demoSensor, Ordinary]
  · norm_num [demoSensor]

example (hfl : RoundsToNearest fl) : ∃ r, friedD fl Real.cos Real.arccos (roundedLib fl) (SumTree.halves 14 0 9999) 9000 60000 21 1.7e-14 4e-6
      = .fin r
    ∧ WithinFactor (1e-8 + 0.11 / pdist (pointAt 0 60000) (pointAt 9000 0) ^ 2) r (fried 9000 60000 21 1.7e-14 4e-6) :=
  C119_diameter hfl real_cosine real_arccos (roundedLib_accurate hfl) (tenth_rounded hfl)
    (by rw [halves_leaves _ _ _ (by norm_num), List.range_eq_range']) ((halves_depth _ _ _).trans (by norm_num)) (by norm_num)
    (by norm_num) (by norm_num) (by norm_num) (by norm_num) (by norm_num) (by norm_num) (by norm_num) ⟨by norm_num, by norm_num⟩

example (hfl : RoundsToNearest fl) :
    |systemD fl (roundedLib fl) (.leaf 0) demoSensor [(4e-6, 2)] demoScene.cn2 demoScene.aircraftSpeed 0.01
        (fun l => (friedD fl Real.cos Real.arccos (roundedLib fl) (SumTree.halves 14 0 9999) demoScene.altitude demoScene.groundRange
          demoScene.windSpeed demoScene.cn2 l).number) 600 800
      - opticsAt demoSensor demoScene [(4e-6, 2)] 0.01 600 800| ≤ 1.2e-6 + 0.125 / demoScene.slant ^ 2 := by
  refine C119_system hfl real_cosine real_arccos (roundedLib_accurate hfl) (tenth_rounded hfl) demo_scene_ordinary
    (by rw [halves_leaves _ _ _ (by norm_num), List.range_eq_range']) ((halves_depth _ _ _).trans (by norm_num)) (by norm_num [demoScene])
    (by norm_num [demoScene]) (by norm_num [demoScene]) (by norm_num [demoScene]) (by norm_num [demoScene]) (by norm_num [demoScene])
    (by norm_num [demoScene]) ?_
  intro _ p hp
  rw [List.mem_singleton] at hp
  subst hp
  obtain ⟨f0, f1⟩ := demo_fried (l := 4e-6) (by norm_num) (by norm_num)
  rw [root_demo]
  show Ordinary 4e-6 ∧ ((1000 : ℝ) = 0 ∨ 1e-29 ≤ 4e-6 * 1000 / fried 9000 60000 21 1.7e-14 4e-6
    ∧ 4e-6 * 1000 / fried 9000 60000 21 1.7e-14 4e-6 ≤ 1e29)
  generalize fried 9000 60000 21 1.7e-14 4e-6 = r at *
  have hr : 0 < r := by linarith
  refine ⟨⟨by norm_num, by norm_num⟩, Or.inr ⟨?_, ?_⟩⟩
  · rw [le_div_iff₀ hr]; linarith
  · rw [div_le_iff₀ hr]; linarith

end PyBSM
