import Verif.Props.System

/-!
# C69: the value of the system OTF
-/

noncomputable section

open Classical

namespace PyBSM

open Spec

/-! ## Closed form -/

/-- **C69** (value): every component of `common_OTFs` is the textbook expression of the finite sensor and scene
attributes; the sharpening component is 1 for a kernel of at most one row and `filter_OTF` at the horizontal
instantaneous field of view otherwise; the system OTF is the product. -/
theorem C69_value (diag : ℕ → ℕ → Bool) {s : RealSensor} (hs : s.Optical) {g : RealScene} (hg : g.Viewing)
    {sc : Scenario} (hsc : g.Of sc) {sr : Scal}
    (hsr : sr.val = curvedEarthSlantRange (.fin 0) sc.altitude sc.groundRange) {pairs : List (ℝ × ℝ)} (hb : Band pairs) (t : ℝ) (m : ℕ) (U V : ℕ → ℝ)
    (hp : 1 < s.filterKernel.length → s.pX ≠ 0) :
    ∃ (F : ℕ → ℝ) (o : OTFRow),
      commonOTFs diag s.toSensor sc (vec m U) (vec m V) (pairs.map fun p => .fin p.1)
          (pairs.map fun p => .fin p.2) sr (.fin t) = .ok o
      ∧ o.ap = vec m (fun j => apertureAt s pairs (U j) (V j))
      ∧ o.turb = vec m (fun j => turbulenceAt s g pairs t (U j) (V j))
      ∧ o.det = vec m (fun j => detectorAt s (U j) (V j))
      ∧ o.jit = vec m (fun j => jitterAt s (U j) (V j))
      ∧ o.drft = vec m (fun j => driftAt s t (U j) (V j))
      ∧ o.wav = vec m (fun j => wavefrontAt s pairs (U j) (V j))
      ∧ o.filter = vec m F
      ∧ o.system = vec m (fun j => apertureAt s pairs (U j) (V j) * turbulenceAt s g pairs t (U j) (V j)
          * detectorAt s (U j) (V j) * jitterAt s (U j) (V j) * driftAt s t (U j) (V j)
          * wavefrontAt s pairs (U j) (V j) * F j)
      ∧ (0 < g.cn2 → o.r0Band = [.fin (wmean pairs (fried g.altitude g.groundRange g.windSpeed g.cn2))])
      ∧ (s.filterKernel.length ≤ 1 → F = fun _ => 1)
      ∧ (1 < s.filterKernel.length →
          filterOTF diag (vec m U) (vec m V) s.filterKernel (.np (.fin (s.pX / s.f))) = .ok (vec m F)) := by
  rw [hsc.slant_eq] at hsr
  refine ⟨fun j => filterAt diag s (U j) (V j), _, commonOTFs_value diag hs hg hsc.sky hsr hb t m U V hp, rfl, rfl, rfl,
    rfl, rfl, rfl, rfl, rfl, fun h => if_pos h, ?_, ?_⟩
  · intro h
    funext j
    exact if_neg (by omega)
  · intro h
    rw [filterOTF_vec diag _ rfl (div_ne_zero (hp h) hs.focal)]
    unfold filterAt
    simp only [if_pos h]

/-! ## Bounds -/

theorem fried_pos_of {g : RealScene} (hg : g.Viewing) (hc : 0 ≤ g.cn2) {l : ℝ} (hl : 0 < l) :
    0 < fried g.altitude g.groundRange g.windSpeed g.cn2 l :=
  (poly_value (D := 1) (t := 0) (w := 0) hg.above hg.away (sS := .py (.fin g.altitude)) (sB := .np (.fin g.slant)) rfl
    (C10_distance 0 g.altitude g.groundRange).symm one_pos hc (pairs := [(1, 1)]) (by simp) (by simp) (by simp)
    (by simp) 0 (fun _ => 0) (fun _ => 0)).1 l hl

theorem turbMix_range {lam D r q u v : ℝ} {t w : ℝ} (hl : 0 < lam) (hD : 0 < D) (hr : 0 < r) (hw : 0 ≤ w * t)
    (hq : q = Real.sqrt (u ^ 2 + v ^ 2)) (h8 : lam * q ≤ 8 * D) :
    0 < turbMix lam D r t w u v ∧ turbMix lam D r t w u v ≤ 1 := by
  unfold turbMix
  dsimp only
  rw [← hq]
  have hq0 : 0 ≤ q := hq ▸ Real.sqrt_nonneg _
  have e8 : (8 : ℝ) ^ ((1 : ℝ) / 3) = 2 := by
    rw [show (8 : ℝ) = 2 ^ (3 : ℝ) by norm_num, ← Real.rpow_mul (by norm_num)]; norm_num
  have hx : 0 ≤ (lam * q / r) ^ ((5 : ℝ) / 3) := by positivity
  have hy : (lam * q / D) ^ ((1 : ℝ) / 3) ≤ 2 := by
    rw [← e8]
    apply Real.rpow_le_rpow (by positivity) _ (by norm_num)
    rw [div_le_iff₀ hD]
    exact h8
  set x := (lam * q / r) ^ ((5 : ℝ) / 3)
  set y := (lam * q / D) ^ ((1 : ℝ) / 3)
  have h0 : 0 < Real.exp (-(w * t / r)) := Real.exp_pos _
  have h1 : Real.exp (-(w * t / r)) ≤ 1 := by
    rw [Real.exp_le_one_iff, neg_nonpos]
    positivity
  have a1 : Real.exp (-(3.44 * x * (1 - 0.5 * y))) ≤ 1 := by
    rw [Real.exp_le_one_iff, neg_nonpos]
    exact mul_nonneg (by positivity) (by linarith)
  have a2 : Real.exp (-(3.44 * x)) ≤ 1 := by
    rw [Real.exp_le_one_iff, neg_nonpos]
    positivity
  have b1 := Real.exp_pos (-(3.44 * x * (1 - 0.5 * y)))
  have b2 := Real.exp_pos (-(3.44 * x))
  constructor <;> nlinarith [mul_pos h0 b1, mul_nonneg (sub_nonneg.mpr h1) b2.le,
    mul_le_mul_of_nonneg_left a1 h0.le, mul_le_mul_of_nonneg_left a2 (sub_nonneg.mpr h1)]

theorem apertureAt_range {s : RealSensor} (hs : s.Optical) {pairs : List (ℝ × ℝ)} (hb : Band pairs) (u v : ℝ) :
    0 ≤ apertureAt s pairs u v ∧ apertureAt s pairs u v ≤ 1 :=
  ⟨le_wmean hb.weights hb.total fun _ _ => (mtf_range hs.aperture hs.obscuration hs.open_ u v).1,
    wmean_le hb.weights hb.total fun _ _ => (mtf_range hs.aperture hs.obscuration hs.open_ u v).2⟩

theorem apertureAt_cutoff {s : RealSensor} (hs : s.Optical) {pairs : List (ℝ × ℝ)} (hb : Band pairs) {u v : ℝ}
    (h : ∀ p ∈ pairs, s.D / p.1 ≤ Real.sqrt (u ^ 2 + v ^ 2)) : apertureAt s pairs u v = 0 :=
  wmean_const hb.total.ne' fun p hp =>
    mtf_cutoff (hb.positive p hp) hs.aperture hs.obscuration hs.open_ (h p hp)

theorem abs_sinc_le (x : ℝ) : |Real.sinc x| ≤ 1 := abs_le.mpr ⟨Real.neg_one_le_sinc x, Real.sinc_le_one x⟩

theorem detectorAt_abs (s : RealSensor) (u v : ℝ) : |detectorAt s u v| ≤ 1 := by
  unfold detectorAt
  rw [abs_mul]
  exact mul_le_one₀ (abs_sinc_le _) (abs_nonneg _) (abs_sinc_le _)

theorem driftAt_abs (s : RealSensor) (t u v : ℝ) : |driftAt s t u v| ≤ 1 := by
  unfold driftAt
  rw [abs_mul]
  exact mul_le_one₀ (abs_sinc_le _) (abs_nonneg _) (abs_sinc_le _)

theorem jitterAt_range (s : RealSensor) (u v : ℝ) : 0 < jitterAt s u v ∧ jitterAt s u v ≤ 1 := by
  unfold jitterAt
  refine ⟨Real.exp_pos _, ?_⟩
  rw [Real.exp_le_one_iff, neg_nonpos]
  positivity

theorem wavefrontAt_range {s : RealSensor} (hpv : 0 ≤ s.pv) {pairs : List (ℝ × ℝ)} (hb : Band pairs) (u v : ℝ) :
    0 ≤ wavefrontAt s pairs u v ∧ wavefrontAt s pairs u v ≤ 1 := by
  refine ⟨le_wmean hb.weights hb.total fun _ _ => (Real.exp_pos _).le, wmean_le hb.weights hb.total fun p _ => ?_⟩
  rw [Real.exp_le_one_iff, neg_nonpos]
  have : Real.exp (-(p.1 ^ 2 * ((u / s.lX) ^ 2 + (v / s.lY) ^ 2))) ≤ 1 := by
    rw [Real.exp_le_one_iff, neg_nonpos]
    positivity
  exact mul_nonneg (by positivity) (by linarith)

/-- The optical part never exceeds the diffraction limit. -/
theorem opticsAt_abs {s : RealSensor} (hs : s.Optical) (hpv : 0 ≤ s.pv) {g : RealScene} (hg : g.Viewing)
    {pairs : List (ℝ × ℝ)} (hb : Band pairs) (h8 : ∀ p ∈ pairs, ∀ q ∈ pairs, p.1 ≤ 8 * q.1) {t : ℝ}
    (ht : 0 ≤ g.aircraftSpeed * (t * s.nTdi)) (u v : ℝ) :
    |opticsAt s g pairs t u v| ≤ apertureAt s pairs u v := by
  obtain ⟨a0, a1⟩ := apertureAt_range hs hb u v
  by_cases hc : ∀ p ∈ pairs, s.D / p.1 ≤ Real.sqrt (u ^ 2 + v ^ 2)
  · unfold opticsAt
    rw [apertureAt_cutoff hs hb hc]
    simp
  · push Not at hc
    obtain ⟨q, hq, hlt⟩ := hc
    have hT : 0 ≤ turbulenceAt s g pairs t u v ∧ turbulenceAt s g pairs t u v ≤ 1 := by
      unfold turbulenceAt
      split
      · rename_i h
        have hr : ∀ p ∈ pairs, 0 < turbMix p.1 s.D (fried g.altitude g.groundRange g.windSpeed g.cn2 p.1)
            (t * s.nTdi) g.aircraftSpeed u v ∧ turbMix p.1 s.D
              (fried g.altitude g.groundRange g.windSpeed g.cn2 p.1) (t * s.nTdi) g.aircraftSpeed u v ≤ 1 := by
          intro p hp
          refine turbMix_range (hb.positive p hp) hs.aperture (fried_pos_of hg h.le (hb.positive p hp)) ht rfl ?_
          have h1 : p.1 * Real.sqrt (u ^ 2 + v ^ 2) ≤ 8 * q.1 * Real.sqrt (u ^ 2 + v ^ 2) :=
            mul_le_mul_of_nonneg_right (h8 p hp q hq) (Real.sqrt_nonneg _)
          rw [lt_div_iff₀ (hb.positive q hq)] at hlt
          nlinarith
        exact ⟨le_wmean hb.weights hb.total fun p hp => (hr p hp).1.le,
          wmean_le hb.weights hb.total fun p hp => (hr p hp).2⟩
      · exact ⟨zero_le_one, le_rfl⟩
    have hW := wavefrontAt_range hpv hb u v
    have hJ := jitterAt_range s u v
    unfold opticsAt
    rw [abs_mul, abs_mul, abs_mul, abs_mul, abs_mul, abs_of_nonneg a0, abs_of_nonneg hT.1, abs_of_nonneg hW.1,
      abs_of_pos hJ.1]
    have step : ∀ x y : ℝ, 0 ≤ x → x ≤ apertureAt s pairs u v → 0 ≤ y → y ≤ 1 →
        0 ≤ x * y ∧ x * y ≤ apertureAt s pairs u v := by
      intro x y hx hx1 hy hy1
      exact ⟨mul_nonneg hx hy, (mul_le_of_le_one_right hx hy1).trans hx1⟩
    obtain ⟨p1, q1⟩ := step _ _ a0 le_rfl hT.1 hT.2
    obtain ⟨p2, q2⟩ := step _ _ p1 q1 (abs_nonneg _) (detectorAt_abs s u v)
    obtain ⟨p3, q3⟩ := step _ _ p2 q2 hJ.1.le hJ.2
    obtain ⟨p4, q4⟩ := step _ _ p3 q3 (abs_nonneg _) (driftAt_abs s t u v)
    exact (step _ _ p4 q4 hW.1 hW.2).2

/-- **C69** (diffraction limit): without a sharpening kernel, for nonnegative wavefront error, exposure and
aircraft speed, and a band whose longest wavelength is at most eight times its shortest, no sample of the system
OTF exceeds in modulus the diffraction MTF there, which is at most 1. -/
theorem C69_diffraction_limit (diag : ℕ → ℕ → Bool) {s : RealSensor} (hs : s.Optical) (hpv : 0 ≤ s.pv)
    (hk : s.filterKernel.length ≤ 1) {g : RealScene} (hg : g.Viewing)
    {sc : Scenario} (hsc : g.Of sc) {sr : Scal}
    (hsr : sr.val = curvedEarthSlantRange (.fin 0) sc.altitude sc.groundRange) {pairs : List (ℝ × ℝ)} (hb : Band pairs)
    (h8 : ∀ p ∈ pairs, ∀ q ∈ pairs, p.1 ≤ 8 * q.1) {t : ℝ} (ht : 0 ≤ t) (hn : 0 ≤ s.nTdi)
    (hv : 0 ≤ g.aircraftSpeed) (m : ℕ) (U V : ℕ → ℝ) :
    ∃ (A S : ℕ → ℝ) (o : OTFRow),
      commonOTFs diag s.toSensor sc (vec m U) (vec m V) (pairs.map fun p => .fin p.1)
          (pairs.map fun p => .fin p.2) sr (.fin t) = .ok o
      ∧ o.ap = vec m A ∧ o.system = vec m S ∧ ∀ j, |S j| ≤ A j ∧ A j ≤ 1 := by
  rw [hsc.slant_eq] at hsr
  refine ⟨_, _, _, commonOTFs_value diag hs hg hsc.sky hsr hb t m U V (fun h => absurd h (by omega)), rfl, rfl, ?_⟩
  intro j
  refine ⟨?_, (apertureAt_range hs hb _ _).2⟩
  have : filterAt diag s (U j) (V j) = 1 := if_neg (by omega)
  rw [this, mul_one]
  exact opticsAt_abs hs hpv hg hb h8 (by positivity) _ _

/-- **C69** (cutoff): whatever the kernel and the atmosphere, the system OTF is exactly 0 at every frequency at or
beyond `D / wavelength` for all wavelengths of the band. -/
theorem C69_cutoff (diag : ℕ → ℕ → Bool) {s : RealSensor} (hs : s.Optical) {g : RealScene} (hg : g.Viewing)
    {sc : Scenario} (hsc : g.Of sc) {sr : Scal}
    (hsr : sr.val = curvedEarthSlantRange (.fin 0) sc.altitude sc.groundRange) {pairs : List (ℝ × ℝ)} (hb : Band pairs) (t : ℝ) (m : ℕ) (U V : ℕ → ℝ)
    (hp : 1 < s.filterKernel.length → s.pX ≠ 0) :
    ∃ (S : ℕ → ℝ) (o : OTFRow),
      commonOTFs diag s.toSensor sc (vec m U) (vec m V) (pairs.map fun p => .fin p.1)
          (pairs.map fun p => .fin p.2) sr (.fin t) = .ok o
      ∧ o.system = vec m S
      ∧ ∀ j, (∀ p ∈ pairs, s.D / p.1 ≤ Real.sqrt (U j ^ 2 + V j ^ 2)) → S j = 0 := by
  rw [hsc.slant_eq] at hsr
  refine ⟨_, _, commonOTFs_value diag hs hg hsc.sky hsr hb t m U V hp, rfl, ?_⟩
  intro j h
  unfold opticsAt
  rw [apertureAt_cutoff hs hb h]
  ring

theorem opticsAt_even {s : RealSensor} (hs : s.Optical) (g : RealScene) {pairs : List (ℝ × ℝ)} (hb : Band pairs)
    (t : ℝ) {u v u' v' : ℝ} (hu : u' = u ∨ u' = -u) (hv : v' = v ∨ v' = -v) :
    opticsAt s g pairs t u' v' = opticsAt s g pairs t u v := by
  have hu2 : u' ^ 2 = u ^ 2 := by rcases hu with rfl | rfl <;> ring
  have hv2 : v' ^ 2 = v ^ 2 := by rcases hv with rfl | rfl <;> ring
  have hA : apertureAt s pairs u' v' = apertureAt s pairs u v := by
    unfold apertureAt wmean
    congr 2
    refine List.map_congr_left fun p hp => ?_
    have h : u' ^ 2 + v' ^ 2 = u ^ 2 + v ^ 2 := by rw [hu2, hv2]
    exact congrArg (p.2 * ·) (mtf_radial (hb.positive p hp) hs.aperture hs.obscuration hs.open_ h)
  have hT : turbulenceAt s g pairs t u' v' = turbulenceAt s g pairs t u v := by
    unfold turbulenceAt turbMix
    rw [hu2, hv2]
  have sU : ∀ a : ℝ, Real.sinc (Real.pi * (a * u')) = Real.sinc (Real.pi * (a * u)) := by
    intro a
    rcases hu with rfl | rfl
    · rfl
    · rw [show Real.pi * (a * -u) = -(Real.pi * (a * u)) by ring, Real.sinc_neg]
  have sV : ∀ a : ℝ, Real.sinc (Real.pi * (a * v')) = Real.sinc (Real.pi * (a * v)) := by
    intro a
    rcases hv with rfl | rfl
    · rfl
    · rw [show Real.pi * (a * -v) = -(Real.pi * (a * v)) by ring, Real.sinc_neg]
  have hD : detectorAt s u' v' = detectorAt s u v := by
    have := sU (s.wX / s.f)
    have := sV (s.wY / s.f)
    unfold detectorAt
    rw [show s.wX * u' / s.f = s.wX / s.f * u' by ring, show s.wX * u / s.f = s.wX / s.f * u by ring,
      show s.wY * v' / s.f = s.wY / s.f * v' by ring, show s.wY * v / s.f = s.wY / s.f * v by ring, sU, sV]
  have hJ : jitterAt s u' v' = jitterAt s u v := by
    unfold jitterAt
    rw [mul_pow, mul_pow, mul_pow, mul_pow, hu2, hv2]
  have hQ : driftAt s t u' v' = driftAt s t u v := by
    unfold driftAt
    rw [sU, sV]
  have hW : wavefrontAt s pairs u' v' = wavefrontAt s pairs u v := by
    unfold wavefrontAt
    simp only [div_pow, hu2, hv2]
  unfold opticsAt
  rw [hA, hT, hD, hJ, hQ, hW]

/-- **C69** (symmetry): without a sharpening kernel the system OTF takes the same value at `(u, v)`, `(-u, v)`,
`(u, -v)` and `(-u, -v)`. -/
theorem C69_even (diag : ℕ → ℕ → Bool) {s : RealSensor} (hs : s.Optical) (hk : s.filterKernel.length ≤ 1)
    {g : RealScene} (hg : g.Viewing) {sc : Scenario} (hsc : g.Of sc) {sr : Scal}
    (hsr : sr.val = curvedEarthSlantRange (.fin 0) sc.altitude sc.groundRange) {pairs : List (ℝ × ℝ)} (hb : Band pairs)
    (t : ℝ) (m : ℕ) (U V : ℕ → ℝ) (a b : ℕ → Bool) :
    ∃ o o' : OTFRow,
      commonOTFs diag s.toSensor sc (vec m U) (vec m V) (pairs.map fun p => .fin p.1)
          (pairs.map fun p => .fin p.2) sr (.fin t) = .ok o
      ∧ commonOTFs diag s.toSensor sc (vec m fun j => if a j then -U j else U j)
          (vec m fun j => if b j then -V j else V j) (pairs.map fun p => .fin p.1)
          (pairs.map fun p => .fin p.2) sr (.fin t) = .ok o'
      ∧ o'.system = o.system := by
  have hp : 1 < s.filterKernel.length → s.pX ≠ 0 := fun h => absurd h (by omega)
  rw [hsc.slant_eq] at hsr
  refine ⟨_, _, commonOTFs_value diag hs hg hsc.sky hsr hb t m U V hp,
    commonOTFs_value diag hs hg hsc.sky hsr hb t m _ _ hp, ?_⟩
  dsimp only
  apply vec_congr
  intro j _
  have : ∀ u v, filterAt diag s u v = 1 := fun u v => if_neg (by omega)
  rw [this, this, mul_one, mul_one]
  apply opticsAt_even hs g hb
  · cases a j <;> simp
  · cases b j <;> simp

/-- On a demo band (3 and 4 micrometres) at 100 cycles per radian. -/
example : ∃ (A S : ℕ → ℝ) (o : OTFRow),
    commonOTFs (fun _ _ => true) demoSensor.toSensor demoScenario (vec 3 fun i => 100 * (i - 1)) (vec 3 fun _ => 0)
        ([(3e-6, 1), (4e-6, 3)].map fun p : ℝ × ℝ => .fin p.1)
        ([(3e-6, 1), (4e-6, 3)].map fun p : ℝ × ℝ => .fin p.2)
        (.np (curvedEarthSlantRange (.fin 0) demoScenario.altitude demoScenario.groundRange)) (.fin 0.01) = .ok o
    ∧ o.ap = vec 3 A ∧ o.system = vec 3 S ∧ ∀ j, |S j| ≤ A j ∧ A j ≤ 1 :=
  C69_diffraction_limit _ demoSensor_optical (by norm_num [demoSensor]) (by norm_num [demoSensor]) demoScene_viewing
    demoScene_of (sr := .np _) rfl demoBand (by
      intro p hp q hq
      simp only [List.mem_cons, List.not_mem_nil, or_false] at hp hq
      rcases hp with rfl | rfl <;> rcases hq with rfl | rfl <;> norm_num) (by norm_num)
    (by norm_num [demoSensor]) (by norm_num [demoScene]) 3 _ _

end PyBSM
