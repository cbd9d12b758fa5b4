import Verif.Spec.Compare
import Verif.Props.NiirsValue
import Verif.Props.SystemValue
import Mathlib.Analysis.Convex.SpecificFunctions.Deriv

/-!
# Helper lemmas: monotonicity of the optical chain
-/

noncomputable section

open Classical

namespace PyBSM

open Spec

theorem wmean_mono {pairs : List (ℝ × ℝ)} (hw : ∀ p ∈ pairs, 0 ≤ p.2) (hS : 0 < (pairs.map (·.2)).sum)
    {F G : ℝ → ℝ} (h : ∀ p ∈ pairs, F p.1 ≤ G p.1) : wmean pairs F ≤ wmean pairs G := by
  unfold wmean
  apply div_le_div_of_nonneg_right _ hS.le
  apply List.sum_le_sum
  intro p hp
  exact mul_le_mul_of_nonneg_left (h p hp) (hw p hp)

theorem sinc_anti {x y : ℝ} (hxy : |x| ≤ |y|) (hy : |y| ≤ Real.pi) :
    0 ≤ Real.sinc y ∧ Real.sinc y ≤ Real.sinc x := by
  have e : ∀ z : ℝ, Real.sinc z = Real.sinc |z| := by
    intro z
    rcases abs_choice z with h | h <;> rw [h]
    rw [Real.sinc_neg]
  have hnn : 0 ≤ Real.sinc |y| := by
    by_cases h : |y| = 0
    · rw [h, Real.sinc_zero]; norm_num
    · rw [Real.sinc_of_ne_zero h]
      exact div_nonneg (Real.sin_nonneg_of_nonneg_of_le_pi (abs_nonneg y) hy) (abs_nonneg y)
  rw [e x, e y]
  refine ⟨hnn, ?_⟩
  by_cases hx0 : |x| = 0
  · rw [hx0, Real.sinc_zero]
    exact Real.sinc_le_one _
  have ha : 0 < |x| := (abs_nonneg x).lt_of_ne' hx0
  have hb : 0 < |y| := ha.trans_le hxy
  rw [Real.sinc_of_ne_zero ha.ne', Real.sinc_of_ne_zero hb.ne', div_le_div_iff₀ hb ha]
  have hc : (|x| / |y|) • Real.sin |y| + (1 - |x| / |y|) • Real.sin 0
      ≤ Real.sin ((|x| / |y|) • |y| + (1 - |x| / |y|) • (0 : ℝ)) :=
    strictConcaveOn_sin_Icc.concaveOn.2 ⟨hb.le, hy⟩ ⟨le_rfl, Real.pi_pos.le⟩
      (by positivity) (by rw [sub_nonneg, div_le_one hb]; exact hxy) (by ring)
  simp only [smul_eq_mul, mul_zero, add_zero, Real.sin_zero] at hc
  rw [div_mul_cancel₀ _ hb.ne', div_mul_eq_mul_div, div_le_iff₀ hb] at hc
  linarith

theorem jitterAt_anti {s s' : RealSensor} (hx : |s.sX| ≤ |s'.sX|) (hy : |s.sY| ≤ |s'.sY|) (u v : ℝ) :
    jitterAt s' u v ≤ jitterAt s u v := by
  unfold jitterAt
  rw [Real.exp_le_exp, neg_le_neg_iff]
  apply mul_le_mul_of_nonneg_left _ (by positivity)
  have h1 := mul_le_mul_of_nonneg_right (sq_le_sq.mpr hx) (sq_nonneg u)
  have h2 := mul_le_mul_of_nonneg_right (sq_le_sq.mpr hy) (sq_nonneg v)
  rw [mul_pow, mul_pow, mul_pow, mul_pow]
  linarith

theorem wavefrontAt_anti {s s' : RealSensor} (h0 : 0 ≤ s.pv) (h : s.pv ≤ s'.pv) (hw : s'.pvWavelength = s.pvWavelength)
    (x0 : s'.lX ≠ 0) (y0 : s'.lY ≠ 0) (hx : |s'.lX| ≤ |s.lX|) (hy : |s'.lY| ≤ |s.lY|) {pairs : List (ℝ × ℝ)}
    (hb : Band pairs) (u v : ℝ) : wavefrontAt s' pairs u v ≤ wavefrontAt s pairs u v := by
  unfold wavefrontAt
  apply wmean_mono hb.weights hb.total
  intro p hp
  rw [Real.exp_le_exp, neg_le_neg_iff, hw]
  have hsq : ∀ {a l l' : ℝ}, l' ≠ 0 → |l'| ≤ |l| → (a / l) ^ 2 ≤ (a / l') ^ 2 := by
    intro a l l' h0 hl
    rw [div_pow, div_pow]
    exact div_le_div_of_nonneg_left (sq_nonneg a) (by positivity) (sq_le_sq.mpr hl)
  have h1 := hsq (a := u) x0 hx
  have h2 := hsq (a := v) y0 hy
  have h3 : Real.exp (-(p.1 ^ 2 * ((u / s'.lX) ^ 2 + (v / s'.lY) ^ 2))) ≤ Real.exp (-(p.1 ^ 2 * ((u / s.lX) ^ 2 + (v / s.lY) ^ 2))) := by
    rw [Real.exp_le_exp, neg_le_neg_iff]
    exact mul_le_mul_of_nonneg_left (by linarith) (sq_nonneg _)
  have h4 : Real.exp (-(p.1 ^ 2 * ((u / s.lX) ^ 2 + (v / s.lY) ^ 2))) ≤ 1 := by
    rw [Real.exp_le_one_iff, neg_nonpos]
    positivity
  apply mul_le_mul _ (by linarith) (by linarith) (mul_nonneg (h0.trans h) (sq_nonneg _))
  exact mul_le_mul_of_nonneg_right h (sq_nonneg _)

theorem hv_pos {wind cn2 : ℝ} (hc : 0 ≤ cn2) (h : ℝ) : 0 < hv wind cn2 h := by
  have h10 : 0 ≤ h ^ 10 := by positivity
  unfold hv
  positivity

theorem hv_mono {w w' c c' : ℝ} (hw : |w| ≤ |w'|) (hc : c ≤ c') (h : ℝ) : hv w c h ≤ hv w' c' h := by
  have h10 : 0 ≤ h ^ 10 := by positivity
  unfold hv
  have h1 : (w / 27) ^ 2 ≤ (w' / 27) ^ 2 := by
    rw [div_pow, div_pow]
    exact div_le_div_of_nonneg_right (sq_le_sq.mpr hw) (by norm_num)
  gcongr

theorem turbPath_pos {hs g w c : ℝ} (hd : pdist (pointAt hs 0) (pointAt 0 g) ≠ 0) (hc : 0 ≤ c) : 0 < turbPath hs g w c := by
  unfold turbPath
  dsimp only
  have hdpos : 0 < pdist (pointAt 0 g) (pointAt hs 0) := by
    rw [pdist_symm]; exact (pdist_nonneg _ _).lt_of_ne' hd
  have := trap_strictMono (n := 10000) (x := fun k : ℕ => (k : ℝ) / 9999 * pdist (pointAt 0 g) (pointAt hs 0))
    (y := fun _ => 0) (y' := fun k : ℕ => hv w c (pathHeight hs g ((k : ℝ) / 9999)) * ((k : ℝ) / 9999) ^ ((5 : ℝ) / 3))
    (by norm_num) ?_ ?_ (k := 1) (by norm_num) ?_
  · have e : ∀ n x, trap n x (fun _ => (0 : ℝ)) = 0 := fun n x => by simp [trap]
    rwa [e] at this
  · intro i _
    have : (i : ℝ) / 9999 < ((i + 1 : ℕ) : ℝ) / 9999 := by
      apply div_lt_div_of_pos_right _ (by norm_num); push_cast; linarith
    exact mul_lt_mul_of_pos_right this hdpos
  · intro i _
    exact mul_nonneg (hv_pos hc _).le (by positivity)
  · exact mul_pos (hv_pos hc _) (by positivity)

theorem turbPath_mono {hs g w w' c c' : ℝ} (hw : |w| ≤ |w'|) (hc : c ≤ c') : turbPath hs g w c ≤ turbPath hs g w' c' := by
  unfold turbPath
  dsimp only
  apply trap_mono
  · intro i _
    have : (i : ℝ) / 9999 ≤ ((i + 1 : ℕ) : ℝ) / 9999 := by
      apply div_le_div_of_nonneg_right _ (by norm_num); push_cast; linarith
    exact mul_le_mul_of_nonneg_right this (pdist_nonneg _ _)
  · intro i _
    exact mul_le_mul_of_nonneg_right (hv_mono hw hc _) (by positivity)

theorem fried_anti {hs g w w' c c' l : ℝ} (hd : pdist (pointAt hs 0) (pointAt 0 g) ≠ 0) (hl : 0 < l) (h0 : 0 ≤ c)
    (hw : |w| ≤ |w'|) (hc : c ≤ c') : fried hs g w' c' l ≤ fried hs g w c l := by
  unfold fried
  have hpi := Real.pi_pos
  apply Real.rpow_le_rpow_of_nonpos
  · exact mul_pos (by positivity) (turbPath_pos hd h0)
  · exact mul_le_mul_of_nonneg_left (turbPath_mono hw hc) (by positivity)
  · norm_num

/-- Turbulence at one frequency: a smaller coherence diameter or more wind during the exposure lowers it. -/
theorem turbMix_anti {lam D r r' t w w' u v : ℝ} (hl : 0 < lam) (hD : 0 < D) (hr' : 0 < r') (hr : r' ≤ r) (ht : 0 ≤ t)
    (hw0 : 0 ≤ w) (hw : w ≤ w') (h8 : lam * Real.sqrt (u ^ 2 + v ^ 2) ≤ 8 * D) :
    turbMix lam D r' t w' u v ≤ turbMix lam D r t w u v := by
  unfold turbMix
  dsimp only
  set q := Real.sqrt (u ^ 2 + v ^ 2) with hq
  have hq0 : 0 ≤ q := Real.sqrt_nonneg _
  set y := (lam * q / D) ^ ((1 : ℝ) / 3) with hy
  have y0 : 0 ≤ y := by positivity
  have y2 : y ≤ 2 := by
    have : (8 : ℝ) ^ ((1 : ℝ) / 3) = 2 := by
      rw [show (8 : ℝ) = 2 ^ (3 : ℝ) by norm_num, ← Real.rpow_mul (by norm_num)]
      norm_num
    rw [← this, hy]
    apply Real.rpow_le_rpow (by positivity) _ (by norm_num)
    rwa [div_le_iff₀ hD]
  have hx : (lam * q / r) ^ ((5 : ℝ) / 3) ≤ (lam * q / r') ^ ((5 : ℝ) / 3) := by
    apply Real.rpow_le_rpow (by have := hr'.trans_le hr; positivity) _ (by norm_num)
    exact div_le_div_of_nonneg_left (by positivity) hr' hr
  have x0 : 0 ≤ (lam * q / r) ^ ((5 : ℝ) / 3) := by have := hr'.trans_le hr; positivity
  generalize (lam * q / r) ^ ((5 : ℝ) / 3) = x at *
  generalize (lam * q / r') ^ ((5 : ℝ) / 3) = x' at *
  have hS : Real.exp (-(3.44 * x' * (1 - 0.5 * y))) ≤ Real.exp (-(3.44 * x * (1 - 0.5 * y))) := by
    rw [Real.exp_le_exp, neg_le_neg_iff]
    have : 0 ≤ 1 - 0.5 * y := by linarith
    exact mul_le_mul_of_nonneg_right (by linarith) this
  have hL : Real.exp (-(3.44 * x')) ≤ Real.exp (-(3.44 * x)) := by
    rw [Real.exp_le_exp]; linarith
  have hSL : Real.exp (-(3.44 * x')) ≤ Real.exp (-(3.44 * x' * (1 - 0.5 * y))) := by
    rw [Real.exp_le_exp, neg_le_neg_iff]
    have : 0 ≤ x' * y := mul_nonneg (x0.trans hx) y0
    nlinarith
  have hA : Real.exp (-(w' * t / r')) ≤ Real.exp (-(w * t / r)) := by
    rw [Real.exp_le_exp, neg_le_neg_iff]
    apply div_le_div₀ (mul_nonneg (hw0.trans hw) ht) (mul_le_mul_of_nonneg_right hw ht) hr' hr
  have hA1 : Real.exp (-(w * t / r)) ≤ 1 := by
    rw [Real.exp_le_one_iff, neg_nonpos]
    have := hr'.trans_le hr
    positivity
  have hA0 := (Real.exp_pos (-(w * t / r))).le
  have hA0' := (Real.exp_pos (-(w' * t / r'))).le
  generalize Real.exp (-(w * t / r)) = a at *
  generalize Real.exp (-(w' * t / r')) = a' at *
  generalize Real.exp (-(3.44 * x * (1 - 0.5 * y))) = S at *
  generalize Real.exp (-(3.44 * x' * (1 - 0.5 * y))) = S' at *
  generalize Real.exp (-(3.44 * x)) = L at *
  generalize Real.exp (-(3.44 * x')) = L' at *
  nlinarith [mul_nonneg (sub_nonneg.mpr hA) (sub_nonneg.mpr hSL), mul_nonneg hA0 (sub_nonneg.mpr hS), mul_nonneg (sub_nonneg.mpr hA1) (sub_nonneg.mpr hL)]

theorem driftAt_anti {s s' : RealSensor} (hx : |s.daX| ≤ |s'.daX|) (hy : |s.daY| ≤ |s'.daY|) (hn : s'.nTdi = s.nTdi)
    {t : ℝ} (ht : 0 ≤ t * s.nTdi) {u v : ℝ} (hu : |s'.daX| * t * s.nTdi * |u| ≤ 1) (hv : |s'.daY| * t * s.nTdi * |v| ≤ 1) :
    |driftAt s' t u v| ≤ |driftAt s t u v| := by
  have key : ∀ {a a' w : ℝ}, |a| ≤ |a'| → |a'| * t * s.nTdi * |w| ≤ 1 →
      |Real.sinc (Real.pi * (a' * t * s.nTdi * w))| ≤ |Real.sinc (Real.pi * (a * t * s.nTdi * w))| := by
    intro a a' w h1 h2
    have hpi := Real.pi_pos
    have e : ∀ b : ℝ, |Real.pi * (b * t * s.nTdi * w)| = Real.pi * (|b| * (t * s.nTdi) * |w|) := by
      intro b
      rw [abs_mul, abs_of_pos hpi, abs_mul, mul_assoc b, abs_mul, abs_of_nonneg ht]
    obtain ⟨h3, h4⟩ := sinc_anti (x := Real.pi * (a * t * s.nTdi * w)) (y := Real.pi * (a' * t * s.nTdi * w))
      (by rw [e, e]; gcongr) (by rw [e]; nlinarith)
    rw [abs_of_nonneg h3, abs_of_nonneg (h3.trans h4)]
    exact h4
  unfold driftAt
  rw [hn, abs_mul, abs_mul]
  exact mul_le_mul (key hx hu) (key hy hv) (abs_nonneg _) (abs_nonneg _)

theorem turbulenceAt_anti {s s' : RealSensor} (hs : 0 < s.D) (hD : s'.D = s.D) (hn : s'.nTdi = s.nTdi)
    {g g' : RealScene} (hg : g.Viewing) (ha : g'.altitude = g.altitude) (hr : g'.groundRange = g.groundRange)
    (hv0 : 0 ≤ g.aircraftSpeed) (hv : g.aircraftSpeed ≤ g'.aircraftSpeed)
    (hw : |g.windSpeed| ≤ |g'.windSpeed|) (hc : g.cn2 ≤ g'.cn2) {pairs : List (ℝ × ℝ)} (hb : Band pairs) {t : ℝ}
    (ht : 0 ≤ t * s.nTdi) {u v : ℝ} (h8 : ∀ p ∈ pairs, p.1 * Real.sqrt (u ^ 2 + v ^ 2) ≤ 8 * s.D) :
    0 ≤ turbulenceAt s' g' pairs t u v ∧ turbulenceAt s' g' pairs t u v ≤ turbulenceAt s g pairs t u v := by
  have hf : ∀ c w l, 0 ≤ c → 0 < l → 0 < fried g.altitude g.groundRange w c l := by
    intro c w l h0 hl
    have hpi := Real.pi_pos
    exact Real.rpow_pos_of_pos (mul_pos (by positivity) (turbPath_pos hg.away h0)) _
  have hrange : 0 < g'.cn2 → ∀ p ∈ pairs,
      0 < turbMix p.1 s'.D (fried g'.altitude g'.groundRange g'.windSpeed g'.cn2 p.1) (t * s'.nTdi) g'.aircraftSpeed u v
      ∧ turbMix p.1 s'.D (fried g'.altitude g'.groundRange g'.windSpeed g'.cn2 p.1) (t * s'.nTdi) g'.aircraftSpeed u v ≤ 1 := by
    intro h p hp
    rw [ha, hr, hD, hn]
    exact turbMix_range (hb.positive p hp) hs (hf _ _ _ h.le (hb.positive p hp)) (mul_nonneg (hv0.trans hv) ht) rfl (h8 p hp)
  unfold turbulenceAt
  by_cases h' : 0 < g'.cn2
  · rw [if_pos h']
    refine ⟨le_wmean hb.weights hb.total fun p hp => (hrange h' p hp).1.le, ?_⟩
    by_cases h : 0 < g.cn2
    · rw [if_pos h]
      apply wmean_mono hb.weights hb.total
      intro p hp
      rw [ha, hr, hD, hn]
      exact turbMix_anti (hb.positive p hp) hs (hf _ _ _ h'.le (hb.positive p hp))
        (fried_anti hg.away (hb.positive p hp) h.le hw hc) ht hv0 hv (h8 p hp)
    · rw [if_neg h]
      exact wmean_le hb.weights hb.total fun p hp => (hrange h' p hp).2
  · rw [if_neg h', if_neg (fun h => h' (h.trans_le hc))]
    exact ⟨zero_le_one, le_rfl⟩

/-- More blur lowers the optical part of the MTF, within the cutoff. -/
theorem opticsAt_blur {s s' : RealSensor} {g g' : RealScene} (hs : s.Optical) (hg : g.Viewing) (m : MoreBlur s s' g g')
    {pairs : List (ℝ × ℝ)} (hb : Band pairs) {t : ℝ} (ht : 0 ≤ t * s.nTdi) {u v : ℝ}
    (hu : |s'.daX| * t * s.nTdi * |u| ≤ 1) (hv : |s'.daY| * t * s.nTdi * |v| ≤ 1)
    (h8 : ∀ p ∈ pairs, p.1 * Real.sqrt (u ^ 2 + v ^ 2) ≤ 8 * s.D) :
    |opticsAt s' g' pairs t u v| ≤ |opticsAt s g pairs t u v| := by
  have eD : s'.D = s.D := congrArg (·.D) m.sameSensor
  have eE : s'.eta = s.eta := congrArg (·.eta) m.sameSensor
  have ewX : s'.wX = s.wX := congrArg (·.wX) m.sameSensor
  have ewY : s'.wY = s.wY := congrArg (·.wY) m.sameSensor
  have ef : s'.f = s.f := congrArg (·.f) m.sameSensor
  have en : s'.nTdi = s.nTdi := congrArg (·.nTdi) m.sameSensor
  have ep : s'.pvWavelength = s.pvWavelength := congrArg (·.pvWavelength) m.sameSensor
  have ea : g'.altitude = g.altitude := congrArg (·.altitude) m.sameScene
  have er : g'.groundRange = g.groundRange := congrArg (·.groundRange) m.sameScene
  have hA : apertureAt s' pairs u v = apertureAt s pairs u v := by unfold apertureAt; rw [eD, eE]
  have hD : detectorAt s' u v = detectorAt s u v := by unfold detectorAt; rw [ewX, ewY, ef]
  obtain ⟨T0, T1⟩ := turbulenceAt_anti hs.aperture eD en hg ea er m.speed0 m.speed m.wind m.cn2 hb ht h8
  have J := jitterAt_anti m.jitterX m.jitterY u v
  have J0 := (jitterAt_range s' u v).1.le
  have Q := driftAt_anti m.driftX m.driftY en ht hu hv
  have W := wavefrontAt_anti m.wavefront0 m.wavefront ep m.corrX0 m.corrY0 m.corrX m.corrY hb u v
  have W0 := (wavefrontAt_range (m.wavefront0.trans m.wavefront) hb u v).1
  unfold opticsAt
  rw [hA, hD]
  simp only [abs_mul]
  rw [abs_of_nonneg T0, abs_of_nonneg (T0.trans T1), abs_of_nonneg J0, abs_of_nonneg (J0.trans J), abs_of_nonneg W0,
    abs_of_nonneg (W0.trans W)]
  have J0' := J0.trans J
  have T0' := T0.trans T1
  gcongr

theorem rerOf_mono {M M' : ℕ → ℝ} {df ifov : ℝ} (hM : ∀ k < 50, M' k ≤ M k) (hdf : 0 ≤ df) (hi : 0 ≤ ifov)
    (hs : ifov * (df * 49 + 1e-6) ≤ 1) : rerOf M' df ifov ≤ rerOf M df ifov := by
  have hpi := Real.pi_pos
  have hw : ∀ i : ℕ, (0 : ℝ) < df * i + 1e-6 := fun i => by positivity
  have hsin : ∀ i : ℕ, i < 50 → 0 ≤ Real.sin (2 * Real.pi * (df * i + 1e-6) * (ifov * (1 / 2))) := by
    intro i hi'
    apply Real.sin_nonneg_of_nonneg_of_le_pi
    · have := hw i; positivity
    · have h1 : (i : ℝ) ≤ 49 := by exact_mod_cast (by omega : i ≤ 49)
      have h2 : df * i + 1e-6 ≤ df * 49 + 1e-6 := by nlinarith
      have h3 : ifov * (df * i + 1e-6) ≤ 1 := le_trans (mul_le_mul_of_nonneg_left h2 hi) hs
      nlinarith
  have key : edge 50 M' df ifov (1 / 2) ≤ edge 50 M df ifov (1 / 2) := by
    unfold edge
    dsimp only
    have := trap_mono (n := 50) (x := fun i : ℕ => df * i + 1e-6)
      (y := fun i : ℕ => M' i * Real.sin (2 * Real.pi * (df * i + 1e-6) * (ifov * (1 / 2))) / (df * i + 1e-6))
      (z := fun i : ℕ => M i * Real.sin (2 * Real.pi * (df * i + 1e-6) * (ifov * (1 / 2))) / (df * i + 1e-6))
      (by intro i _; push_cast; nlinarith)
      (by
        intro i hi'
        exact div_le_div_of_nonneg_right (mul_le_mul_of_nonneg_right (hM i hi') (hsin i hi')) (hw i).le)
    have := div_le_div_of_nonneg_right this hpi.le
    linarith
  unfold rerOf
  rw [edge_neg, edge_neg]
  linarith

theorem Spec.niirs5_mono {a b a' b' g s s' el : ℝ} (ha : 0 < a) (hb : 0 < b) (h1 : a ≤ a') (h2 : b ≤ b')
    (ha1 : a' ≤ 1) (hb1 : b' ≤ 1) (hg : 0 < g) (hs0 : 0 < s) (hs : s ≤ s') (he0 : 0 < el) (he1 : el ≤ Real.pi / 2) :
    Spec.niirs5 a b g s el ≤ Spec.niirs5 a' b' g s' el := by
  by_cases h : a < a' ∨ b < b' ∨ s < s'
  · refine (niirs5_strict ha hb h1 h2 ha1 hb1 hg le_rfl hs0 hs he0 le_rfl he1 ?_).le
    tauto
  · push Not at h
    rw [le_antisymm h1 h.1, le_antisymm h2 h.2.1, le_antisymm hs h.2.2]

end PyBSM
