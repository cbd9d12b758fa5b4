import Verif.Props.DoubleRating
import Verif.Props.RoundedSpectra

/-!
# C122: a rating in floating-point arithmetic from its inputs
-/

noncomputable section

open Classical

namespace PyBSM

open Spec

theorem giqeRadianceExpr_spec {u : ℝ} (h0 : 0 ≤ u) {a : Fin 6 → ℝ} (ha : ∀ c, 0 ≤ a c) (hl : 0 < a 0) {ρ T : ℝ} (hρ : 0 ≤ ρ)
    (hρ1 : ρ ≤ 1) (hT : 0 < T) {k : ℕ} (hk : PlanckWithin k (a 0) T) (hu : k * u ≤ 1) :
    (giqeRadianceExpr a ρ T).Pos u ∧ (giqeRadianceExpr a ρ T).weight ≤ k + 7
      ∧ (giqeRadianceExpr a ρ T).exact = greyRadiance a ρ T := by
  obtain ⟨p, w, e⟩ := blackbodyExpr_spec h0 hl hT hk hu
  have hk132 : 132 ≤ k := by
    unfold PlanckWithin at hk
    have := planckArg_pos hl hT
    have : 0 < 16 / planckArg (a 0) T := by positivity
    have : (132 : ℝ) ≤ k := by linarith
    exact_mod_cast this
  refine ⟨⟨⟨⟨ha 2, ⟨sub_nonneg.mpr hρ1, p⟩, ha 1⟩, ha 4⟩, ha 5, hρ, ?_, ?_⟩, ?_, ?_⟩
  · exact (by norm_num : (0 : ℝ) ≤ 0.15)
  · exact (by norm_num : (0 : ℝ) < 0.15)
  · simp only [giqeRadianceExpr, Expr.weight]
    omega
  · simp only [giqeRadianceExpr, Expr.exact, e, greyRadiance]
    ring

theorem target_known {u : ℝ} (h0 : 0 ≤ u) {s : RealSensor} {a : Fin 6 → ℝ} (ha : ∀ c, 0 ≤ a c) (hl : 0 < a 0) {k : ℕ}
    (hk : PlanckWithin k (a 0) 282) (hu : k * u ≤ 1) :
    (s.targetRadianceExpr a).Pos u ∧ (s.targetRadianceExpr a).weight ≤ k + 7 ∧ (s.targetRadianceExpr a).exact = s.targetAt a := by
  unfold RealSensor.targetRadianceExpr RealSensor.targetAt
  split_ifs
  · exact giqeRadianceExpr_spec h0 ha hl (by norm_num) (by norm_num) (by norm_num) hk hu
  · exact giqeRadianceExpr_spec h0 ha hl (by norm_num) (by norm_num) (by norm_num) hk hu

theorem background_known {u : ℝ} (h0 : 0 ≤ u) {s : RealSensor} {a : Fin 6 → ℝ} (ha : ∀ c, 0 ≤ a c) (hl : 0 < a 0) {k : ℕ}
    (hk : PlanckWithin k (a 0) 280) (hu : k * u ≤ 1) :
    (s.backgroundRadianceExpr a).Pos u ∧ (s.backgroundRadianceExpr a).weight ≤ k + 7
      ∧ (s.backgroundRadianceExpr a).exact = s.backgroundAt a := by
  unfold RealSensor.backgroundRadianceExpr RealSensor.backgroundAt
  split_ifs
  · exact giqeRadianceExpr_spec h0 ha hl (by norm_num) (by norm_num) (by norm_num) hk hu
  · exact giqeRadianceExpr_spec h0 ha hl (by norm_num) (by norm_num) (by norm_num) hk hu

theorem weightExpr_spec {u : ℝ} {j n : ℕ} {s : RealSensor} {wl : ℕ → ℝ} (hs : s.Regular n wl) {S : Spectra}
    (hS : KnownSpectra u j n s wl S) {L : ℕ → Expr} {l : ℕ → ℝ} (hL : Known u j n L l) {i : ℕ} (hi : i < n) :
    (s.weightExpr S wl L i).Pos u ∧ (s.weightExpr S wl L i).weight ≤ 3 * j + 18
      ∧ (s.weightExpr S wl L i).exact = s.spectral (wl i) (l i) := by
  obtain ⟨a1, a2, a3⟩ := hL i hi
  obtain ⟨b1, b2, b3⟩ := hS.transmission i hi
  obtain ⟨c1, c2, c3⟩ := hS.efficiency i hi
  obtain ⟨d1, d2, d3⟩ := hS.emission i hi
  obtain ⟨p1, w1, e1⟩ := fpaExpr_spec hs.aperture hs.focal a1 b1 d1 a2 b2 d2
  obtain ⟨p2, w2, e2⟩ := detectionExpr_spec hs.width hs.height (hs.positive i hi).le c1 p1 c2 w1
  refine ⟨p2, by unfold RealSensor.weightExpr; omega, ?_⟩
  unfold RealSensor.weightExpr RealSensor.spectral
  rw [e2, e1, a3, b3, c3, d3, spectralRate]

/-- The counts that the signal-to-noise ratio compares. -/
theorem imaging_counts {s : RealSensor} (hs : s.Usable) {B : List (Fin 6 → ℝ)} (hB : ∀ a ∈ B, 0 < a 0)
    (hM : 0 < s.maxN) (hW : 0 ≤ s.maxWellFill) (hb : 0 < s.bitDepth) (hc : 0 ≤ s.brightest B) (ht : s.intTime ≠ 0) {m : SNRMetrics}
    (h : photonDetectorSNR s.toSensor (vec B.length fun i => B.getD i 0 0)
        (vec B.length fun i => s.targetAt (B.getD i 0)) (vec B.length fun i => s.backgroundAt (B.getD i 0)) = .ok m) :
    m.tgtN = .fin (s.cut B * s.electrons B s.targetAt) ∧ m.bkgN = .fin (s.cut B * s.electrons B s.backgroundAt) := by
  have hl : ∀ i < B.length, 0 < B.getD i 0 0 := by
    intro i hi
    rw [List.getD_eq_getElem _ _ hi]
    exact hB _ (List.getElem_mem hi)
  obtain ⟨m1, i1, i2, -⟩ := snr_imaging hs hB hM hW hb hc
  obtain ⟨m2, j1, j2, j3, -⟩ := snr_total hs hl (fun i => s.targetAt (B.getD i 0)) (fun i => s.backgroundAt (B.getD i 0))
  have e1 : m1 = m := Except.ok.inj (i1.symm.trans h)
  have e2 : m2 = m := Except.ok.inj (j1.symm.trans h)
  subst e1
  subst e2
  obtain ⟨sc, -, -, -, -, -, -, g7, g8, g9, -⟩ := snr_inv h
  have hsc : sc.val = .fin (s.cut B) := by
    rw [i2] at g9
    change XR.fin (s.cut B * s.intTime) = sc.val * XR.fin s.intTime at g9
    generalize sc.val = x at g9
    have finite : ∀ y : XR, (∀ r, y ≠ .fin r) → y * XR.fin s.intTime ≠ XR.fin (s.cut B * s.intTime) := by
      intro y hy
      cases y with
      | fin r => exact absurd rfl (hy r)
      | pinf => show XR.mulInf _ ≠ _; unfold XR.mulInf; split_ifs <;> simp
      | ninf => show XR.neg (XR.mulInf _) ≠ _; unfold XR.mulInf; split_ifs <;> simp [XR.neg]
      | nan => rw [XR.nan_mul]; simp
    by_cases hx : ∃ r, x = .fin r
    · obtain ⟨r, rfl⟩ := hx
      rw [XR.fin_mul, XR.fin.injEq] at g9
      rw [mul_right_cancel₀ ht g9]
    · exact absurd g9.symm (finite x (not_exists.mp hx))
  rw [g7, g8, hsc, j2, j3]
  exact ⟨rfl, rfl⟩

theorem kept_forall₂ {ε : ℝ} (he0 : 0 ≤ ε) (he : ε ≤ 1 / 2) (l : List ℕ) {wl w x : ℕ → ℝ} (hx : ∀ i ∈ l, 0 ≤ x i)
    (h : ∀ i ∈ l, |w i - x i| ≤ ε * x i) :
    List.Forall₂ (fun p q : ℝ × ℝ => p.1 = q.1 ∧ WithinFactor (2 * ε) p.2 q.2)
      ((l.map fun i => (wl i, w i)).filter fun p => 0 < p.2) ((l.map fun i => (wl i, x i)).filter fun p => 0 < p.2) := by
  induction l with
  | nil => exact List.Forall₂.nil
  | cons i l ih =>
    have ih := ih (fun i hi => hx i (List.mem_cons_of_mem _ hi)) fun i hi => h i (List.mem_cons_of_mem _ hi)
    have h1 := hx i List.mem_cons_self
    have h2 := h i List.mem_cons_self
    simp only [List.map_cons]
    rcases h1.lt_or_eq with hp | hz
    · have hw := within_of_rel hp he h2
      rw [List.filter_cons_of_pos (by simpa using hw.1), List.filter_cons_of_pos (by simpa using hp)]
      exact List.Forall₂.cons ⟨rfl, hw⟩ ih
    · rw [← hz] at h2
      have hw : w i = 0 := by
        have := abs_nonpos_iff.mp (h2.trans (by rw [mul_zero]))
        linarith
      rw [List.filter_cons_of_neg (by simp [hw]), List.filter_cons_of_neg (by simp [← hz])]
      exact ih

/-- The spectra of the sensor, of the target and of the background are known. -/
theorem imaging_known {u : ℝ} (h0 : 0 ≤ u) {s : RealSensor} {B : List (Fin 6 → ℝ)} (hB : ∀ a ∈ B, 0 < a 0) {k c : ℕ}
    (hs : s.WellConditioned k c B.length fun i => B.getD i 0 0) (hA : ∀ a ∈ B, ∀ j, 0 ≤ a j)
    (hk : ∀ a ∈ B, PlanckWithin k (a 0) 282 ∧ PlanckWithin k (a 0) 280) {K : ℕ} (hK : k + 2 * c + 88 ≤ K) (hKu : K * u < 1) :
    KnownSpectra u (k + 2 * c + 88) B.length s (fun i => B.getD i 0 0) (s.computed fun i => B.getD i 0 0)
      ∧ Known u (k + 2 * c + 88) B.length (fun i => s.targetRadianceExpr (B.getD i 0)) (fun i => s.targetAt (B.getD i 0))
      ∧ Known u (k + 2 * c + 88) B.length (fun i => s.backgroundRadianceExpr (B.getD i 0)) fun i => s.backgroundAt (B.getD i 0) := by
  have hju : ((k + 2 * c + 88 : ℕ) : ℝ) * u ≤ 1 :=
    (mul_le_mul_of_nonneg_right (by exact_mod_cast (by omega : k + 2 * c + 88 ≤ K)) h0).trans hKu.le
  have hku : (k : ℝ) * u ≤ 1 :=
    (mul_le_mul_of_nonneg_right (by exact_mod_cast (by omega : k ≤ K)) h0).trans hKu.le
  have mem : ∀ i < B.length, B.getD i 0 ∈ B := by
    intro i hi
    rw [List.getD_eq_getElem _ _ hi]
    exact List.getElem_mem hi
  have hS := known_computed h0 hs le_rfl hju
  have hL : Known u (k + 2 * c + 88) B.length (fun i => s.targetRadianceExpr (B.getD i 0)) fun i => s.targetAt (B.getD i 0) := by
    intro i hi
    obtain ⟨p, w, e⟩ := target_known (s := s) h0 (hA _ (mem i hi)) (hB _ (mem i hi)) (hk _ (mem i hi)).1 hku
    exact ⟨p, w.trans (by omega), e⟩
  have hM : Known u (k + 2 * c + 88) B.length (fun i => s.backgroundRadianceExpr (B.getD i 0))
      fun i => s.backgroundAt (B.getD i 0) := by
    intro i hi
    obtain ⟨p, w, e⟩ := background_known (s := s) h0 (hA _ (mem i hi)) (hB _ (mem i hi)) (hk _ (mem i hi)).2 hku
    exact ⟨p, w.trans (by omega), e⟩
  exact ⟨hS, hL, hM⟩

/-- **C122** (radiometry). The weights of the wavelengths, the exposure time and the signal-to-noise ratio of a rating, computed
from the tables and parameters of the sensor and the rows of the atmosphere with any relative rounding errors up to `u` in every
operation and in any order of summation, are within the fraction `ε = K u / (1 - K u)` of those of the report - the
signal-to-noise ratio within that fraction of the signal-to-noise ratio that both counts together would have. `k` measures how
much the Planck function magnifies rounding errors, `c` how much interpolation does. -/
theorem C122_radiometry {u : ℝ} (h0 : 0 ≤ u) {env : Env} {s : RealSensor} {g : RealScene} {sc : Scenario} {near : Bool}
    {B : List (Fin 6 → ℝ)} (him : Imaging env s g sc near B) (htime : 0 < s.intTime) {k c : ℕ}
    (hs : s.WellConditioned k c B.length fun i => B.getD i 0 0) (hA : ∀ a ∈ B, ∀ j, 0 ≤ a j)
    (hk : ∀ a ∈ B, PlanckWithin k (a 0) 282 ∧ PlanckWithin k (a 0) 280) {order order' : SumTree}
    (ho : order.leaves.Perm (List.range (B.length - 1))) (ho' : order'.leaves.Perm (List.range s.otherNoise.length))
    {K : ℕ} (hK : K = 1752 + 18 * k + 36 * c + 6 * order.depth + order'.depth) (hKu : K * u < 1) {w : ℕ → ℝ} {t snr : ℝ}
    (hr : RadiometryComputed u order order' s B w t snr) :
    (∀ i < B.length, 0 ≤ s.spectral (B.getD i 0 0) (s.targetAt (B.getD i 0))
        ∧ |w i - s.spectral (B.getD i 0 0) (s.targetAt (B.getD i 0))|
          ≤ K * u / (1 - K * u) * s.spectral (B.getD i 0 0) (s.targetAt (B.getD i 0)))
      ∧ |t - s.exposure B| ≤ K * u / (1 - K * u) * s.exposure B
      ∧ |snr - s.contrastSNR B| ≤ K * u / (1 - K * u)
          * (s.cut B * (s.electrons B s.targetAt + s.electrons B s.backgroundAt) / s.noise B) := by
  have h1 := lt_one_of_mul (by omega) hKu h0
  obtain ⟨hS, hL, hM⟩ := imaging_known h0 him.wavelengths hs hA hk (by omega : k + 2 * c + 88 ≤ K) hKu
  obtain ⟨R, τ, T, N, n, e, r1, r2, r3, r4, r5, t1, t2, t3, a1, -, -, -, a5⟩ :=
    snr_rounded h0 hs.regular hS hL hM ho ho' (K := K) (by rw [hK]; ring) hKu
  obtain ⟨m, i1, i2, i3, i4, -⟩ := snr_imaging him.usable him.wavelengths him.well him.fill him.bits him.counts
  obtain ⟨c1, c2⟩ := imaging_counts him.usable him.wavelengths him.well him.fill him.bits him.counts htime.ne' e
  obtain rfl : m = R := Except.ok.inj (i1.symm.trans e)
  have v1 : s.exposure B = τ := XR.fin.inj (i2.symm.trans r1)
  have v2 : s.cut B * s.electrons B s.targetAt = T := XR.fin.inj (c1.symm.trans r2)
  have v3 : s.cut B * s.electrons B s.backgroundAt = N := XR.fin.inj (c2.symm.trans r3)
  have v4 : s.noise B = n := XR.fin.inj (i3.symm.trans r4)
  have v5 : s.contrastSNR B = (T - N) / n := XR.fin.inj (i4.symm.trans r5)
  refine ⟨fun i hi => ?_, ?_, ?_⟩
  · obtain ⟨p, wt, ex⟩ := weightExpr_spec hs.regular hS hL hi
    have hn := p.nonneg
    have nr := ((hr.weights i hi).near h0 h1 p).mono h0 h1 hn (show _ ≤ K by omega)
    rw [ex] at nr hn
    exact ⟨hn, nr.error h0 h1 hn hKu⟩
  · rw [v1]
    exact a1 _ hr.exposure
  · rw [v5, mul_add, v2, v3, v4]
    exact a5 _ hr.contrast

/-- Some computation exists: rounding every operation. -/
theorem radiometry_computed {u : ℝ} (h0 : 0 ≤ u) {fl : ℝ → ℝ} (hfl : ∀ x, Rnd u x (fl x)) {s : RealSensor} {B : List (Fin 6 → ℝ)}
    (hB : ∀ a ∈ B, 0 < a 0) {k c : ℕ} (hs : s.WellConditioned k c B.length fun i => B.getD i 0 0) (hA : ∀ a ∈ B, ∀ j, 0 ≤ a j)
    (hk : ∀ a ∈ B, PlanckWithin k (a 0) 282 ∧ PlanckWithin k (a 0) 280) {order order' : SumTree}
    (ho : order.leaves.Perm (List.range (B.length - 1))) (ho' : order'.leaves.Perm (List.range s.otherNoise.length))
    {K : ℕ} (hK : k + 2 * c + 88 ≤ K) (hKu : K * u < 1) : ∃ (w : ℕ → ℝ) (t snr : ℝ), RadiometryComputed u order order' s B w t snr := by
  have h1 := lt_one_of_mul (by omega) hKu h0
  obtain ⟨hS, hL, hM⟩ := imaging_known h0 hB hs hA hk hK hKu
  obtain ⟨pS, -⟩ := scaleExpr_spec hs.regular hS hL hM ho
  obtain ⟨⟨pT, -⟩, pB, -⟩ := countExpr_spec hs.regular hS hL hM ho
  obtain ⟨pN, -⟩ := noiseExpr_spec hs.regular hS hL hM ho ho'
  refine ⟨fun i => (s.weightExpr (s.computed fun i => B.getD i 0 0) (fun i => B.getD i 0 0)
      (fun i => s.targetRadianceExpr (B.getD i 0)) i).eval fl, _, _,
    fun i hi => Expr.eval_computed h0 h1 hfl (weightExpr_spec hs.regular hS hL hi).1,
    Expr.eval_computed h0 h1 hfl ⟨pS, hs.regular.time⟩,
    ⟨_, _, _, _, Expr.eval_computed h0 h1 hfl pT, Expr.eval_computed h0 h1 hfl pB, Expr.eval_computed h0 h1 hfl pN, hfl _, hfl _⟩⟩

variable {fl lgD cosD acosD : ℝ → ℝ} {L : MathLib} {interp : (ℕ → ℕ → ℝ) → ℝ → ℝ → ℝ}

/-- The weights that count, the exposure time and the contrast of a computation are within small factors of the exact ones. -/
theorem chain_within {u : ℝ} (h0 : 0 ≤ u) {env : Env} {s : RealSensor}
    {g : RealScene} {sc : Scenario} {near : Bool} {B : List (Fin 6 → ℝ)} (him : Imaging env s g sc near B) (htime : 0 < s.intTime)
    {k c : ℕ} (hs : s.WellConditioned k c B.length fun i => B.getD i 0 0) (hA : ∀ a ∈ B, ∀ j, 0 ≤ a j)
    (hk : ∀ a ∈ B, PlanckWithin k (a 0) 282 ∧ PlanckWithin k (a 0) 280) {order₁ order₂ : SumTree}
    (ho₁ : order₁.leaves.Perm (List.range (B.length - 1))) (ho₂ : order₂.leaves.Perm (List.range s.otherNoise.length))
    {K : ℕ} (hK : K = 1752 + 18 * k + 36 * c + 6 * order₁.depth + order₂.depth) (hKu : K * u ≤ 4e-9) {κ : ℝ}
    (hbright : s.electrons B s.backgroundAt < s.electrons B s.targetAt)
    (hκ : s.electrons B s.targetAt + s.electrons B s.backgroundAt ≤ κ * (s.electrons B s.targetAt - s.electrons B s.backgroundAt))
    (hfaint : K * u * κ ≤ 2.4e-4) {w : ℕ → ℝ} {t snr : ℝ} (hr : RadiometryComputed u order₁ order₂ s B w t snr) (hex : 0 < s.exposure B) :
    ∃ δw δt δs : ℝ, List.Forall₂ (fun p q : ℝ × ℝ => p.1 = q.1 ∧ WithinFactor δw p.2 q.2)
        (keptPairs B.length (fun i => B.getD i 0 0) w) (s.band B)
      ∧ WithinFactor δt t (s.exposure B) ∧ 11 * δt + 7 * δw ≤ 1.5e-7 ∧ WithinFactor δs snr (s.contrastSNR B) ∧ δs ≤ 5e-4 := by
  obtain ⟨g1, g2, g3⟩ := C122_radiometry h0 him htime hs hA hk ho₁ ho₂ hK (by linarith) hr
  have hKu0 : 0 ≤ K * u := by positivity
  have hε : K * u / (1 - K * u) ≤ 1.0001 * (K * u) := by
    rw [div_le_iff₀ (by linarith)]
    nlinarith
  have hε0 : 0 ≤ K * u / (1 - K * u) := div_nonneg hKu0 (by linarith)
  generalize K * u / (1 - K * u) = ε at *
  have hband : s.band B = ((List.range B.length).map fun i =>
      (B.getD i 0 0, s.spectral (B.getD i 0 0) (s.targetAt (B.getD i 0)))).filter fun p => 0 < p.2 := by
    unfold RealSensor.band
    conv_lhs => rw [map_eq_range B, List.map_map]
    rfl
  have hcut : 0 < s.cut B := by
    have := hex
    unfold RealSensor.exposure at this
    exact pos_of_mul_pos_left this htime.le
  have hnoise := noise_pos him.well him.fill him.bits him.counts
  have hcon : 0 < s.contrastSNR B := div_pos (mul_pos hcut (sub_pos.mpr hbright)) hnoise
  have hrel : s.cut B * (s.electrons B s.targetAt + s.electrons B s.backgroundAt) / s.noise B ≤ κ * s.contrastSNR B := by
    unfold RealSensor.contrastSNR
    rw [← mul_div_assoc, mul_left_comm]
    gcongr
  have hεκ : ε * κ ≤ 2.5e-4 := by
    rcases le_total 0 κ with hκ0 | hκ0
    · have := mul_le_mul_of_nonneg_right hε hκ0
      linarith
    · exact (mul_nonpos_of_nonneg_of_nonpos hε0 hκ0).trans (by norm_num)
  refine ⟨2 * ε, 2 * ε, 2 * (ε * κ), ?_, within_of_rel hex (by linarith) g2, by linarith, within_of_rel hcon (by linarith) ?_, by linarith⟩
  · rw [hband]
    exact kept_forall₂ hε0 (by linarith) _ (fun i hi => (g1 i (List.mem_range.mp hi)).1) fun i hi => (g1 i (List.mem_range.mp hi)).2
  · rw [mul_assoc]
    exact g3.trans (mul_le_mul_of_nonneg_left hrel hε0)

/-- **C122** (score). A whole rating in floating-point arithmetic: the radiances of target and background, the spectra of the
sensor, the weights, the exposure time and the signal-to-noise ratio with relative rounding errors up to `u` in every operation,
from there on - the wavelengths that count, the system MTF, its slices, the edge responses, the geometry and the equation - in
double precision. For an ordinary, well sampled scene (C121), with `K u` at most `4 10^-9` and a contrast that is not too faint
for the rounding errors (`κ` is the sum of the counts over their difference), an ordinary score is within 0.006 of the score of
the report in exact arithmetic. -/
theorem C122_score (hfl : RoundsToNearest fl) (hlib : Accurate lgD L.sin L.exp L.pow) (hc : IsCosine cosD) (ha : IsArccos acosD)
    (hL : MathLibrary L) (hT : TenthPower L) (hI : Interpolates interp) {u : ℝ} (h0 : 0 ≤ u) {env : Env} {s : RealSensor}
    {g : RealScene} {sc : Scenario} {near : Bool} {B : List (Fin 6 → ℝ)} (him : Imaging env s g sc near B) (htime : 0 < s.intTime)
    {k c : ℕ} (hs : s.WellConditioned k c B.length fun i => B.getD i 0 0) (hA : ∀ a ∈ B, ∀ j, 0 ≤ a j)
    (hk : ∀ a ∈ B, PlanckWithin k (a 0) 282 ∧ PlanckWithin k (a 0) 280) {order₁ order₂ : SumTree}
    (ho₁ : order₁.leaves.Perm (List.range (B.length - 1))) (ho₂ : order₂.leaves.Perm (List.range s.otherNoise.length))
    {K : ℕ} (hK : K = 1752 + 18 * k + 36 * c + 6 * order₁.depth + order₂.depth) (hKu : K * u ≤ 4e-9) {κ : ℝ}
    (hbright : s.electrons B s.backgroundAt < s.electrons B s.targetAt)
    (hκ : s.electrons B s.targetAt + s.electrons B s.backgroundAt ≤ κ * (s.electrons B s.targetAt - s.electrons B s.backgroundAt))
    (hfaint : K * u * κ ≤ 2.4e-4) {w : ℕ → ℝ} {t snr : ℝ} (hr : RadiometryComputed u order₁ order₂ s B w t snr)
    {order order' order'' : SumTree} {q : ℝ} (h : OrdinaryRating s g order (s.band B) (s.exposure B) q)
    (hframes : 0 < s.frameStacks) (ho : order'.leaves.Perm (List.range 9999)) (hr' : order'.depth ≤ 2000)
    (ho' : order''.leaves.Perm (List.range (sliceCountD fl 101 - 1))) (hr'' : order''.depth ≤ 600)
    (q1 : 0.01 ≤ s.pX / s.f * q) (q2 : s.pX / s.f * q ≤ 1) (q3 : 0.01 ≤ s.pY / s.f * q) (q4 : s.pY / s.f * q ≤ 1)
    (hfar : 1000 ≤ g.slant) (harea : 2000 ≤ g.groundRange * g.altitude) :
    ∃ (m : Metrics) (x y ru rv gw r : ℝ), (niirs5 env s.toSensor sc near).1 = .ok m ∧ m.niirs = .fin y
      ∧ m.giqe5 = some (.fin ru, .fin rv, .fin gw, .fin r)
      ∧ niirs5D fl lgD cosD acosD L interp order order' order'' s g (keptPairs B.length (fun i => B.getD i 0 0) w) t snr = .fin x
      ∧ |x - y| ≤ (3.3 + 1.4 * |lg r| + 3.6 * |lg r| ^ 3 + 1.9 / (Real.sqrt s.frameStacks * s.contrastSNR B)) * 0.0006
        + 2.1e-14 * (17 + 3.4 * |lg (gw / 0.0254)| + 3.4 * |lg r| + 2 * (1 + |lg r|) ^ 4
          + 1.8 / (Real.sqrt s.frameStacks * s.contrastSNR B))
      ∧ (0.1 ≤ r → r ≤ 10 → 1.9 ≤ Real.sqrt s.frameStacks * s.contrastSNR B → 1e-10 ≤ gw / 0.0254 → gw / 0.0254 ≤ 1e10 → |x - y| ≤ 0.006) := by
  obtain ⟨δw, δt, δs, w1, w2, w3, w4, w5⟩ := chain_within h0 him htime hs hA hk ho₁ ho₂ hK hKu hbright hκ hfaint hr h.exposed
  exact C121_well_sampled hfl hlib hc ha hL hT hI him h hframes w1 w2 w3 w4 w5 ho hr' ho' hr'' q1 q2 q3 q4 hfar harea

end PyBSM
