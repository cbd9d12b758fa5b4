import Verif.Props.Rounded

/-!
# C94: floating-point rounding in the spectra, and in the whole path from tables to the signal-to-noise ratio
-/

noncomputable section

open Classical

namespace PyBSM

open Spec

/-! ## Planck's law -/

theorem planckArg_pos {lam T : ℝ} (hl : 0 < lam) (hT : 0 < T) : 0 < planckArg lam T := by
  have := planckH_pos; have := lightC_pos; have := boltzmannK_pos
  unfold planckArg
  positivity

theorem blackbodyExpr_spec {u : ℝ} (h0 : 0 ≤ u) {lam T : ℝ} (hl : 0 < lam) (hT : 0 < T) {k : ℕ}
    (hk : PlanckWithin k lam T) (hu : k * u ≤ 1) :
    (blackbodyExpr lam T).Pos u ∧ (blackbodyExpr lam T).weight ≤ k ∧ (blackbodyExpr lam T).exact = planck lam T := by
  have hX := planckArg_pos hl hT
  have hh : 0 < hC := by rw [hC_eq]; exact planckH_pos
  have hc : 0 < cC := by rw [cC_eq]; exact lightC_pos
  have hb : 0 < kC := by rw [kC_eq]; exact boltzmannK_pos
  have eX : (planckArgExpr lam T).exact = planckArg lam T := by
    simp only [planckArgExpr, Expr.exact, planckArg, hC_eq, cC_eq, kC_eq]
  have wX : (planckArgExpr lam T).weight = 7 := rfl
  have pX : (planckArgExpr lam T).Pos u :=
    ⟨⟨hh.le, hc.le⟩, ⟨⟨hl.le, hb.le⟩, hT.le⟩, mul_pos (mul_pos hl hb) hT⟩
  unfold PlanckWithin at hk
  set X := planckArg lam T with hXd
  have hX' : 0 < 16 / X := by positivity
  have hP : X + 1 < Real.exp X := Real.add_one_lt_exp hX.ne'
  -- the factor of cancellation
  have hq : (Real.exp X + 1) / (Real.exp X - 1) ≤ 1 + 2 / X := by
    rw [div_le_iff₀ (by linarith)]
    have : 2 ≤ 2 / X * (Real.exp X - 1) := by
      rw [div_mul_eq_mul_div, le_div_iff₀ hX]
      linarith
    linarith
  have hq0 : 0 ≤ (Real.exp X + 1) / (Real.exp X - 1) := div_nonneg (by linarith) (by linarith)
  have wE : (Expr.exp (planckArgExpr lam T)).weight = ⌈14 * X⌉₊ + 1 := by
    simp only [Expr.weight, wX, eX]
    norm_num
  have hceil : (⌈14 * X⌉₊ : ℝ) ≤ 14 * X + 1 := (Nat.ceil_lt_add_one (by positivity)).le
  have bound : 4 * ((⌈14 * X⌉₊ + 1 : ℕ) : ℝ) * ((Real.exp X + 1) / (Real.exp X - 1)) ≤ 56 * X + 120 + 16 / X := by
    have h1 : ((⌈14 * X⌉₊ + 1 : ℕ) : ℝ) ≤ 14 * X + 2 := by push_cast; linarith
    calc 4 * ((⌈14 * X⌉₊ + 1 : ℕ) : ℝ) * ((Real.exp X + 1) / (Real.exp X - 1)) ≤ 4 * (14 * X + 2) * (1 + 2 / X) := by
          refine mul_le_mul (by linarith) hq hq0 (by positivity)
      _ = 56 * X + 120 + 16 / X := by field_simp; ring
  have hsmall : (56 * X + 132 + 16 / X) * u ≤ 1 := (mul_le_mul_of_nonneg_right hk h0).trans hu
  have pS : (Expr.sub (Expr.exp (planckArgExpr lam T)) (.val 1)).Pos u := by
    refine ⟨⟨pX, ?_⟩, zero_le_one, ?_, ?_⟩
    · rw [wX]; push_cast; nlinarith
    · show (1 : ℝ) < Real.exp (planckArgExpr lam T).exact
      rw [eX]; linarith
    · rw [wE]
      simp only [Expr.weight, Expr.exact, eX, Nat.max_zero]
      refine le_trans (mul_le_mul_of_nonneg_right bound h0) ?_
      nlinarith
  have wS : (Expr.sub (Expr.exp (planckArgExpr lam T)) (.val 1)).weight + 10 ≤ k := by
    have e : (Expr.sub (Expr.exp (planckArgExpr lam T)) (.val 1)).weight
        = ⌈4 * ((⌈14 * X⌉₊ + 1 : ℕ) : ℝ) * ((Real.exp X + 1) / (Real.exp X - 1))⌉₊ + 1 := by
      rw [Expr.weight, wE]
      simp only [Expr.weight, Expr.exact, eX, Nat.max_zero]
    rw [e]
    have h2 : (⌈4 * ((⌈14 * X⌉₊ + 1 : ℕ) : ℝ) * ((Real.exp X + 1) / (Real.exp X - 1))⌉₊ : ℝ) < k - 11 := by
      refine (Nat.ceil_lt_add_one (by positivity)).trans_le ?_
      linarith
    have h3 : ((⌈4 * ((⌈14 * X⌉₊ + 1 : ℕ) : ℝ) * ((Real.exp X + 1) / (Real.exp X - 1))⌉₊ + 11 : ℕ) : ℝ) < k := by
      push_cast at h2 ⊢; linarith
    have h4 : ⌈4 * ((⌈14 * X⌉₊ + 1 : ℕ) : ℝ) * ((Real.exp X + 1) / (Real.exp X - 1))⌉₊ + 11 < k := by exact_mod_cast h3
    omega
  have eS : (Expr.sub (Expr.exp (planckArgExpr lam T)) (.val 1)).exact = Real.exp X - 1 := by
    simp only [Expr.exact, eX]
  refine ⟨⟨⟨⟨⟨?_, hh.le⟩, hc.le, hc.le⟩, ?_, ?_⟩, zero_le_one, pS, ?_⟩, ?_, ?_⟩
  · exact (by norm_num : (0 : ℝ) ≤ 2)
  · exact (by positivity : (0 : ℝ) ≤ lam ^ 5)
  · exact (by positivity : (0 : ℝ) < lam ^ 5)
  · rw [eS]; linarith
  · have e : (blackbodyExpr lam T).weight = (Expr.sub (Expr.exp (planckArgExpr lam T)) (.val 1)).weight + 10 := by
      generalize hg : Expr.sub (Expr.exp (planckArgExpr lam T)) (.val 1) = S
      simp only [blackbodyExpr, hg, Expr.sq, Expr.weight]
      omega
    rw [e]
    exact wS
  · have e : (blackbodyExpr lam T).exact
        = (2 * hC * (cC * cC) / lam ^ 5) * (1 / (Expr.sub (Expr.exp (planckArgExpr lam T)) (.val 1)).exact) := rfl
    rw [e, eS, hC_eq, cC_eq, planck, ← planckArg, ← hXd]
    ring

/-- **C94** (`blackbody_radiance`). With any rounding errors up to `u` in every operation (also `exp` and the powers) the
computed Planck radiance has a relative error of at most `K u / (1 - K u)`, where `K` may be any number from
`56 X + 132 + 16 / X` on, `X = h c / (λ k T)`. -/
theorem C94_blackbody {u : ℝ} (h0 : 0 ≤ u) {lam T : ℝ} (hl : 0 < lam) (hT : 0 < T) {K : ℕ} (hK : PlanckWithin K lam T)
    (hKu : K * u < 1) {r : ℝ} (hr : (blackbodyExpr lam T).Computed u r) :
    ∃ b, blackbody (.fin lam) (.fin T) = .fin b ∧ 0 < b ∧ |r - b| ≤ K * u / (1 - K * u) * b := by
  obtain ⟨p, w, e⟩ := blackbodyExpr_spec h0 hl hT hK hKu.le
  have hK1 : 1 ≤ K := by
    have := planckArg_pos hl hT
    unfold PlanckWithin at hK
    have h2 : (1 : ℝ) ≤ K := by
      have : 0 < 16 / planckArg lam T := by positivity
      linarith
    exact_mod_cast h2
  have h1 := lt_one_of_mul hK1 hKu h0
  have hb : 0 < planck lam T := by
    have := exp_sub_one_pos hl hT
    have := planckH_pos; have := lightC_pos
    unfold planck; positivity
  refine ⟨_, blackbody_fin hl hT, hb, ?_⟩
  rw [← e]
  exact ((hr.near h0 h1 p).mono h0 h1 p.nonneg w).error h0 h1 p.nonneg hKu

/-! ## Self-emission -/

theorem shieldExpr_spec {u : ℝ} (h0 : 0 ≤ u) {lam T D f : ℝ} (hl : 0 < lam) (hT : 0 < T) (hD : 0 < D) (hf : D ≤ 2 * f)
    {k : ℕ} (hk : PlanckWithin k lam T) (hu : k * u ≤ 1) :
    (shieldExpr lam T D f).Pos u ∧ (shieldExpr lam T D f).weight ≤ k + 86
      ∧ (shieldExpr lam T D f).exact = (Real.pi - apertureFactor D f) * planck lam T := by
  obtain ⟨p, w, e⟩ := blackbodyExpr_spec h0 hl hT hk hu
  have hpi := Real.pi_pos
  have hf0 : 0 < f := by linarith
  set den : Expr := .add (.mul (.val 4) (.sq (.div (.val f) (.val D)))) (.val 1) with hden
  have eden : den.exact = 1 + 4 * (f / D) ^ 2 := by
    simp only [hden, Expr.sq, Expr.exact]; ring
  have wden : den.weight = 5 := rfl
  have hq : 1 ≤ 4 * (f / D) ^ 2 := by
    have : 1 / 2 ≤ f / D := by rw [le_div_iff₀ hD]; linarith
    nlinarith
  have pden : den.Pos u := by
    refine ⟨⟨?_, ⟨hf0.le, hD.le, hD⟩, hf0.le, hD.le, hD⟩, ?_⟩
    · exact (by norm_num : (0 : ℝ) ≤ 4)
    · exact zero_le_one
  set S : Expr := .sub (.lit Real.pi) (.div (.lit Real.pi) den) with hS
  have eS : S.exact = Real.pi - apertureFactor D f := by
    simp only [hS, Expr.exact, eden, apertureFactor]
  have hA : apertureFactor D f ≤ Real.pi / 2 := by
    unfold apertureFactor
    exact div_le_div_of_nonneg_left hpi.le (by norm_num) (by linarith)
  have hA0 : 0 < apertureFactor D f := by unfold apertureFactor; positivity
  have eD : (Expr.div (.lit Real.pi) den).exact = apertureFactor D f := by
    simp only [Expr.exact, eden, apertureFactor]
  have wD : (Expr.div (.lit Real.pi) den).weight = 7 := rfl
  have ratio : (Real.pi + apertureFactor D f) / (Real.pi - apertureFactor D f) ≤ 3 := by
    rw [div_le_iff₀ (by linarith)]; linarith
  have hk132 : (132 : ℝ) * u ≤ 1 := by
    unfold PlanckWithin at hk
    have := planckArg_pos hl hT
    have : 0 < 16 / planckArg lam T := by positivity
    have : (132 : ℝ) ≤ k := by linarith
    exact (mul_le_mul_of_nonneg_right this h0).trans hu
  have wmax : max (Expr.lit Real.pi).weight (Expr.div (.lit Real.pi) den).weight = 7 := rfl
  have pS : S.Pos u := by
    refine ⟨hpi.le, ⟨hpi.le, pden, ?_⟩, ?_, ?_⟩
    · rw [eden]; linarith
    · rw [eD]; show apertureFactor D f < Real.pi; linarith
    · rw [wmax, eD]
      show 4 * ((7 : ℕ) : ℝ) * ((Real.pi + apertureFactor D f) / (Real.pi - apertureFactor D f)) * u ≤ 1
      push_cast
      nlinarith
  have wS : S.weight ≤ 85 := by
    have e1 : S.weight = ⌈4 * ((7 : ℕ) : ℝ) * ((Real.pi + apertureFactor D f) / (Real.pi - apertureFactor D f))⌉₊ + 1 := by
      rw [hS, Expr.weight, wmax, eD]
      rfl
    rw [e1]
    have : ⌈4 * ((7 : ℕ) : ℝ) * ((Real.pi + apertureFactor D f) / (Real.pi - apertureFactor D f))⌉₊ ≤ 84 := by
      rw [Nat.ceil_le]
      push_cast
      linarith
    omega
  refine ⟨⟨pS, p⟩, ?_, ?_⟩
  · have : (shieldExpr lam T D f).weight = S.weight + (blackbodyExpr lam T).weight + 1 := rfl
    omega
  · have : (shieldExpr lam T D f).exact = S.exact * (blackbodyExpr lam T).exact := rfl
    rw [this, eS, e]

theorem emission_spec {u : ℝ} (h0 : 0 ≤ u) {s : RealSensor} (hs : s.Usable) (hp : s.Physical) (hD : 0 < s.D)
    (hf : s.D ≤ 2 * s.f) {lam : ℝ} (hl : 0 < lam) {k : ℕ} (hk1 : PlanckWithin k lam s.coldShieldTemperature)
    (hk2 : PlanckWithin k lam s.opticsTemperature) (hk3 : PlanckWithin k lam s.coldFilterTemperature) (hu : k * u ≤ 1) :
    (Expr.add (.add (shieldExpr lam s.coldShieldTemperature s.D s.f)
        (opticsExpr lam s.opticsTemperature s.opticsEmissivity s.coldFilterTransmission s.D s.f))
      (stopExpr lam s.coldFilterTemperature s.coldFilterEmissivity s.D s.f)).Pos u
    ∧ (Expr.add (.add (shieldExpr lam s.coldShieldTemperature s.D s.f)
        (opticsExpr lam s.opticsTemperature s.opticsEmissivity s.coldFilterTransmission s.D s.f))
      (stopExpr lam s.coldFilterTemperature s.coldFilterEmissivity s.D s.f)).weight ≤ k + 88
    ∧ (Expr.add (.add (shieldExpr lam s.coldShieldTemperature s.D s.f)
        (opticsExpr lam s.opticsTemperature s.opticsEmissivity s.coldFilterTransmission s.D s.f))
      (stopExpr lam s.coldFilterTemperature s.coldFilterEmissivity s.D s.f)).exact = s.selfAt lam := by
  obtain ⟨p1, w1, e1⟩ := shieldExpr_spec h0 hl hs.coldShield hD hf hk1 hu
  obtain ⟨q2, v2, d2⟩ := blackbodyExpr_spec h0 hl hs.optics hk2 hu
  obtain ⟨q3, v3, d3⟩ := blackbodyExpr_spec h0 hl hs.coldFilter hk3 hu
  have hf0 : 0 ≤ s.f := by linarith
  obtain ⟨p2, w2, e2⟩ := irradianceExpr_spec (u := u) hD hf0
    (L := .mul (.mul (.val s.coldFilterTransmission) (.val s.opticsEmissivity)) (blackbodyExpr lam s.opticsTemperature))
    ⟨⟨hp.coldFilter, hp.opticsEmissivity⟩, q2⟩
  obtain ⟨p3, w3, e3⟩ := irradianceExpr_spec (u := u) hD hf0
    (L := .mul (.val s.coldFilterEmissivity) (blackbodyExpr lam s.coldFilterTemperature)) ⟨hp.coldFilterEmissivity, q3⟩
  simp only [Expr.weight] at w2 w3
  simp only [Expr.exact] at e2 e3
  refine ⟨⟨⟨p1, p2⟩, p3⟩, ?_, ?_⟩
  · simp only [Expr.weight, opticsExpr, stopExpr, w2, w3]
    omega
  · simp only [Expr.exact, opticsExpr, stopExpr, e1, e2, e3, d2, d3, RealSensor.selfAt]

/-! ## Tables -/

theorem interpExpr_cases {tbl : List (ℝ × ℝ)} (hne : tbl ≠ []) (hinc : Increasing tbl) (x : ℝ) :
    ((∀ q ∈ tbl, x < q.1) ∧ interpExpr x tbl = .val 0) ∨ OnTable tbl x (interpExpr x tbl).exact
      ∨ ((∀ q ∈ tbl, q.1 < x) ∧ interpExpr x tbl = .val 0) := by
  induction tbl with
  | nil => exact absurd rfl hne
  | cons p t ih =>
    obtain ⟨a, ya⟩ := p
    cases t with
    | nil =>
      unfold interpExpr
      rcases lt_trichotomy x a with h | h | h
      · exact Or.inl ⟨by simpa using h, by rw [if_neg h.ne]⟩
      · exact Or.inr (Or.inl (Or.inl (by rw [if_pos h]; simp [Expr.exact, h])))
      · exact Or.inr (Or.inr ⟨by simpa using h, by rw [if_neg h.ne']⟩)
    | cons q t =>
      obtain ⟨b, yb⟩ := q
      unfold interpExpr
      have hinc' := List.pairwise_cons.mp hinc
      have hab : a < b := hinc'.1 (b, yb) (by simp)
      by_cases h1 : x < a
      · left
        refine ⟨?_, by rw [if_pos h1]⟩
        intro q hq
        rcases List.mem_cons.mp hq with rfl | hq
        · exact h1
        · exact h1.trans (hinc'.1 q hq)
      rw [if_neg h1]
      by_cases h2 : x = a
      · right; left
        rw [if_pos h2]
        left
        simp [Expr.exact, h2]
      rw [if_neg h2]
      have hax : a < x := lt_of_le_of_ne (not_lt.mp h1) (Ne.symm h2)
      by_cases h3 : x < b
      · right; left
        rw [if_pos h3]
        right
        refine ⟨0, a, ya, b, yb, rfl, rfl, hax, h3, ?_⟩
        simp only [Expr.exact, line]
        ring
      rw [if_neg h3]
      rcases ih (by simp) hinc'.2 with ⟨h, -⟩ | h | ⟨h, e⟩
      · exact absurd (h (b, yb) (by simp)) h3
      · right; left
        rcases h with h | ⟨i, a', ya', b', yb', h4, h5, h6⟩
        · exact Or.inl (List.mem_cons_of_mem _ h)
        · exact Or.inr ⟨i + 1, a', ya', b', yb', by simpa using h4, by simpa using h5, h6⟩
      · right; right
        refine ⟨?_, e⟩
        intro q hq
        rcases List.mem_cons.mp hq with rfl | hq
        · exact hax
        · exact h q hq

theorem interpExpr_exact {tbl : List (ℝ × ℝ)} (hne : tbl ≠ []) (hinc : Increasing tbl) (x : ℝ) :
    (interpExpr x tbl).exact = tableAt tbl x := by
  rcases interpExpr_cases hne hinc x with ⟨h, e⟩ | h | ⟨h, e⟩
  · rw [e, tableAt_off (Or.inl h)]; rfl
  · rw [tableAt_onTable hinc h]
  · rw [e, tableAt_off (Or.inr h)]; rfl

theorem interpExpr_pos {u : ℝ} (h0 : 0 ≤ u) {c : ℕ} (hc : c * u ≤ 1) (hu : 10 * u ≤ 1) {tbl : List (ℝ × ℝ)}
    (hinc : Increasing tbl) (hg : GentleTable c tbl) (x : ℝ) :
    (interpExpr x tbl).Pos u ∧ (interpExpr x tbl).weight ≤ c + 1 := by
  induction tbl with
  | nil => exact ⟨le_rfl, Nat.zero_le _⟩
  | cons p t ih =>
    obtain ⟨a, ya⟩ := p
    have hya : 0 < ya := hg.1 (a, ya) (by simp)
    cases t with
    | nil =>
      unfold interpExpr
      split_ifs
      · exact ⟨hya.le, Nat.zero_le _⟩
      · exact ⟨le_rfl, Nat.zero_le _⟩
    | cons q t =>
      obtain ⟨b, yb⟩ := q
      have hyb : 0 < yb := hg.1 (b, yb) (by simp)
      have hinc' := List.pairwise_cons.mp hinc
      have hab : a < b := hinc'.1 (b, yb) (by simp)
      have hch := List.isChain_cons_cons.mp hg.2
      have hstep : 20 * (|yb - ya| / min ya yb) ≤ (c : ℝ) := hch.1
      unfold interpExpr
      split_ifs with h1 h2 h3
      · exact ⟨le_rfl, Nat.zero_le _⟩
      · exact ⟨hya.le, Nat.zero_le _⟩
      · refine ⟨⟨hab, not_lt.mp h1, h3.le, hya, hyb, hu, (mul_le_mul_of_nonneg_right hstep h0).trans hc⟩, ?_⟩
        simp only [Expr.weight]
        have : ⌈20 * (|yb - ya| / min ya yb)⌉₊ ≤ c := Nat.ceil_le.mpr hstep
        omega
      · exact ih hinc'.2 ⟨fun p hp => hg.1 p (List.mem_cons_of_mem _ hp), hch.2⟩

theorem transExpr_spec {u : ℝ} (h0 : 0 ≤ u) {c : ℕ} (hc : c * u ≤ 1) (hu : 10 * u ≤ 1) {cold eta : ℝ} (hcold : 0 ≤ cold)
    (heta : eta ^ 2 < 1) (hec : 4 * ((1 + eta ^ 2) / (1 - eta ^ 2)) ≤ c) {tbl : List (ℝ × ℝ)} (hne : tbl ≠ [])
    (hinc : Increasing tbl) (hg : GentleTable c tbl) (x : ℝ) :
    (transExpr cold eta tbl x).Pos u ∧ (transExpr cold eta tbl x).weight ≤ 2 * c + 4
      ∧ (transExpr cold eta tbl x).exact = cold * (1 - eta ^ 2) * tableAt tbl x := by
  obtain ⟨p, w⟩ := interpExpr_pos h0 hc hu hinc hg x
  have pS : (Expr.sub (.val 1) (.lit (eta ^ 2))).Pos u := by
    refine ⟨zero_le_one, sq_nonneg _, heta, ?_⟩
    show 4 * ((1 : ℕ) : ℝ) * ((1 + eta ^ 2) / (1 - eta ^ 2)) * u ≤ 1
    push_cast
    rw [mul_one]
    exact (mul_le_mul_of_nonneg_right hec h0).trans hc
  have wS : (Expr.sub (.val 1) (.lit (eta ^ 2))).weight ≤ c + 1 := by
    have e : (Expr.sub (.val 1) (.lit (eta ^ 2))).weight = ⌈4 * ((1 : ℕ) : ℝ) * ((1 + eta ^ 2) / (1 - eta ^ 2))⌉₊ + 1 := rfl
    rw [e]
    have : ⌈4 * ((1 : ℕ) : ℝ) * ((1 + eta ^ 2) / (1 - eta ^ 2))⌉₊ ≤ c := by
      rw [Nat.ceil_le]
      push_cast
      rw [mul_one]
      exact hec
    omega
  refine ⟨⟨⟨hcold, pS⟩, p⟩, ?_, ?_⟩
  · have : (transExpr cold eta tbl x).weight
        = (0 + (Expr.sub (.val 1) (.lit (eta ^ 2))).weight + 1) + (interpExpr x tbl).weight + 1 := rfl
    omega
  · have : (transExpr cold eta tbl x).exact = cold * (1 - eta ^ 2) * (interpExpr x tbl).exact := rfl
    rw [this, interpExpr_exact hne hinc]

/-- **C94** (`resample_by_wavelength`). Interpolating in a table of positive values whose neighbouring values do not differ
much compared to the smaller one, with any rounding errors up to `u` in every operation, the relative error is at most
`(c + 1) u / (1 - (c + 1) u)`; `c` bounds twenty times the relative steps of the table. -/
theorem C94_interpolation {u : ℝ} (h0 : 0 ≤ u) {c : ℕ} (hc : 10 ≤ c) (hcu : ((c + 1 : ℕ) : ℝ) * u < 1)
    {tbl : List (ℝ × ℝ)} (hne : tbl ≠ []) (hinc : Increasing tbl) (hg : GentleTable c tbl) {x r : ℝ}
    (hr : (interpExpr x tbl).Computed u r) :
    ∃ v, resampleByWavelength (tbl.map fun p => .fin p.1) (tbl.map fun p => .fin p.2) [.fin x] = .ok [.fin v]
      ∧ |r - v| ≤ ((c + 1 : ℕ) : ℝ) * u / (1 - ((c + 1 : ℕ) : ℝ) * u) * v := by
  have hc' : (10 : ℝ) ≤ c := by exact_mod_cast hc
  push_cast at hcu
  obtain ⟨p, w⟩ := interpExpr_pos h0 (c := c) (by nlinarith) (by nlinarith) hinc hg x
  refine ⟨tableAt tbl x, ?_, ?_⟩
  · have := resample_vec hne hinc 1 fun _ => x
    simpa [vec, List.map_map, Function.comp_def] using this
  · have h1 : u < 1 := by nlinarith
    rw [← interpExpr_exact hne hinc]
    exact ((hr.near h0 h1 p).mono h0 h1 p.nonneg w).error h0 h1 p.nonneg (by push_cast; exact hcu)

/-! ## Scene radiance -/

theorem radianceExpr_spec {u : ℝ} (h0 : 0 ≤ u) {a : Fin 6 → ℝ} (ha : ∀ c, 0 ≤ a c) (hl : 0 < a 0) {ρ T : ℝ} (hρ : 0 ≤ ρ)
    (hρ1 : ρ ≤ 1) (hT : 0 < T) {k : ℕ} (hk : PlanckWithin k (a 0) T) (hu : k * u ≤ 1) :
    (radianceExpr a ρ T).Pos u ∧ (radianceExpr a ρ T).weight ≤ k + 6
      ∧ (radianceExpr a ρ T).exact = greyRadiance a ρ T := by
  obtain ⟨p, w, e⟩ := blackbodyExpr_spec h0 hl hT hk hu
  have hk132 : 132 ≤ k := by
    unfold PlanckWithin at hk
    have := planckArg_pos hl hT
    have : 0 < 16 / planckArg (a 0) T := by positivity
    have : (132 : ℝ) ≤ k := by linarith
    exact_mod_cast this
  refine ⟨⟨⟨⟨ha 2, ⟨sub_nonneg.mpr hρ1, p⟩, ha 1⟩, ha 4⟩, ha 5, hρ, ?_, ?_⟩, ?_, ?_⟩
  · exact (by norm_num : (0 : ℝ) ≤ 0.15)
  · exact (by norm_num : (0 : ℝ) < 0.15)
  · simp only [radianceExpr, Expr.weight]
    omega
  · simp only [radianceExpr, Expr.exact, e, greyRadiance]
    ring

/-! ## From the tables to the signal-to-noise ratio -/

/-- The camera, its temperatures and tables, and the temperatures of the scene, with the numbers that measure how much they
magnify rounding errors. -/
structure Spec.RealSensor.WellConditioned (s : RealSensor) (k c : ℕ) (n : ℕ) (wl : ℕ → ℝ) : Prop where
  regular : s.Regular n wl
  physical : s.Physical
  fNumber : s.D ≤ 2 * s.f
  shield : ∀ i < n, PlanckWithin k (wl i) s.coldShieldTemperature
  optics : ∀ i < n, PlanckWithin k (wl i) s.opticsTemperature
  filter : ∀ i < n, PlanckWithin k (wl i) s.coldFilterTemperature
  open_ : s.eta ^ 2 < 1
  obscuration : 4 * ((1 + s.eta ^ 2) / (1 - s.eta ^ 2)) ≤ c
  transmission : GentleTable c s.transmission
  efficiency : GentleTable c s.qe

theorem known_computed {u : ℝ} (h0 : 0 ≤ u) {s : RealSensor} {k c n : ℕ} {wl : ℕ → ℝ} (h : s.WellConditioned k c n wl)
    {j : ℕ} (hj : k + 2 * c + 88 ≤ j) (hju : j * u ≤ 1) : KnownSpectra u j n s wl (s.computed wl) := by
  have le : ∀ {m : ℕ}, m ≤ j → (m : ℝ) * u ≤ 1 := fun hm =>
    (mul_le_mul_of_nonneg_right (by exact_mod_cast hm) h0).trans hju
  have hk : (k : ℝ) * u ≤ 1 := le (by omega)
  have hc : (c : ℝ) * u ≤ 1 := le (by omega)
  have h10 : (10 : ℝ) * u ≤ 1 := by exact_mod_cast le (m := 10) (by omega)
  refine ⟨fun i hi => ?_, fun i hi => ?_, fun i hi => ?_⟩
  · obtain ⟨p, w, e⟩ := transExpr_spec h0 hc h10 h.physical.coldFilter h.open_ h.obscuration
      h.regular.usable.transmission_ne h.regular.usable.transmission_inc h.transmission (wl i)
    exact ⟨p, w.trans (by omega), e⟩
  · obtain ⟨p, w⟩ := interpExpr_pos h0 hc h10 h.regular.usable.qe_inc h.efficiency (wl i)
    exact ⟨p, w.trans (by omega), interpExpr_exact h.regular.usable.qe_ne h.regular.usable.qe_inc _⟩
  · obtain ⟨p, w, e⟩ := emission_spec h0 h.regular.usable h.physical h.regular.aperture h.fNumber
      (h.regular.positive i hi) (h.shield i hi) (h.optics i hi) (h.filter i hi) hk
    exact ⟨p, w.trans (by omega), e⟩

/-- **C94** (from tables and atmosphere to the signal-to-noise ratio). The spectra of scene and camera are computed in
floating-point arithmetic too: for atmosphere rows `A`, a target of reflectance `ρ` and temperature `T` before a background
of reflectance `ρ'` and temperature `T'`, what `photon_detector_SNR` computes from `total_radiance` with any rounding errors
up to `u` in every operation and any order of summation is within `K u / (1 - K u)` of exact arithmetic. `k` bounds the
rounding errors of the Planck function, `c` those of interpolation. -/
theorem C94_snr {u : ℝ} (h0 : 0 ≤ u) {s : RealSensor} {k c n : ℕ} {A : ℕ → Fin 6 → ℝ}
    (hs : s.WellConditioned k c n fun i => A i 0) (hA : ∀ i < n, ∀ b, 0 ≤ A i b) {ρ T ρ' T' : ℝ} (hρ : 0 ≤ ρ) (hρ1 : ρ ≤ 1)
    (hT : 0 < T) (hρ' : 0 ≤ ρ') (hρ1' : ρ' ≤ 1) (hT' : 0 < T') (hk : ∀ i < n, PlanckWithin k (A i 0) T)
    (hk' : ∀ i < n, PlanckWithin k (A i 0) T') {order order' : SumTree}
    (ho : order.leaves.Perm (List.range (n - 1))) (ho' : order'.leaves.Perm (List.range s.otherNoise.length))
    {K : ℕ} (hK : K = 1752 + 18 * k + 36 * c + 6 * order.depth + order'.depth) (hKu : K * u < 1) :
    (∃ l m : ℕ → ℝ, totalRadiance (vecAtm n A) (.fin ρ) (.fin T) = vec n l
      ∧ totalRadiance (vecAtm n A) (.fin ρ') (.fin T') = vec n m
      ∧ s.AccurateTo u (K * u / (1 - K * u)) n (fun i => A i 0) order order' (s.computed fun i => A i 0)
          (fun i => radianceExpr (A i) ρ T) (fun i => radianceExpr (A i) ρ' T') l m) := by
  have hl := hs.regular.positive
  refine ⟨_, _, totalRadiance_vec hl ρ hT, totalRadiance_vec hl ρ' hT', ?_⟩
  have hju : ((k + 2 * c + 88 : ℕ) : ℝ) * u ≤ 1 :=
    (mul_le_mul_of_nonneg_right (by exact_mod_cast (by omega : k + 2 * c + 88 ≤ K)) h0).trans hKu.le
  have hku : (k : ℝ) * u ≤ 1 :=
    (mul_le_mul_of_nonneg_right (by exact_mod_cast (by omega : k ≤ K)) h0).trans hKu.le
  refine snr_rounded h0 hs.regular (known_computed h0 hs le_rfl hju) ?_ ?_ ho ho' (by rw [hK]; ring) hKu
  · intro i hi
    obtain ⟨p, w, e⟩ := radianceExpr_spec h0 (hA i hi) (hl i hi) hρ hρ1 hT (hk i hi) hku
    exact ⟨p, w.trans (by omega), e⟩
  · intro i hi
    obtain ⟨p, w, e⟩ := radianceExpr_spec h0 (hA i hi) (hl i hi) hρ' hρ1' hT' (hk' i hi) hku
    exact ⟨p, w.trans (by omega), e⟩

/-! ## Examples -/

theorem planckArg_eq {lam T : ℝ} (hl : 0 < lam) (hT : 0 < T) :
    planckArg lam T = 6.62607004e-34 * 299792458 / 1.38064852e-23 / (lam * T) := by
  unfold planckArg planckH lightC boltzmannK
  field_simp

theorem planckWithin_of {lam T a b : ℝ} (ha : 0 < a) (h1 : a ≤ lam * T) (h2 : lam * T ≤ b) (hl : 0 < lam) (hT : 0 < T)
    {k : ℕ} (hk : 56 * (0.01439 / a) + 132 + 16 / (0.01438 / b) ≤ k) : PlanckWithin k lam T := by
  unfold PlanckWithin
  rw [planckArg_eq hl hT]
  have hp : 0 < lam * T := mul_pos hl hT
  have hb : 0 < b := hp.trans_le h2
  have e1 : (6.62607004e-34 * 299792458 / 1.38064852e-23 : ℝ) ≤ 0.01439 := by norm_num
  have e2 : (0.01438 : ℝ) ≤ 6.62607004e-34 * 299792458 / 1.38064852e-23 := by norm_num
  have g1 : (6.62607004e-34 * 299792458 / 1.38064852e-23 : ℝ) / (lam * T) ≤ 0.01439 / a := by gcongr
  have g2 : (0.01438 : ℝ) / b ≤ 6.62607004e-34 * 299792458 / 1.38064852e-23 / (lam * T) := by gcongr
  have g3 : 16 / ((6.62607004e-34 * 299792458 / 1.38064852e-23 : ℝ) / (lam * T)) ≤ 16 / (0.01438 / b) :=
    div_le_div_of_nonneg_left (by norm_num) (by positivity) g2
  linarith

/-- At 10 µm and 300 K doubles give the Planck radiance to 13 digits. -/
example {r : ℝ} (hr : (blackbodyExpr 1e-5 300).Computed ((2 : ℝ) ^ (-53 : ℤ)) r) :
    ∃ b, blackbody (.fin 1e-5) (.fin 300) = .fin b ∧ 0 < b ∧ |r - b| ≤ 1e-13 * b := by
  have hu : (2 : ℝ) ^ (-53 : ℤ) = 1 / 9007199254740992 := by norm_num
  obtain ⟨b, h, hb, hr⟩ := C94_blackbody (K := 410) (by positivity) (by norm_num) (by norm_num)
    (planckWithin_of (a := 0.003) (b := 0.003) (by norm_num) (by norm_num) (by norm_num) (by norm_num) (by norm_num)
      (by norm_num)) (by rw [hu]; norm_num) hr
  refine ⟨b, h, hb, hr.trans (mul_le_mul_of_nonneg_right ?_ hb.le)⟩
  rw [hu]
  norm_num

theorem demoWl_range {i : ℕ} (hi : i < 5) : 3e-6 ≤ demoWl i ∧ demoWl i ≤ 5e-6 := by
  have h1 : (i : ℝ) ≤ 4 := by exact_mod_cast Nat.lt_succ_iff.mp hi
  have h2 : (0 : ℝ) ≤ i := Nat.cast_nonneg i
  unfold demoWl
  constructor <;> linarith

/-- From 70 K on the Planck function magnifies rounding errors at most 4000 times in this band. -/
theorem demo_planck {T : ℝ} (h1 : 70 ≤ T) (h2 : T ≤ 400) : ∀ i < 5, PlanckWithin 4000 (demoWl i) T := by
  intro i hi
  obtain ⟨h3, h4⟩ := demoWl_range hi
  refine planckWithin_of (a := 2.1e-4) (b := 2e-3) (by norm_num) ?_ ?_ (demoWl_pos i) (by linarith) (by norm_num)
  · calc (2.1e-4 : ℝ) = 3e-6 * 70 := by norm_num
      _ ≤ _ := by gcongr
  · calc demoWl i * T ≤ 5e-6 * 400 := by gcongr
      _ = _ := by norm_num

theorem demo_gentle : GentleTable 10 demoSensor.transmission ∧ GentleTable 10 demoSensor.qe := by
  have g : ∀ {x y : ℝ}, 0 < x → 0 < y → x ≤ 1.5 * y → y ≤ 1.5 * x → 20 * (|y - x| / min x y) ≤ ((10 : ℕ) : ℝ) := by
    intro x y hx hy h1 h2
    have hm : 0 < min x y := lt_min hx hy
    have : |y - x| / min x y ≤ 1 / 2 := by
      rw [div_le_iff₀ hm]
      rcases le_total x y with h | h
      · rw [min_eq_left h, abs_of_nonneg (by linarith)]; linarith
      · rw [min_eq_right h, abs_of_nonpos (by linarith)]; linarith
    push_cast
    linarith
  constructor
  · refine ⟨?_, ?_⟩
    · intro p hp
      simp only [demoSensor, List.mem_cons, List.not_mem_nil, or_false] at hp
      rcases hp with rfl | rfl | rfl <;> norm_num
    · simp only [demoSensor, List.isChain_cons_cons, List.isChain_singleton, and_true]
      exact ⟨g (by norm_num) (by norm_num) (by norm_num) (by norm_num),
        g (by norm_num) (by norm_num) (by norm_num) (by norm_num)⟩
  · refine ⟨?_, ?_⟩
    · intro p hp
      simp only [demoSensor, List.mem_cons, List.not_mem_nil, or_false] at hp
      rcases hp with rfl | rfl <;> norm_num
    · simp only [demoSensor, List.isChain_cons_cons, List.isChain_singleton, and_true]
      exact g (by norm_num) (by norm_num) (by norm_num) (by norm_num)

/-- The hypotheses of `C94_interpolation` hold: a wavelength between two points of the demo camera's transmission. -/
example {r : ℝ} (hr : (interpExpr 3.3e-6 demoSensor.transmission).Computed ((2 : ℝ) ^ (-53 : ℤ)) r) :
    ∃ v, resampleByWavelength (demoSensor.transmission.map fun p => .fin p.1)
        (demoSensor.transmission.map fun p => .fin p.2) [.fin 3.3e-6] = .ok [.fin v]
      ∧ |r - v| ≤ ((10 + 1 : ℕ) : ℝ) * (2 : ℝ) ^ (-53 : ℤ) / (1 - ((10 + 1 : ℕ) : ℝ) * (2 : ℝ) ^ (-53 : ℤ)) * v :=
  C94_interpolation (by positivity) le_rfl (by norm_num) demoSensor_usable.transmission_ne
    demoSensor_usable.transmission_inc demo_gentle.1 hr

theorem demo_conditioned : demoSensor.WellConditioned 4000 10 5 demoWl where
  regular := demo_regular
  physical := demoSensor_physical
  fNumber := by norm_num [demoSensor]
  shield := demo_planck (by norm_num [demoSensor]) (by norm_num [demoSensor])
  optics := demo_planck (by norm_num [demoSensor]) (by norm_num [demoSensor])
  filter := demo_planck (by norm_num [demoSensor]) (by norm_num [demoSensor])
  open_ := by norm_num [demoSensor]
  obscuration := by norm_num [demoSensor]
  transmission := demo_gentle.1
  efficiency := demo_gentle.2

/-- The demo camera looking at a target of 310 K before a background of 290 K through any atmosphere: from tables and
temperatures to counts, noise and signal-to-noise ratio, doubles are right to a relative error of 1e-11. -/
example {A : ℕ → Fin 6 → ℝ} (hA : ∀ i < 5, ∀ b, 0 ≤ A i b) (hwl' : (fun i => A i 0) = demoWl) :
    ∃ l m : ℕ → ℝ, totalRadiance (vecAtm 5 A) (.fin 0.15) (.fin 310) = vec 5 l
      ∧ totalRadiance (vecAtm 5 A) (.fin 0.1) (.fin 290) = vec 5 m
      ∧ ∃ (R : SNRMetrics) (T : ℝ), photonDetectorSNR demoSensor.toSensor (vec 5 demoWl) (vec 5 l) (vec 5 m) = .ok R
        ∧ R.tgtN = .fin T
        ∧ ∀ r, (demoSensor.targetExpr (SumTree.sequential 4) (demoSensor.computed demoWl) demoWl
            (fun i => radianceExpr (A i) 0.15 310) (fun i => radianceExpr (A i) 0.1 290)).Computed
              ((2 : ℝ) ^ (-53 : ℤ)) r → |r - T| ≤ 1e-11 * T := by
  have hu : (2 : ℝ) ^ (-53 : ℤ) = 1 / 9007199254740992 := by norm_num
  obtain ⟨l, m, h1, h2, R, τ, T, B, N, h, -, hT, -, -, -, hT0, -, -, -, ht, -⟩ :=
    C94_snr (u := (2 : ℝ) ^ (-53 : ℤ)) (s := demoSensor) (k := 4000) (c := 10) (n := 5) (A := A) (ρ := 0.15) (T := 310)
      (ρ' := 0.1) (T' := 290) (order := SumTree.sequential 4) (order' := SumTree.sequential 2) (by positivity)
      (by rw [hwl']; exact demo_conditioned) hA (by norm_num) (by norm_num) (by norm_num) (by norm_num) (by norm_num)
      (by norm_num) (fun i hi => by rw [congrFun hwl' i]; exact demo_planck (by norm_num) (by norm_num) i hi)
      (fun i hi => by rw [congrFun hwl' i]; exact demo_planck (by norm_num) (by norm_num) i hi)
      (by rw [SumTree.sequential_leaves]) (by rw [SumTree.sequential_leaves]; rfl) rfl
      (by rw [SumTree.sequential_depth, SumTree.sequential_depth, hu]; norm_num)
  rw [hwl'] at h ht
  refine ⟨l, m, h1, h2, R, T, h, hT, fun r hr => (ht r hr).trans (mul_le_mul_of_nonneg_right ?_ hT0)⟩
  rw [SumTree.sequential_depth, SumTree.sequential_depth, hu]
  norm_num

end PyBSM
