import Verif.Lemmas.Sensor

/-!
# C15, C16, C17, C21 - C24: radiometry
-/

noncomputable section

open Classical

namespace PyBSM

open Spec

/-! ## C15 -/

/-- **C15** (Planck's law). -/
theorem C15_planck {lam T : ℝ} (hl : 0 < lam) (hT : 0 < T) :
    blackbody (.fin lam) (.fin T) = .fin (planck lam T) := blackbody_fin hl hT

/-- **C15** (positive and strictly increasing in temperature). -/
theorem C15_increasing {lam T T' : ℝ} (hl : 0 < lam) (hT : 0 < T) (h : T < T') :
    ∃ b b', blackbody (.fin lam) (.fin T) = .fin b ∧ blackbody (.fin lam) (.fin T') = .fin b'
      ∧ 0 < b ∧ b < b' :=
  ⟨_, _, blackbody_fin hl hT, blackbody_fin hl (hT.trans h), planck_pos hl hT, planck_lt hl hT h⟩

/-- **C15** (Wien scaling). -/
theorem C15_wien {lam T a : ℝ} (hl : 0 < lam) (hT : 0 < T) (ha : 0 < a) :
    ∃ b, blackbody (.fin lam) (.fin T) = .fin b
      ∧ blackbody (.fin (a * lam)) (.fin (T / a)) = .fin (b / a ^ 5) := by
  refine ⟨_, blackbody_fin hl hT, ?_⟩
  rw [blackbody_fin (by positivity) (by positivity), XR.fin_inj]
  unfold planck
  have : a * lam * boltzmannK * (T / a) = lam * boltzmannK * T := by
    field_simp
  rw [this, mul_pow, div_div, div_div, div_div]
  congr 1; ring

/-- **C15** (absolute zero emits nothing). -/
theorem C15_zero_temperature {lam : ℝ} (hl : 0 < lam) : blackbody (.fin lam) (.fin 0) = .fin 0 :=
  blackbody_zero_temp hl

/-- **C15** (a zero wavelength gives NaN). -/
theorem C15_zero_wavelength {T : ℝ} : blackbody (.fin 0) (.fin T) = .nan := by
  unfold blackbody
  rw [hC_eq, cC_eq, kC_eq]
  xr_simp
  rw [zero_pow (by norm_num), zero_mul, zero_mul, XR.fin_div_zero, XR.fin_div_zero]
  have p1 := planckH_pos
  have p2 := lightC_pos
  have h1 : XR.mulInf (2 * planckH * lightC ^ 2) = .pinf := by
    have : 0 < 2 * planckH * lightC ^ 2 := by positivity
    simp [XR.mulInf, this]
  have h2 : XR.mulInf (planckH * lightC) = .pinf := by
    have : 0 < planckH * lightC := by positivity
    simp [XR.mulInf, this]
  rw [h1, h2]
  show XR.pinf * (XR.fin 1 / (XR.pinf - XR.fin 1)) = _
  rw [show XR.pinf - XR.fin 1 = XR.pinf from rfl, show XR.fin 1 / XR.pinf = XR.fin 0 from rfl]
  show XR.mulInf 0 = _
  simp [XR.mulInf]

example : ∃ b b', blackbody (.fin 10e-6) (.fin 280) = .fin b ∧
    blackbody (.fin 10e-6) (.fin 282) = .fin b' ∧ 0 < b ∧ b < b' :=
  C15_increasing (by norm_num) (by norm_num) (by norm_num)

/-! ## C16 -/

/-- **C16** (value). -/
theorem C16_value {D f : Scal} {d fl : ℝ} (hD : D.val = .fin d) (hf : f.val = .fin fl) (hd : d ≠ 0)
    (n : ℕ) (L : ℕ → ℝ) :
    atFocalPlaneIrradiance D f (vec n L)
      = .ok (vec n fun i => Real.pi / (1 + 4 * (fl / d) ^ 2) * L i) := atFocal_vec hD hf hd n L

/-- **C16** (linear in the radiance). -/
theorem C16_linear {D f : Scal} {d fl : ℝ} (hD : D.val = .fin d) (hf : f.val = .fin fl) (hd : d ≠ 0)
    (n : ℕ) (L M : ℕ → ℝ) (a b : ℝ) :
    ∃ E F : ℕ → ℝ, atFocalPlaneIrradiance D f (vec n L) = .ok (vec n E)
      ∧ atFocalPlaneIrradiance D f (vec n M) = .ok (vec n F)
      ∧ atFocalPlaneIrradiance D f (vec n fun i => a * L i + b * M i)
        = .ok (vec n fun i => a * E i + b * F i) := by
  refine ⟨_, _, C16_value hD hf hd n L, C16_value hD hf hd n M, ?_⟩
  rw [C16_value hD hf hd]
  congr 1
  apply vec_congr
  intro i _; ring

/-- **C16** (physical bounds). -/
theorem C16_bounds {D f : Scal} {d fl : ℝ} (hD : D.val = .fin d) (hf : f.val = .fin fl) (hd : d ≠ 0)
    (n : ℕ) (L : ℕ → ℝ) (hL : ∀ i < n, 0 ≤ L i) :
    ∃ E : ℕ → ℝ, atFocalPlaneIrradiance D f (vec n L) = .ok (vec n E)
      ∧ ∀ i < n, 0 ≤ E i ∧ E i ≤ Real.pi * L i := by
  refine ⟨_, C16_value hD hf hd n L, fun i hi => ?_⟩
  have h1 := Real.pi_pos
  have h2 := one_add_pos (fl / d)
  have h3 := hL i hi
  refine ⟨by positivity, ?_⟩
  apply mul_le_mul_of_nonneg_right _ h3
  rw [div_le_iff₀ h2]
  nlinarith [sq_nonneg (fl / d)]

/-- **C16** (strictly decreasing with focal length, strictly increasing with aperture). -/
theorem C16_f_number {d fl d' fl' l : ℝ} (hd : 0 < d) (hfl : 0 < fl) (hl : 0 < l) :
    (fl < fl' → ∃ e e', atFocalPlaneIrradiance (.py (.fin d)) (.py (.fin fl)) [.fin l] = .ok [.fin e]
      ∧ atFocalPlaneIrradiance (.py (.fin d)) (.py (.fin fl')) [.fin l] = .ok [.fin e'] ∧ e' < e)
    ∧ (d < d' → ∃ e e', atFocalPlaneIrradiance (.py (.fin d)) (.py (.fin fl)) [.fin l] = .ok [.fin e]
      ∧ atFocalPlaneIrradiance (.py (.fin d')) (.py (.fin fl)) [.fin l] = .ok [.fin e'] ∧ e < e') := by
  have key : ∀ d fl : ℝ, 0 < d → atFocalPlaneIrradiance (.py (.fin d)) (.py (.fin fl)) [.fin l]
      = .ok [.fin (Real.pi / (1 + 4 * (fl / d) ^ 2) * l)] := fun d fl hd =>
    C16_value (D := .py (.fin d)) (f := .py (.fin fl)) rfl rfl hd.ne' 1 (fun _ => l)
  have mono : ∀ a b : ℝ, 0 ≤ a → a < b →
      Real.pi / (1 + 4 * b ^ 2) * l < Real.pi / (1 + 4 * a ^ 2) * l := by
    intro a b ha hab
    apply mul_lt_mul_of_pos_right _ hl
    apply div_lt_div_of_pos_left Real.pi_pos (one_add_pos a)
    nlinarith
  constructor
  · intro h
    refine ⟨_, _, key d fl hd, key d fl' hd, mono _ _ (by positivity) ?_⟩
    exact div_lt_div_of_pos_right h hd
  · intro h
    refine ⟨_, _, key d fl hd, key d' fl (hd.trans h), mono _ _ (by have := hd.trans h; positivity) ?_⟩
    exact div_lt_div_of_pos_left hfl hd h

/-- **C16** (the exception). -/
theorem C16_zero_aperture (D f : Scal) (L : List XR) (e : PyErr) :
    atFocalPlaneIrradiance D f L = .error e ↔
      e = .zeroDivisionError ∧ f.IsPy ∧ D.IsPy ∧ XR.eq D.val 0 := by
  rw [← Scal.div_error_iff]
  constructor
  · exact atFocal_error
  · intro h
    unfold atFocalPlaneIrradiance
    simp [h, bind, Except.bind]

example : atFocalPlaneIrradiance (.py 0) (.py 1) [1] = .error .zeroDivisionError := by
  rw [C16_zero_aperture]
  exact ⟨rfl, trivial, trivial, rfl⟩

/-- **C16** (energy balance). The cold shield and a cold stop of the same temperature and unit
emissivity together send exactly the hemispherical black-body emission `pi * B` to the detector. -/
theorem C16_hemisphere {D f : Scal} {d fl : ℝ} (hD : D.val = .fin d) (hf : f.val = .fin fl) (hd : d ≠ 0)
    {n : ℕ} {lam : ℕ → ℝ} (hl : ∀ i < n, 0 < lam i) {T : ℝ} (hT : 0 < T) :
    ∃ a b : ℕ → ℝ, coldShieldSelfEmission (vec n lam) (.fin T) D f = .ok (vec n a)
      ∧ coldStopSelfEmission (vec n lam) (.fin T) (.fin 1) D f = .ok (vec n b)
      ∧ ∀ i < n, a i + b i = Real.pi * planck (lam i) T := by
  refine ⟨fun i => (Real.pi - apertureFactor d fl) * planck (lam i) T,
    fun i => apertureFactor d fl * (1 * planck (lam i) T), ?_, ?_, ?_⟩
  · unfold coldShieldSelfEmission
    obtain ⟨c, h1, h2⟩ := Scal.div_fin hf hD hd
    simp only [h1, bind, Except.bind, h2]
    rw [blackbodyRadiance_vec hl hT, vec_map (g := fun b => (Real.pi - apertureFactor d fl) * b)]
    intro b
    xr_simp
    rw [XR.fin_div _ (by positivity)]
    xr_simp
    unfold apertureFactor
    rw [add_comm]
  · unfold coldStopSelfEmission
    rw [blackbodyRadiance_vec hl hT, vec_map (g := fun b => 1 * b) (fun x => by xr_simp),
      atFocal_vec hD hf hd]
  · intro i _; simp only; ring

/-! ## C17 -/

/-- **C17.** -/
theorem C17_value {total limit : Scal} {t m : ℝ} (ht : total.val = .fin t) (hm : limit.val = .fin m)
    (hne : t ≠ 0 ∨ 0 ≤ m) :
    ∃ s : Scal, checkWellFill total limit = .ok s
      ∧ s.val = .fin (if t ≤ m then 1 else m / t) := by
  unfold checkWellFill
  rw [ht, hm]
  simp only [XR.fin_lt]
  by_cases h : m < t
  · have h0 : t ≠ 0 := by
      rcases hne with h' | h'
      · exact h'
      · linarith
    obtain ⟨c, h1, h2⟩ := Scal.div_fin hm ht h0
    exact ⟨c, by rw [if_pos h, h1], by rw [h2, if_neg (not_le.mpr h)]⟩
  · exact ⟨.py 1, by rw [if_neg h], by rw [if_pos (not_lt.mp h)]; rfl⟩

/-- **C17** (the scaled count is clipped to the limit). -/
theorem C17_clips {total limit : Scal} {t m : ℝ} (ht : total.val = .fin t) (hm : limit.val = .fin m)
    (hpos : 0 < t) :
    ∃ (s : Scal) (x : ℝ), checkWellFill total limit = .ok s ∧ s.val = .fin x ∧ x * t = min t m
      ∧ (0 ≤ m → 0 ≤ x ∧ x ≤ 1) := by
  obtain ⟨s, h1, h2⟩ := C17_value ht hm (Or.inl hpos.ne')
  refine ⟨s, _, h1, h2, ?_, ?_⟩
  · split_ifs with h
    · rw [one_mul, min_eq_left h]
    · rw [div_mul_cancel₀ _ hpos.ne', min_eq_right (not_le.mp h).le]
  · intro h0
    split_ifs with h
    · exact ⟨zero_le_one, le_rfl⟩
    · exact ⟨by positivity, (div_le_one hpos).mpr (not_le.mp h).le⟩

/-- **C17** (no count, whatever its sign, is scaled by more than one for a nonnegative limit). -/
theorem C17_scale_range {total limit : Scal} {t m : ℝ} (ht : total.val = .fin t)
    (hm : limit.val = .fin m) (h0 : 0 ≤ m) :
    ∃ (s : Scal) (x : ℝ), checkWellFill total limit = .ok s ∧ s.val = .fin x ∧ 0 ≤ x ∧ x ≤ 1 := by
  obtain ⟨s, h1, h2⟩ := C17_value ht hm (Or.inr h0)
  refine ⟨s, _, h1, h2, ?_⟩
  split_ifs with h
  · exact ⟨zero_le_one, le_rfl⟩
  · have : 0 < t := lt_of_le_of_lt h0 (not_le.mp h)
    exact ⟨by positivity, (div_le_one this).mpr (not_le.mp h).le⟩

example : ∃ (s : Scal) (x : ℝ), checkWellFill (.np (.fin 300)) (.py (.fin 100)) = .ok s
    ∧ s.val = .fin x ∧ x * 300 = min 300 100 ∧ ((0 : ℝ) ≤ 100 → 0 ≤ x ∧ x ≤ 1) :=
  C17_clips rfl rfl (by norm_num)

/-! ## C21 -/

/-- **C21.** For an increasing table, one finite value per new wavelength: on the table (a table
point or on the segment between two neighbours) inside it, and 0 outside. -/
theorem C21_resample {tbl : List (ℝ × ℝ)} (hne : tbl ≠ []) (hinc : Increasing tbl) (news : List ℝ) :
    ∃ vals : List ℝ,
      resampleByWavelength ((tbl.map (·.1)).map .fin) ((tbl.map (·.2)).map .fin) (news.map .fin)
        = .ok (vals.map .fin)
      ∧ List.Forall₂ (fun x y =>
          (∀ y', OnTable tbl x y' → y = y')
          ∧ ((∀ q ∈ tbl, x < q.1) ∨ (∀ q ∈ tbl, q.1 < x) → y = 0)
          ∧ (OnTable tbl x y ∨ y = 0 ∧ ((∀ q ∈ tbl, x < q.1) ∨ (∀ q ∈ tbl, q.1 < x)))) news vals := by
  rw [resample_eq hne]
  have hex : ∀ x : ℝ, ∃ y, interpTable (.fin x) 0 0 (tbl.map finP) = .fin y ∧
      (∀ y', OnTable tbl x y' → y = y')
          ∧ ((∀ q ∈ tbl, x < q.1) ∨ (∀ q ∈ tbl, q.1 < x) → y = 0)
          ∧ (OnTable tbl x y ∨ y = 0 ∧ ((∀ q ∈ tbl, x < q.1) ∨ (∀ q ∈ tbl, q.1 < x))) := by
    intro x
    have hin : ∀ {y}, OnTable tbl x y → ¬ ((∀ q ∈ tbl, x < q.1) ∨ (∀ q ∈ tbl, q.1 < x)) := by
      intro y h
      obtain ⟨⟨q, hq, hq'⟩, ⟨r, hr, hr'⟩⟩ := h.between
      rintro (h | h)
      · linarith [h q hq]
      · linarith [h r hr]
    rcases interpTable_fin x 0 0 hne hinc with ⟨e, h⟩ | ⟨y, e, h⟩ | ⟨e, h⟩
    · exact ⟨0, e, fun y' h' => absurd (Or.inl h) (hin h'), fun _ => rfl, Or.inr ⟨rfl, Or.inl h⟩⟩
    · exact ⟨y, e, fun y' h' => h.unique hinc h', fun h' => absurd h' (hin h), Or.inl h⟩
    · exact ⟨0, e, fun y' h' => absurd (Or.inr h) (hin h'), fun _ => rfl, Or.inr ⟨rfl, Or.inr h⟩⟩
  choose g hg1 hg2 using hex
  refine ⟨news.map g, ?_, ?_⟩
  · rw [List.map_map]
    congr 1
    apply List.map_congr_left
    intro x _
    exact hg1 x
  · rw [List.forall₂_map_right_iff]
    exact List.forall₂_same.mpr fun x _ => hg2 x

/-- **C21** (never leaves the table's range, except for the zero outside). -/
theorem C21_range {tbl : List (ℝ × ℝ)} (hne : tbl ≠ []) (hinc : Increasing tbl) (news : List ℝ)
    {m M : ℝ} (hm : m ≤ 0) (hM : 0 ≤ M) (hb : ∀ q ∈ tbl, m ≤ q.2 ∧ q.2 ≤ M) :
    ∃ vals : List ℝ,
      resampleByWavelength ((tbl.map (·.1)).map .fin) ((tbl.map (·.2)).map .fin) (news.map .fin)
        = .ok (vals.map .fin) ∧ vals.length = news.length ∧ ∀ y ∈ vals, m ≤ y ∧ y ≤ M := by
  obtain ⟨vals, h1, h2⟩ := C21_resample hne hinc news
  refine ⟨vals, h1, h2.length_eq.symm, ?_⟩
  intro y hy
  obtain ⟨i, hi, e⟩ := List.mem_iff_getElem.mp hy
  have hi' : i < news.length := by rw [h2.length_eq]; exact hi
  have := (List.forall₂_iff_get.mp h2).2 i hi' hi
  simp only [List.get_eq_getElem] at this
  rw [e] at this
  rcases this.2.2 with h | ⟨h, -⟩
  · exact h.range hb
  · rw [h]; exact ⟨hm, hM⟩

/-- **C21** (bad tables). -/
theorem C21_bad_table (wl vals news : List XR) (h : wl = [] ∨ wl.length ≠ vals.length) :
    resampleByWavelength wl vals news = .error .valueError := by
  unfold resampleByWavelength npInterp
  rw [if_pos h]

example : Increasing [((4e-7 : ℝ), (0.2 : ℝ)), (5e-7, 0.9), (7e-7, 0.4)] := by
  unfold Increasing
  simp
  norm_num

/-! ## C22 -/

/-- **C22** (value). For spectra of any length: the trapezoid integral of the spectral detection
rate, plus the dark current; the irradiance and the spectral rate are reported as well. -/
theorem C22_value {D f : Scal} {d fl : ℝ} (hD : D.val = .fin d) (hf : f.val = .fin fl) (hd : d ≠ 0)
    (n : ℕ) (wl L t qe o : ℕ → ℝ) (wx wy dark : ℝ) :
    signalRate (vec n wl) (vec n L) (vec n t) D f (.fin wx) (.fin wy) (vec n qe) (vec n o) (.fin dark)
      = .ok (.fin (trap n wl (fun i => spectralRate d fl wx wy (wl i) (L i) (t i) (qe i) (o i)) + dark),
          vec n (fun i => t i * (apertureFactor d fl * L i) + o i),
          vec n fun i => spectralRate d fl wx wy (wl i) (L i) (t i) (qe i) (o i)) :=
  signalRate_vec hD hf hd n wl L t qe o wx wy dark

/-- **C22** (affine in the radiance). -/
theorem C22_affine {D f : Scal} {d fl : ℝ} (hD : D.val = .fin d) (hf : f.val = .fin fl) (hd : d ≠ 0)
    (n : ℕ) (wl L M t qe o : ℕ → ℝ) (wx wy dark c : ℝ) :
    ∃ r s u : ℝ, ∃ x y z,
      signalRate (vec n wl) (vec n L) (vec n t) D f (.fin wx) (.fin wy) (vec n qe) (vec n o) (.fin dark)
        = .ok (.fin r, x)
      ∧ signalRate (vec n wl) (vec n M) (vec n t) D f (.fin wx) (.fin wy) (vec n qe) (vec n o) (.fin dark)
        = .ok (.fin s, y)
      ∧ signalRate (vec n wl) (vec n fun i => (1 - c) * L i + c * M i) (vec n t) D f (.fin wx) (.fin wy)
          (vec n qe) (vec n o) (.fin dark) = .ok (.fin u, z)
      ∧ u = (1 - c) * r + c * s := by
  refine ⟨_, _, _, _, _, _, C22_value hD hf hd .., C22_value hD hf hd .., C22_value hD hf hd .., ?_⟩
  have : ∀ i, spectralRate d fl wx wy (wl i) ((1 - c) * L i + c * M i) (t i) (qe i) (o i)
      = (1 - c) * spectralRate d fl wx wy (wl i) (L i) (t i) (qe i) (o i)
        + c * spectralRate d fl wx wy (wl i) (M i) (t i) (qe i) (o i) := by
    intro i; unfold spectralRate; ring
  simp only [this, trap_add, trap_smul]
  ring

/-- **C22** (monotone in the radiance, nonnegative for nonnegative spectra). -/
theorem C22_monotone {D f : Scal} {d fl : ℝ} (hD : D.val = .fin d) (hf : f.val = .fin fl) (hd : d ≠ 0)
    {n : ℕ} {wl L M t qe o : ℕ → ℝ} {wx wy dark : ℝ} (hwl : ∀ i, i + 1 < n → wl i ≤ wl (i + 1))
    (hpos : ∀ i < n, 0 ≤ wl i ∧ 0 ≤ t i ∧ 0 ≤ qe i ∧ 0 ≤ o i) (hw : 0 ≤ wx * wy) (hdark : 0 ≤ dark)
    (hL : ∀ i < n, 0 ≤ L i ∧ L i ≤ M i) :
    ∃ r s : ℝ, ∃ x y,
      signalRate (vec n wl) (vec n L) (vec n t) D f (.fin wx) (.fin wy) (vec n qe) (vec n o) (.fin dark)
        = .ok (.fin r, x)
      ∧ signalRate (vec n wl) (vec n M) (vec n t) D f (.fin wx) (.fin wy) (vec n qe) (vec n o) (.fin dark)
        = .ok (.fin s, y)
      ∧ 0 ≤ r ∧ r ≤ s := by
  refine ⟨_, _, _, _, C22_value hD hf hd .., C22_value hD hf hd .., ?_, ?_⟩
  · apply add_nonneg _ hdark
    apply trap_nonneg hwl
    intro i hi
    obtain ⟨h1, h2, h3, h4⟩ := hpos i hi
    have := planckH_pos; have := lightC_pos; have := Real.pi_pos; have := one_add_pos (fl / d)
    have := (hL i hi).1
    unfold spectralRate apertureFactor
    positivity
  · apply add_le_add_left
    apply trap_mono hwl
    intro i hi
    obtain ⟨h1, h2, h3, h4⟩ := hpos i hi
    have := planckH_pos; have := lightC_pos; have := Real.pi_pos; have := one_add_pos (fl / d)
    have := (hL i hi).2
    unfold spectralRate
    apply mul_le_mul_of_nonneg_left _ (by positivity)
    have h5 : apertureFactor d fl * L i ≤ apertureFactor d fl * M i :=
      mul_le_mul_of_nonneg_left this (by unfold apertureFactor; positivity)
    have := mul_le_mul_of_nonneg_left h5 h2
    linarith

/-- Lengths of operands that broadcast, and of the result. -/
theorem bc2_ok_length {f : XR → XR → XR} {xs ys zs : List XR} (h : bc2 f xs ys = .ok zs) :
    (xs.length = ys.length ∨ xs.length = 1 ∨ ys.length = 1)
    ∧ zs.length = if xs.length = 1 then ys.length else xs.length := by
  by_cases hl : xs.length = ys.length
  · rw [bc2_eq hl] at h
    cases h
    refine ⟨.inl hl, ?_⟩
    simp only [List.length_zipWith]
    split_ifs <;> omega
  · by_cases hy : ys.length = 1
    · obtain ⟨y, rfl⟩ := List.length_eq_one_iff.mp hy
      rw [bc2_single] at h
      cases h
      refine ⟨.inr (.inr hy), ?_⟩
      simp only [List.length_map, List.length_cons, List.length_nil]
      split_ifs <;> omega
    · by_cases hx : xs.length = 1
      · obtain ⟨x, rfl⟩ := List.length_eq_one_iff.mp hx
        unfold bc2 at h
        rw [if_neg hl] at h
        cases h
        exact ⟨.inr (.inl hx), by simp⟩
      · rw [bc2_mismatch hl hx hy] at h
        cases h

/-- A successful `signal_rate` had spectra that broadcast. -/
theorem signalRate_lengths {D f : Scal} {wl L t qe o : List XR} {wx wy dark : XR} {r}
    (h : signalRate wl L t D f wx wy qe o dark = .ok r) :
    ∀ a ∈ [wl.length, L.length, t.length, qe.length, o.length],
      ∀ b ∈ [wl.length, L.length, t.length, qe.length, o.length], a = b ∨ a = 1 ∨ b = 1 := by
  unfold signalRate atFocalPlaneIrradiance photonDetectionRate at h
  cases h0 : Scal.div f D with
  | error e => simp [h0, bind, Except.bind] at h
  | ok c =>
    simp only [h0, bind, Except.bind] at h
    split at h
    · cases h
    rename_i te h1
    split at h
    · cases h
    rename_i irr h2
    split at h
    · cases h
    rename_i dN h3
    split at h3
    · cases h3
    rename_i a h4
    have l1 := bc2_ok_length h1
    have l2 := bc2_ok_length h2
    have l3 := bc2_ok_length h3
    have l4 := bc2_ok_length h4
    simp only [List.length_map] at l1 l2 l3 l4
    obtain ⟨l1, m1⟩ := l1
    obtain ⟨l2, m2⟩ := l2
    obtain ⟨l3, m3⟩ := l3
    obtain ⟨l4, m4⟩ := l4
    simp only [List.mem_cons, List.not_mem_nil, or_false]
    clear h h0 h1 h2 h3 h4
    generalize wl.length = x1 at *
    generalize L.length = x2 at *
    generalize t.length = x3 at *
    generalize qe.length = x4 at *
    generalize o.length = x5 at *
    split_ifs at m1 m2 m3 m4 <;>
    rintro a (rfl | rfl | rfl | rfl | rfl) b (rfl | rfl | rfl | rfl | rfl) <;> omega

/-- Apart from a division by zero, `signal_rate` only raises `ValueError`. -/
theorem signalRate_error {D f : Scal} (hdiv : ¬ (f.IsPy ∧ D.IsPy ∧ XR.eq D.val 0))
    {wl L t qe o : List XR} {wx wy dark : XR} {e : PyErr}
    (h : signalRate wl L t D f wx wy qe o dark = .error e) : e = .valueError := by
  unfold signalRate atFocalPlaneIrradiance photonDetectionRate at h
  obtain ⟨c, e1, -⟩ := Scal.div_ok hdiv
  simp only [e1, bind, Except.bind] at h
  split at h
  · rename_i h1; cases h; exact bc2_error h1
  split at h
  · rename_i h1; cases h; exact bc2_error h1
  split at h
  · rename_i h1
    cases h
    split at h1
    · rename_i h2; cases h1; exact bc2_error h2
    · exact bc2_error h1
  split at h
  · rename_i h1; cases h; exact trapz_error h1
  · cases h

/-- **C22** (mismatched lengths). If any two of the five spectra have different lengths, neither of
them 1 (numpy repeats arrays of length 1), the call raises `ValueError`. -/
theorem C22_mismatch {D f : Scal} (hdiv : ¬ (f.IsPy ∧ D.IsPy ∧ XR.eq D.val 0)) {wl L t qe o : List XR}
    {wx wy dark : XR} {a b : ℕ} (ha : a ∈ [wl.length, L.length, t.length, qe.length, o.length])
    (hb : b ∈ [wl.length, L.length, t.length, qe.length, o.length]) (h : a ≠ b) (h1 : a ≠ 1)
    (h2 : b ≠ 1) : signalRate wl L t D f wx wy qe o dark = .error .valueError := by
  cases hr : signalRate wl L t D f wx wy qe o dark with
  | error e => rw [signalRate_error hdiv hr]
  | ok r =>
    rcases signalRate_lengths hr a ha b hb with h' | h' | h' <;> contradiction

example : signalRate [1, 1] [1, 1] [1, 1] (.py 1) (.py 1) 1 1 [1, 1, 1] [0] 0 = .error .valueError := by
  refine C22_mismatch (a := 2) (b := 3) ?_ (by simp) (by simp) (by simp) (by simp) (by simp)
  rintro ⟨-, -, h⟩
  have : (1 : ℝ) = 0 := h
  norm_num at this

/-! ## C23 -/

/-- **C23** (value). -/
theorem C23_value {n : ℕ} {A : ℕ → Fin 6 → ℝ} (hl : ∀ i < n, 0 < A i 0) (r : ℝ) {T : ℝ} (hT : 0 < T) :
    totalRadiance (vecAtm n A) (.fin r) (.fin T)
      = vec n fun i => A i 2 + (1 - r) * A i 1 * planck (A i 0) T + A i 4 + A i 5 * r / 0.15 :=
  totalRadiance_vec hl r hT

/-- **C23** (affine in reflectance). -/
theorem C23_affine {n : ℕ} {A : ℕ → Fin 6 → ℝ} (hl : ∀ i < n, 0 < A i 0) {T : ℝ} (hT : 0 < T)
    (r s c : ℝ) :
    ∃ x y z : ℕ → ℝ, totalRadiance (vecAtm n A) (.fin r) (.fin T) = vec n x
      ∧ totalRadiance (vecAtm n A) (.fin s) (.fin T) = vec n y
      ∧ totalRadiance (vecAtm n A) (.fin ((1 - c) * r + c * s)) (.fin T) = vec n z
      ∧ ∀ i < n, z i = (1 - c) * x i + c * y i := by
  refine ⟨_, _, _, C23_value hl r hT, C23_value hl s hT, C23_value hl _ hT, fun i _ => ?_⟩
  ring

/-- **C23** (where it increases with reflectance). -/
theorem C23_monotone_reflectance {n : ℕ} {A : ℕ → Fin 6 → ℝ} (hl : ∀ i < n, 0 < A i 0) {T : ℝ}
    (hT : 0 < T) {r s : ℝ} (hrs : r < s) :
    ∃ x y : ℕ → ℝ, totalRadiance (vecAtm n A) (.fin r) (.fin T) = vec n x
      ∧ totalRadiance (vecAtm n A) (.fin s) (.fin T) = vec n y
      ∧ ∀ i < n, (x i < y i ↔ A i 1 * planck (A i 0) T < A i 5 / 0.15) := by
  refine ⟨_, _, C23_value hl r hT, C23_value hl s hT, fun i _ => ?_⟩
  have h : (A i 2 + (1 - s) * A i 1 * planck (A i 0) T + A i 4 + A i 5 * s / 0.15)
      - (A i 2 + (1 - r) * A i 1 * planck (A i 0) T + A i 4 + A i 5 * r / 0.15)
      = (s - r) * (A i 5 / 0.15 - A i 1 * planck (A i 0) T) := by ring
  have hpos : 0 < s - r := sub_pos.mpr hrs
  constructor
  · intro hlt
    have : 0 < (s - r) * (A i 5 / 0.15 - A i 1 * planck (A i 0) T) := by rw [← h]; linarith
    have := (pos_iff_pos_of_mul_pos this).mp hpos
    linarith
  · intro hlt
    have : 0 < (s - r) * (A i 5 / 0.15 - A i 1 * planck (A i 0) T) := mul_pos hpos (by linarith)
    linarith

/-- **C23** (increasing in temperature for reflectance at most one). -/
theorem C23_monotone_temperature {n : ℕ} {A : ℕ → Fin 6 → ℝ} (hl : ∀ i < n, 0 < A i 0)
    (ht : ∀ i < n, 0 ≤ A i 1) {T T' r : ℝ} (hT : 0 < T) (hTT : T < T') (hr : r ≤ 1) :
    ∃ x y : ℕ → ℝ, totalRadiance (vecAtm n A) (.fin r) (.fin T) = vec n x
      ∧ totalRadiance (vecAtm n A) (.fin r) (.fin T') = vec n y
      ∧ ∀ i < n, x i ≤ y i ∧ (r < 1 → 0 < A i 1 → x i < y i) := by
  refine ⟨_, _, C23_value hl r hT, C23_value hl r (hT.trans hTT), fun i hi => ?_⟩
  have h1 := planck_lt (hl i hi) hT hTT
  have h2 := ht i hi
  constructor
  · have := mul_le_mul_of_nonneg_left h1.le (mul_nonneg (sub_nonneg.mpr hr) h2)
    linarith
  · intro h3 h4
    have := mul_lt_mul_of_pos_left h1 (mul_pos (sub_pos.mpr h3) h4)
    linarith

/-- **C23** (nonnegative for physical reflectances and atmospheres). -/
theorem C23_nonneg {n : ℕ} {A : ℕ → Fin 6 → ℝ} (hl : ∀ i < n, 0 < A i 0)
    (hA : ∀ i < n, 0 ≤ A i 1 ∧ 0 ≤ A i 2 ∧ 0 ≤ A i 4 ∧ 0 ≤ A i 5) {T r : ℝ} (hT : 0 < T)
    (hr0 : 0 ≤ r) (hr1 : r ≤ 1) :
    ∃ x : ℕ → ℝ, totalRadiance (vecAtm n A) (.fin r) (.fin T) = vec n x ∧ ∀ i < n, 0 ≤ x i := by
  refine ⟨_, C23_value hl r hT, fun i hi => ?_⟩
  obtain ⟨h1, h2, h3, h4⟩ := hA i hi
  have h5 := planck_pos (hl i hi) hT
  have h6 : 0 ≤ 1 - r := by linarith
  have : 0 ≤ A i 5 * r / 0.15 := by positivity
  positivity

/-- **C23** (at the database's reflectance 0.15 the reflected column counts once). -/
theorem C23_database_reflectance {n : ℕ} {A : ℕ → Fin 6 → ℝ} (hl : ∀ i < n, 0 < A i 0) {T : ℝ}
    (hT : 0 < T) :
    totalRadiance (vecAtm n A) (.fin 0.15) (.fin T)
      = vec n fun i => A i 2 + 0.85 * A i 1 * planck (A i 0) T + A i 4 + A i 5 := by
  rw [C23_value hl _ hT]
  apply vec_congr
  intro i _
  ring

/-! ## C24 -/

/-- **C24** (reflective). -/
theorem C24_reflective {n : ℕ} {A : ℕ → Fin 6 → ℝ} (hl : ∀ i < n, 0 < A i 0) :
    giqeRadiance (vecAtm n A) false
      = (vec n (fun i => greyRadiance (A i) 0.15 282), vec n fun i => greyRadiance (A i) 0.07 280) := by
  unfold giqeRadiance
  rw [← totalRadiance_vec hl 0.15 (by norm_num : (0 : ℝ) < 282),
    ← totalRadiance_vec hl 0.07 (by norm_num : (0 : ℝ) < 280)]
  rfl

/-- **C24** (emissive). -/
theorem C24_emissive {n : ℕ} {A : ℕ → Fin 6 → ℝ} (hl : ∀ i < n, 0 < A i 0) :
    giqeRadiance (vecAtm n A) true
      = (vec n (fun i => greyRadiance (A i) 0 282), vec n fun i => greyRadiance (A i) 0 280) := by
  unfold giqeRadiance
  rw [← totalRadiance_vec hl 0 (by norm_num : (0 : ℝ) < 282),
    ← totalRadiance_vec hl 0 (by norm_num : (0 : ℝ) < 280)]
  rfl

/-- **C24** (the emissive target is never dimmer than the background). -/
theorem C24_emissive_contrast {n : ℕ} {A : ℕ → Fin 6 → ℝ} (hl : ∀ i < n, 0 < A i 0)
    (ht : ∀ i < n, 0 ≤ A i 1) :
    ∃ x y : ℕ → ℝ, giqeRadiance (vecAtm n A) true = (vec n x, vec n y) ∧ ∀ i < n, y i ≤ x i := by
  refine ⟨_, _, C24_emissive hl, fun i hi => ?_⟩
  have h1 := planck_lt (T := 280) (T' := 282) (hl i hi) (by norm_num) (by norm_num)
  have := mul_le_mul_of_nonneg_left h1.le (ht i hi)
  unfold greyRadiance
  linarith

example : ∃ A : ℕ → Fin 6 → ℝ, (∀ i < 3, 0 < A i 0) ∧ ∀ i < 3, 0 ≤ A i 1 ∧ 0 ≤ A i 2 ∧ 0 ≤ A i 4 ∧ 0 ≤ A i 5 :=
  ⟨fun i => ![(i + 1) * 1e-6, 0.5, 1, 1, 1, 1], fun i _ => by
    show 0 < ((i : ℝ) + 1) * 1e-6; positivity, fun i _ =>
    ⟨by show (0 : ℝ) ≤ 0.5; norm_num, by show (0 : ℝ) ≤ 1; norm_num, by show (0 : ℝ) ≤ 1; norm_num,
      by show (0 : ℝ) ≤ 1; norm_num⟩⟩

end PyBSM
