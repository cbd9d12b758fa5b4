import Verif.Model.Simulation
import Verif.Lemmas.Scal
import Verif.Lemmas.Arr
import Verif.Lemmas.Sensor
import Mathlib.Algebra.Order.Chebyshev

/-!
# C49, C50, C64–C68: defocus radii, dark current, sensor defaults, Wiener filter, noise, field of view
-/

noncomputable section

open Classical

namespace PyBSM

open Spec

/-! ## C49 -/

theorem object_radii_value {d r r0 : ℝ} (hr : r ≠ 0) (hr0 : r0 ≠ 0) {D R R0 : Scal}
    (h1 : D.val = .fin d) (h2 : R.val = .fin r) (h3 : R0.val = .fin r0) :
    objectDomainDefocusRadii D R R0 = .ok (.fin (0.62 * d * (1 / r - 1 / r0))) := by
  obtain ⟨a, ha, hav⟩ := Scal.div_fin (a := .py 1) (x := 1) rfl h2 hr
  obtain ⟨b, hb, hbv⟩ := Scal.div_fin (a := .py 1) (x := 1) rfl h3 hr0
  unfold objectDomainDefocusRadii
  rw [ha, ok_bind, hb, ok_bind, hav, hbv, h1]
  xr_simp

theorem image_radii_value {d z f : ℝ} (hf : f ≠ 0) {D dz F : Scal}
    (h1 : D.val = .fin d) (h2 : dz.val = .fin z) (h3 : F.val = .fin f) :
    imageDomainDefocusRadii D dz F = .ok (.fin (0.62 * d * z / f ^ 2)) := by
  obtain ⟨q, hq, hv⟩ := Scal.div_fin (a := Scal.py 0.62 * D * dz) (b := F ^ 2) (x := 0.62 * d * z) (y := f ^ 2)
    (by rw [Scal.val_mul, Scal.val_mul, h1, h2]; simp only [Scal.val_py]; xr_simp)
    (by rw [Scal.val_pow, h3]; rfl) (by positivity)
  unfold imageDomainDefocusRadii
  rw [hq, ok_bind, hv]

/-- **C49** (object domain): linear in the aperture, zero exactly when the object is at the focus range,
negated when object and focus ranges are exchanged. -/
theorem C49_object_domain {r r0 : ℝ} (hr : r ≠ 0) (hr0 : r0 ≠ 0) {R R0 : Scal}
    (h2 : R.val = .fin r) (h3 : R0.val = .fin r0) :
    ∃ w : ℝ → ℝ, (∀ (d : ℝ) (D : Scal), D.val = .fin d → objectDomainDefocusRadii D R R0 = .ok (.fin (w d)))
      ∧ (∀ d, w d = d * w 1)
      ∧ (∀ d, d ≠ 0 → (w d = 0 ↔ r = r0))
      ∧ (∀ (d : ℝ) (D : Scal), D.val = .fin d → objectDomainDefocusRadii D R0 R = .ok (.fin (-w d))) := by
  refine ⟨fun d => 0.62 * d * (1 / r - 1 / r0), fun d D h => object_radii_value hr hr0 h h2 h3, ?_, ?_, ?_⟩
  · intro d; ring
  · intro d hd
    constructor
    · intro h
      have h' : 1 / r - 1 / r0 = 0 := by
        rcases mul_eq_zero.mp h with h | h
        · rcases mul_eq_zero.mp h with h | h
          · norm_num at h
          · exact absurd h hd
        · exact h
      field_simp at h'
      linarith
    · intro h; rw [h]; ring
  · intro d D h
    rw [object_radii_value hr0 hr h h3 h2]
    congr 2; ring

/-- **C49** (image domain): linear in the aperture and in the displacement, zero exactly in focus. -/
theorem C49_image_domain {f : ℝ} (hf : f ≠ 0) {F : Scal} (h3 : F.val = .fin f) :
    ∃ w : ℝ → ℝ → ℝ,
      (∀ (d z : ℝ) (D dz : Scal), D.val = .fin d → dz.val = .fin z → imageDomainDefocusRadii D dz F = .ok (.fin (w d z)))
      ∧ (∀ d z, w d z = d * z * w 1 1) ∧ (∀ d z, d ≠ 0 → (w d z = 0 ↔ z = 0)) := by
  refine ⟨fun d z => 0.62 * d * z / f ^ 2, fun d z D dz h1 h2 => image_radii_value hf h1 h2 h3, ?_, ?_⟩
  · intro d z; ring
  · intro d z hd
    simp only
    rw [div_eq_zero_iff]
    constructor
    · rintro (h | h)
      · rcases mul_eq_zero.mp h with h | h
        · rcases mul_eq_zero.mp h with h | h
          · norm_num at h
          · exact absurd h hd
        · exact h
      · exact absurd h (by positivity)
    · intro h; left; rw [h]; ring

/-- **C49** (agreement): an image-plane displacement of `f^2 (1/R - 1/R0)` blurs exactly as focusing at `R0`
an object at `R`. -/
theorem C49_agree {d r r0 f : ℝ} (hr : r ≠ 0) (hr0 : r0 ≠ 0) (hf : f ≠ 0) {D R R0 F dz : Scal}
    (h1 : D.val = .fin d) (h2 : R.val = .fin r) (h3 : R0.val = .fin r0) (h4 : F.val = .fin f)
    (h5 : dz.val = .fin (f ^ 2 * (1 / r - 1 / r0))) :
    imageDomainDefocusRadii D dz F = objectDomainDefocusRadii D R R0 := by
  rw [object_radii_value hr hr0 h1 h2 h3, image_radii_value hf h1 h5 h4]
  congr 2; field_simp

/-- **C49** (errors): zero Python ranges, zero Python focal length. -/
theorem C49_zero_division (D R R0 : Scal) (dz F : Scal) (e : PyErr) :
    (objectDomainDefocusRadii D R R0 = .error e ↔ e = .zeroDivisionError
      ∧ ((R.IsPy ∧ XR.eq R.val 0) ∨ (R0.IsPy ∧ XR.eq R0.val 0)))
    ∧ (imageDomainDefocusRadii D dz F = .error e ↔ e = .zeroDivisionError
      ∧ D.IsPy ∧ dz.IsPy ∧ F.IsPy ∧ XR.eq (F.val ^ 2) 0) := by
  constructor
  · have ha := Scal.div_error_iff (.py 1) R
    have hb := Scal.div_error_iff (.py 1) R0
    unfold objectDomainDefocusRadii
    cases h1 : (Scal.py 1).div R with
    | error e1 =>
      rw [error_bind]
      have := (ha e1).mp h1
      simp only [Except.error.injEq]
      constructor
      · rintro rfl; exact ⟨this.1, Or.inl this.2.2⟩
      · rintro ⟨rfl, -⟩; exact this.1
    | ok a =>
      rw [ok_bind]
      have hna : ¬ (R.IsPy ∧ XR.eq R.val 0) := by
        intro h; rw [(ha .zeroDivisionError).mpr ⟨rfl, trivial, h⟩] at h1; simp at h1
      cases h2 : (Scal.py 1).div R0 with
      | error e2 =>
        rw [error_bind]
        have := (hb e2).mp h2
        simp only [Except.error.injEq]
        constructor
        · rintro rfl; exact ⟨this.1, Or.inr this.2.2⟩
        · rintro ⟨rfl, -⟩; exact this.1
      | ok b =>
        rw [ok_bind]
        have hnb : ¬ (R0.IsPy ∧ XR.eq R0.val 0) := by
          intro h; rw [(hb .zeroDivisionError).mpr ⟨rfl, trivial, h⟩] at h2; simp at h2
        simp [hna, hnb]
  · unfold imageDomainDefocusRadii
    have ha := Scal.div_error_iff (Scal.py 0.62 * D * dz) (F ^ 2) e
    rw [Scal.isPy_mul, Scal.isPy_mul, Scal.isPy_pow, Scal.val_pow] at ha
    cases h1 : (Scal.py 0.62 * D * dz).div (F ^ 2) with
    | error e1 =>
      rw [h1] at ha
      rw [error_bind]
      simp only [Scal.isPy_py, true_and, and_assoc] at ha
      constructor
      · intro h; injection h with h; exact ha.mp (by rw [h])
      · intro h; have := ha.mpr h; injection this with this; rw [this]
    | ok a =>
      rw [h1] at ha
      rw [ok_bind]
      simp only [reduceCtorEq, false_iff] at ha ⊢
      intro h
      apply ha
      exact ⟨h.1, ⟨⟨trivial, h.2.1⟩, h.2.2.1⟩, h.2.2.2⟩

example : ∃ w, objectDomainDefocusRadii (.py 0.275) (.py 1000) (.np 1500) = .ok (.fin w) ∧ w ≠ 0 := by
  refine ⟨_, object_radii_value (d := 0.275) (r := 1000) (r0 := 1500) (by norm_num) (by norm_num) rfl rfl rfl, ?_⟩
  norm_num

/-! ## C50 -/

/-- **C50**: proportional to the current density and to the detector area, with a positive constant; zero for
zero density. -/
theorem C50_dark_current : ∃ c : ℝ, 0 < c ∧ ∀ jd wX wY : ℝ,
    darkCurrentFromDensity (.fin jd) (.fin wX) (.fin wY) = .fin (c * jd * (wX * wY)) := by
  have hq : 0 < qC := by unfold qC; norm_num
  refine ⟨1 / qC, by positivity, ?_⟩
  intro jd wX wY
  unfold darkCurrentFromDensity
  xr_simp
  rw [XR.fin_div _ hq.ne']
  congr 1; field_simp

/-- **C50**: `qC` electrons per second make one ampere (the elementary charge of the code). -/
theorem C50_charge {jd wX wY : ℝ} : ∃ y : ℝ, darkCurrentFromDensity (.fin jd) (.fin wX) (.fin wY) = .fin y
    ∧ y * 1.60217662e-19 = jd * (wX * wY) ∧ (0 ≤ jd → 0 ≤ wX → 0 ≤ wY → 0 ≤ y) := by
  have hq : (0:ℝ) < qC := by unfold qC; norm_num
  refine ⟨jd * wX * wY / qC, ?_, ?_, ?_⟩
  · unfold darkCurrentFromDensity
    xr_simp
    rw [XR.fin_div _ hq.ne']
  · unfold qC; norm_num; ring
  · intro h1 h2 h3; positivity

/-! ## C64 -/

/-- **C64** (defaults): pitch, detector width and correlation lengths; no kernel, no extra noise, unit
transmission and quantum efficiency. -/
theorem C64_defaults (name : String) (D f : XR) {px : ℝ} (hp : px ≠ 0) (wl : List XR) :
    ∃ s, Sensor.new name D f (.fin px) wl = .ok s ∧ s.D = D ∧ s.f = f ∧ s.pX = .fin px ∧ s.pY = .fin px
      ∧ s.wX = .fin px ∧ s.wY = .fin px ∧ s.lX = D ∧ s.lY = D ∧ s.filterKernel = [[1]] ∧ s.frameStacks = 1
      ∧ s.optTransWavelengths = wl ∧ s.qeWavelengths = wl ∧ (∀ t ∈ s.opticsTransmission, t = 1)
      ∧ (∀ t ∈ s.qe, t = 1) ∧ s.opticsTransmission.length = wl.length ∧ s.qe.length = wl.length := by
  unfold Sensor.new
  obtain ⟨q, hq, hv⟩ := Scal.div_fin (a := .py (.fin px)) (b := .py (.fin px)) (x := px) (y := px) rfl rfl hp
  simp only [Option.getD_none, hq, ok_bind]
  refine ⟨_, rfl, rfl, rfl, rfl, rfl, rfl, ?_, rfl, rfl, rfl, rfl, rfl, rfl, ?_, ?_, by simp, by simp⟩
  · simp only [hv]; xr_simp; congr 1; field_simp
  · intro t ht; exact List.eq_of_mem_replicate ht
  · intro t ht; exact List.eq_of_mem_replicate ht

/-- **C64** (default height): with an explicit detector width, the default height is
`p_x * p_y / w_x`. -/
theorem C64_default_height (name : String) (D f : XR) {px py wx : ℝ} (hw : wx ≠ 0) (wl : List XR) :
    ∃ s, Sensor.new name D f (.fin px) wl (pY := some (.fin py)) (wX := some (.fin wx)) = .ok s
      ∧ s.wX = .fin wx ∧ s.pY = .fin py ∧ s.wY = .fin (px * py / wx) := by
  unfold Sensor.new
  obtain ⟨q, hq, hv⟩ := Scal.div_fin (a := .py (.fin px)) (b := .py (.fin wx)) (x := px) (y := wx) rfl rfl hw
  simp only [Option.getD_some, hq, ok_bind]
  refine ⟨_, rfl, rfl, rfl, ?_⟩
  simp only [hv]; xr_simp; congr 1; field_simp

/-- **C64** (finding): the fill factor in y equals that in x only when the latter is one (the division is
the wrong way round). -/
theorem C64_fill_factor (name : String) (D f : XR) {px py wx : ℝ} (hpx : 0 < px) (hpy : 0 < py) (hw : 0 < wx)
    (wl : List XR) :
    ∃ s wy, Sensor.new name D f (.fin px) wl (pY := some (.fin py)) (wX := some (.fin wx)) = .ok s
      ∧ s.wY = .fin wy ∧ (wy / py = wx / px ↔ wx / px = 1) ∧ (wx < px → py < wy) := by
  obtain ⟨s, hs, -, -, h⟩ := C64_default_height name D f (px := px) (py := py) hw.ne' wl
  refine ⟨s, _, hs, h, ?_, ?_⟩
  · have e : px * py / wx / py = px / wx := by field_simp
    rw [e, div_eq_div_iff hw.ne' hpx.ne', div_eq_one_iff_eq hpx.ne']
    constructor
    · intro h; nlinarith
    · intro h; rw [h]
  · intro h
    rw [lt_div_iff₀ hw]; nlinarith

/-- **C64** (explicit arguments are stored unchanged). -/
theorem C64_explicit (name : String) (D f pX pY wX wY eta intTime dark other read maxN fill : XR) (bits : ℝ)
    (nTdi cst ot oe cft cftemp cfe sX sY daX daY pv pvw : XR) (wl : List XR) :
    ∃ s, Sensor.new name D f pX wl eta (some pY) (some wX) (some wY) intTime dark other read maxN fill bits nTdi
        cst ot oe cft cftemp cfe sX sY daX daY pv pvw = .ok s
      ∧ s.name = name ∧ s.D = D ∧ s.f = f ∧ s.pX = pX ∧ s.pY = pY ∧ s.wX = wX ∧ s.wY = wY ∧ s.eta = eta
      ∧ s.intTime = intTime ∧ s.darkCurrent = dark ∧ s.otherIrradiance = other ∧ s.readNoise = read
      ∧ s.maxN = maxN ∧ s.maxWellFill = fill ∧ s.bitDepth = bits ∧ s.nTdi = nTdi
      ∧ s.coldShieldTemperature = cst ∧ s.opticsTemperature = ot ∧ s.opticsEmissivity = oe
      ∧ s.coldFilterTransmission = cft ∧ s.coldFilterTemperature = cftemp ∧ s.coldFilterEmissivity = cfe
      ∧ s.sX = sX ∧ s.sY = sY ∧ s.daX = daX ∧ s.daY = daY ∧ s.pv = pv ∧ s.pvWavelength = pvw := by
  refine ⟨_, rfl, ?_⟩
  simp only [Option.getD_some, and_self]

/-- **C64** (zero width): ZeroDivisionError exactly when the height is left to default and the (given or
defaulted) width is zero. -/
theorem C64_zero_width (name : String) (D f pX : XR) (wl : List XR) (wX wY : Option XR) (e : PyErr) :
    Sensor.new name D f pX wl (wX := wX) (wY := wY) = .error e
      ↔ e = .zeroDivisionError ∧ wY = none ∧ XR.eq (wX.getD pX) 0 := by
  unfold Sensor.new
  cases wY with
  | some w =>
    simp only [ok_bind, reduceCtorEq, false_and, and_false]
  | none =>
    have ha := Scal.div_error_iff (.py pX) (.py (wX.getD pX))
    simp only
    cases h1 : (Scal.py pX).div (.py (wX.getD pX)) with
    | error e1 =>
      have h := (ha e1).mp h1
      simp only [error_bind, Except.error.injEq, true_and]
      constructor
      · rintro rfl; exact ⟨h.1, h.2.2.2⟩
      · rintro ⟨rfl, -⟩; exact h.1
    | ok q =>
      simp only [ok_bind, reduceCtorEq, false_iff, true_and]
      rintro ⟨rfl, h⟩
      rw [(ha .zeroDivisionError).mpr ⟨rfl, trivial, trivial, h⟩] at h1
      simp at h1

example : ∃ s, Sensor.new "cam" 0.275 4 0.00002 [0.00000058, 0.00000068] (wX := some 0.000016) = .ok s
    ∧ s.wY = .fin (0.00002 * 0.00002 / 0.000016) := by
  unfold Sensor.new
  obtain ⟨q, hq, hv⟩ := Scal.div_fin (a := .py 0.00002) (b := .py 0.000016) (x := 0.00002) (y := 0.000016) rfl rfl
    (by norm_num)
  simp only [Option.getD_some, Option.getD_none, hq, ok_bind]
  refine ⟨_, rfl, ?_⟩
  simp only [hv]; xr_simp; congr 1; norm_num

/-! ## C65 -/

/-- **C65** (restored transfer function): the product with the OTF is real, in `[0, 1)`. -/
theorem C65_product (otf : ℂ) {nsr : ℝ} (h : 0 < nsr) :
    ∃ (W : ℂ) (g : ℝ), wienerFilter otf nsr = some W ∧ otf * W = g ∧ 0 ≤ g ∧ g < 1 := by
  have hd : 0 < ‖otf‖ ^ 2 + nsr := by positivity
  refine ⟨(starRingEnd ℂ) otf / ((‖otf‖ ^ 2 + nsr : ℝ) : ℂ), ‖otf‖ ^ 2 / (‖otf‖ ^ 2 + nsr), ?_, ?_, by positivity, ?_⟩
  · unfold wienerFilter; simp only; rw [if_neg hd.ne']
  · rw [← mul_div_assoc, Complex.mul_conj, Complex.normSq_eq_norm_sq]; push_cast; ring
  · rw [div_lt_one hd]; linarith

/-- **C65** (noise-free): exact inversion where the OTF is nonzero, undefined where it is zero. -/
theorem C65_inverse (otf : ℂ) :
    (otf ≠ 0 → ∃ W, wienerFilter otf 0 = some W ∧ otf * W = 1) ∧ (otf = 0 → wienerFilter otf 0 = none) := by
  constructor
  · intro h
    have hn : ‖otf‖ ≠ 0 := norm_ne_zero_iff.mpr h
    have hd : ‖otf‖ ^ 2 + 0 ≠ 0 := by rw [add_zero]; positivity
    refine ⟨_, by unfold wienerFilter; simp only; rw [if_neg hd], ?_⟩
    rw [← mul_div_assoc, Complex.mul_conj, Complex.normSq_eq_norm_sq, add_zero]
    exact div_self (by exact_mod_cast pow_ne_zero 2 hn)
  · rintro rfl; unfold wienerFilter; simp

/-- **C65** (normalisation at zero frequency). -/
theorem C65_dc {nsr : ℝ} (h : 0 ≤ nsr) : ∃ W, wienerFilter 1 nsr = some W ∧ (1 + nsr) * W = 1 := by
  have hd : ‖(1 : ℂ)‖ ^ 2 + nsr ≠ 0 := by rw [norm_one]; positivity
  refine ⟨_, by unfold wienerFilter; simp only; rw [if_neg hd], ?_⟩
  have : (1 : ℂ) + nsr ≠ 0 := by
    have h1 : ((1 + nsr : ℝ) : ℂ) ≠ 0 := by exact_mod_cast (by positivity : (1 + nsr : ℝ) ≠ 0)
    push_cast at h1; exact h1
  simp only [map_one, norm_one, one_pow]
  push_cast
  field_simp

/-- **C65** (bounded noise gain): the filter never exceeds `1 / (2 sqrt nsr)`, and this is attained. -/
theorem C65_bound {nsr : ℝ} (h : 0 < nsr) :
    (∀ otf W, wienerFilter otf nsr = some W → ‖W‖ ≤ 1 / (2 * Real.sqrt nsr))
    ∧ ∃ otf W, wienerFilter otf nsr = some W ∧ ‖W‖ = 1 / (2 * Real.sqrt nsr) := by
  have hs := Real.sqrt_pos.mpr h
  have hsq : Real.sqrt nsr ^ 2 = nsr := Real.sq_sqrt h.le
  have val : ∀ otf : ℂ, wienerFilter otf nsr = some ((starRingEnd ℂ) otf / ((‖otf‖ ^ 2 + nsr : ℝ) : ℂ)) := by
    intro otf
    have hd : 0 < ‖otf‖ ^ 2 + nsr := by positivity
    unfold wienerFilter; simp only; rw [if_neg hd.ne']
  have nrm : ∀ otf : ℂ, ‖(starRingEnd ℂ) otf / ((‖otf‖ ^ 2 + nsr : ℝ) : ℂ)‖ = ‖otf‖ / (‖otf‖ ^ 2 + nsr) := by
    intro otf
    have hd : 0 < ‖otf‖ ^ 2 + nsr := by positivity
    rw [norm_div, RCLike.norm_conj, Complex.norm_real, Real.norm_of_nonneg hd.le]
  constructor
  · intro otf W hW
    rw [val otf, Option.some.injEq] at hW
    rw [← hW, nrm, div_le_div_iff₀ (by positivity) (by positivity)]
    nlinarith [sq_nonneg (‖otf‖ - Real.sqrt nsr)]
  · refine ⟨Real.sqrt nsr, _, val _, ?_⟩
    rw [nrm, Complex.norm_real, Real.norm_of_nonneg hs.le, hsq, div_eq_div_iff (by positivity) (by positivity)]
    nlinarith

example : ∃ W, wienerFilter Complex.I 0.5 = some W ∧ ‖W‖ ≤ 1 / (2 * Real.sqrt 0.5) := by
  obtain ⟨W, g, h, -⟩ := C65_product Complex.I (nsr := 0.5) (by norm_num)
  exact ⟨W, h, (C65_bound (by norm_num)).1 _ _ h⟩

/-! ## C66 -/

theorem noiseGain_eq (k : Kernel) : noiseGain k =
    if k.flatten.sum = 1 then .ok (.fin (Real.sqrt (k.flatten.map (· ^ 2)).sum)) else .error .valueError := by
  unfold noiseGain
  rw [asum_fin]
  have h2 : (k.flatten.map fun k => (XR.fin k) ^ 2) = (k.flatten.map (· ^ 2)).map .fin := by
    rw [List.map_map]; rfl
  have hnn : 0 ≤ (k.flatten.map (· ^ 2)).sum := by
    apply List.sum_nonneg
    intro x hx
    obtain ⟨y, -, rfl⟩ := List.mem_map.mp hx
    positivity
  rw [h2, asum_fin, XR.fin_sqrt hnn, XR.one_def, XR.fin_eq]
  by_cases h : k.flatten.sum = 1
  · rw [if_neg (not_not.mpr h), if_pos h]
  · rw [if_pos h, if_neg h]

/-- **C66**: rejected with ValueError exactly when the taps do not sum to one; otherwise the Euclidean norm. -/
theorem C66_value (k : Kernel) :
    (noiseGain k = .error .valueError ↔ k.flatten.sum ≠ 1)
    ∧ (k.flatten.sum = 1 → noiseGain k = .ok (.fin (Real.sqrt (k.flatten.map (· ^ 2)).sum))) := by
  rw [noiseGain_eq]
  constructor
  · split_ifs with h
    · simp only [reduceCtorEq, false_iff, not_not]; exact h
    · simp only [true_iff]; exact h
  · intro h; rw [if_pos h]

theorem list_sq_sum_le (l : List ℝ) : l.sum ^ 2 ≤ l.length * (l.map (· ^ 2)).sum := by
  induction l with
  | nil => simp
  | cons x l ih =>
    simp only [List.sum_cons, List.length_cons, List.map_cons]
    push_cast
    rcases Nat.eq_zero_or_pos l.length with h | h
    · rw [List.length_eq_zero_iff] at h; subst h; simp
    · have hn : (0 : ℝ) < l.length := by exact_mod_cast h
      have key : 0 ≤ (l.length * x - l.sum) ^ 2 := sq_nonneg _
      nlinarith

/-- **C66** (lower bound): averaging `n` taps cannot reduce the noise below `1/sqrt n`; the box average attains
the bound. -/
theorem C66_lower_bound (k : Kernel) {g : ℝ} (h : noiseGain k = .ok (.fin g)) :
    1 / Real.sqrt k.flatten.length ≤ g := by
  rw [noiseGain_eq] at h
  split_ifs at h with h1
  · simp only [Except.ok.injEq, XR.fin.injEq] at h
    have hc := list_sq_sum_le k.flatten
    rw [h1] at hc
    have hn : (0 : ℝ) < k.flatten.length := by
      rcases Nat.eq_zero_or_pos k.flatten.length with h0 | h0
      · rw [h0] at hc; norm_num at hc
      · exact_mod_cast h0
    rw [← h, ← Real.sqrt_one, ← Real.sqrt_div (by norm_num)]
    apply Real.sqrt_le_sqrt
    rw [div_le_iff₀ hn]
    linarith

/-- **C66** (box average): `rows x cols` equal taps have gain exactly `1/sqrt(rows*cols)`. -/
theorem C66_box {rows cols : ℕ} (hr : 0 < rows) (hc : 0 < cols) :
    noiseGain (List.replicate rows (List.replicate cols (1 / ((rows : ℝ) * cols))))
      = .ok (.fin (1 / Real.sqrt ((rows : ℝ) * cols))) := by
  have h1 : (0 : ℝ) < rows := by exact_mod_cast hr
  have h2 : (0 : ℝ) < cols := by exact_mod_cast hc
  have hfl : (List.replicate rows (List.replicate cols (1 / ((rows : ℝ) * cols)))).flatten
      = List.replicate (rows * cols) (1 / ((rows : ℝ) * cols)) := List.flatten_replicate_replicate
  rw [noiseGain_eq, hfl]
  rw [if_pos]
  · rw [List.map_replicate, List.sum_replicate, nsmul_eq_mul]
    push_cast
    congr 2
    rw [show (rows : ℝ) * cols * (1 / (rows * cols)) ^ 2 = 1 / (rows * cols) by field_simp,
      Real.sqrt_div (by norm_num), Real.sqrt_one]
  · rw [List.sum_replicate, nsmul_eq_mul]
    push_cast; field_simp

/-- **C66** (identity): the kernel `[1]` has gain 1. -/
theorem C66_identity : noiseGain [[1]] = .ok (.fin 1) := by
  rw [noiseGain_eq]; simp

example : noiseGain [[0, -1, 0], [-1, 5, -1], [0, -1, 0]] = .ok (.fin (Real.sqrt 29)) := by
  rw [(C66_value _).2 (by norm_num)]; norm_num

example : noiseGain [[1, 1]] = .error .valueError := (C66_value _).1.mpr (by norm_num)

/-! ## C67 -/

/-- **C67**: `range / (sqrt 12 * (2^bits - 1))`, for every positive bit depth. -/
theorem C67_value (r : ℝ) {b : ℝ} (hb : 0 < b) :
    quantizationNoise (.fin r) b = .fin (r / (Real.sqrt 12 * ((2 : ℝ) ^ b - 1))) := by
  have h1 : 1 < (2 : ℝ) ^ b := Real.one_lt_rpow (by norm_num) hb
  have h12 : 0 < Real.sqrt 12 := Real.sqrt_pos.mpr (by norm_num)
  unfold quantizationNoise
  rw [XR.ofNat_def, XR.fin_sqrt (by norm_num)]
  xr_simp
  rw [XR.fin_div _ (mul_pos h12 (by linarith)).ne']

/-- **C67**: linear in the range, strictly decreasing in the bit depth, infinite for zero bits. -/
theorem C67_laws :
    (∀ (c r b : ℝ), 0 < b → ∃ q, quantizationNoise (.fin r) b = .fin q ∧ quantizationNoise (.fin (c * r)) b = .fin (c * q))
    ∧ (∀ (r b b' : ℝ), 0 < r → 0 < b → b < b' →
        ∃ q q', quantizationNoise (.fin r) b = .fin q ∧ quantizationNoise (.fin r) b' = .fin q' ∧ 0 < q' ∧ q' < q)
    ∧ (∀ r : ℝ, 0 < r → quantizationNoise (.fin r) 0 = .pinf) := by
  have h12 : 0 < Real.sqrt 12 := Real.sqrt_pos.mpr (by norm_num)
  refine ⟨?_, ?_, ?_⟩
  · intro c r b hb
    refine ⟨_, C67_value r hb, ?_⟩
    rw [C67_value _ hb, mul_div_assoc]
  · intro r b b' hr hb hbb
    have h1 : 1 < (2 : ℝ) ^ b := Real.one_lt_rpow (by norm_num) hb
    have h2 : (2 : ℝ) ^ b < (2 : ℝ) ^ b' := Real.rpow_lt_rpow_of_exponent_lt (by norm_num) hbb
    have hp : 0 < (2 : ℝ) ^ b' - 1 := by linarith
    refine ⟨_, _, C67_value r hb, C67_value r (hb.trans hbb), by positivity, ?_⟩
    apply div_lt_div_of_pos_left hr (mul_pos h12 (by linarith))
    apply mul_lt_mul_of_pos_left _ h12
    linarith
  · intro r hr
    unfold quantizationNoise
    rw [XR.ofNat_def, XR.fin_sqrt (by norm_num)]
    xr_simp
    rw [Real.rpow_zero, sub_self, mul_zero, XR.fin_div_zero]
    unfold XR.mulInf; rw [if_pos hr]

example : quantizationNoise (.fin 95000) 12 = .fin (95000 / (Real.sqrt 12 * ((2 : ℝ) ^ (12 : ℝ) - 1))) :=
  C67_value _ (by norm_num)

/-! ## C68 -/

/-- **C68**: `w / f`; depends only on the ratio. -/
theorem C68_ratio {w f c : ℝ} (hf : f ≠ 0) (hc : c ≠ 0) {W F W' F' : Scal} (h1 : W.val = .fin w) (h2 : F.val = .fin f)
    (h3 : W'.val = .fin (c * w)) (h4 : F'.val = .fin (c * f)) :
    ∃ q q', instantaneousFOV W F = .ok q ∧ instantaneousFOV W' F' = .ok q' ∧ q.val = .fin (w / f) ∧ q'.val = .fin (w / f) := by
  obtain ⟨q, hq, hv⟩ := Scal.div_fin h1 h2 hf
  obtain ⟨q', hq', hv'⟩ := Scal.div_fin h3 h4 (mul_ne_zero hc hf)
  refine ⟨q, q', hq, hq', hv, ?_⟩
  rw [hv', mul_div_mul_left _ _ hc]

/-- **C68** (error): ZeroDivisionError exactly for Python numbers and a zero focal length. -/
theorem C68_zero_division (W F : Scal) (e : PyErr) :
    instantaneousFOV W F = .error e ↔ e = .zeroDivisionError ∧ W.IsPy ∧ F.IsPy ∧ XR.eq F.val 0 :=
  Scal.div_error_iff W F e

example : ∃ q, instantaneousFOV (.py 0.00002) (.py 4) = .ok q ∧ q.val = .fin 0.000005 := by
  obtain ⟨q, hq, hv⟩ := Scal.div_fin (a := .py 0.00002) (b := .py 4) (x := 0.00002) (y := 4) rfl rfl (by norm_num)
  exact ⟨q, hq, by rw [hv]; norm_num⟩

end PyBSM
