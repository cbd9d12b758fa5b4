import Verif.Lemmas.Band
import Verif.Props.SNR
import Verif.Model.Metrics

/-!
# C25 - C27: `reflectance_to_photoelectrons` and the sensor's band
-/

noncomputable section

open Classical

namespace PyBSM

open Spec

/-! ## C26 -/

/-- **C26.** -/
theorem C26_target_temp (atm : Atm) (s : Sensor) (intTime T T' : XR) :
    reflectanceToPhotoelectrons atm s intTime T = reflectanceToPhotoelectrons atm s intTime T' := rfl

/-! ## C27 -/

/-- **C27** (`reflectance_to_photoelectrons`). -/
theorem C27_photoelectrons {s : Sensor} {a b : Atm} (h : SameInBand s.optTransWavelengths a b)
    (t T : XR) : reflectanceToPhotoelectrons a s t T = reflectanceToPhotoelectrons b s t T := by
  unfold reflectanceToPhotoelectrons
  rw [bandCrop_same h]

/-- **C27** (`niirs` and `niirs5`): two databases (`env`, `env'`) whose atmospheres for the scenario
agree in the band give the same metrics and the same effects. -/
theorem C27_niirs {env env' : Env} (hd : env.diag = env'.diag) {s : Sensor} {sc : Scenario}
    {interp : Bool} {a b : Atm}
    (h1 : (if interp then loadInterp env.files sc.altitude sc.groundRange sc.ihaze
      else loadNoInterp env.files sc.altitude sc.groundRange sc.ihaze) = .ok a)
    (h2 : (if interp then loadInterp env'.files sc.altitude sc.groundRange sc.ihaze
      else loadNoInterp env'.files sc.altitude sc.groundRange sc.ihaze) = .ok b)
    (h : SameInBand s.optTransWavelengths a b) :
    niirs env s sc interp = niirs env' s sc interp ∧ niirs5 env s sc interp = niirs5 env' s sc interp := by
  have e : niirsAtm env s sc interp = niirsAtm env' s sc interp := by
    unfold niirsAtm
    cases interp
    · simp only [Bool.false_eq_true, if_false] at h1 h2 ⊢
      rw [h1, h2, ok_bind, ok_bind, bandCrop_same h]
    · simp only [if_true] at h1 h2 ⊢
      rw [h1, h2, ok_bind, ok_bind, bandCrop_same h]
  have t1 : ∀ s sc atm m, niirsTail env s sc atm m = niirsTail env' s sc atm m := by
    intro s sc atm m
    unfold niirsTail gridOTFs
    rw [hd]
  have t2 : ∀ s sc atm m, niirs5Tail env s sc atm m = niirs5Tail env' s sc atm m := by
    intro s sc atm m
    unfold niirs5Tail gridOTFs
    rw [hd]
  unfold niirs niirs5
  rw [e]
  simp only [t1, t2, and_self]

/-- **C27** (the atmosphere `niirs` reports contains exactly the rows in the band, in order). -/
theorem C27_rows (s : Sensor) (atm : Atm) (hne : s.optTransWavelengths ≠ []) :
    bandCrop s atm = .ok (atm.filter fun r => InBand s.optTransWavelengths r) := by
  rw [bandCrop_eq, if_neg hne]

example (x y : XR) : SameInBand (demoSensor.toSensor.optTransWavelengths)
    [fun _ => .fin 1e-6, fun j => if j = 0 then .fin 4e-6 else x]
    [fun j => if j = 0 then .fin 2e-6 else y, fun j => if j = 0 then .fin 4e-6 else x] := by
  have key : ∀ r : Fin 6 → XR, (∃ z : ℝ, r 0 = .fin z ∧ z < 3e-6) →
      ¬ InBand demoSensor.toSensor.optTransWavelengths r := by
    rintro r ⟨z, hz, hlt⟩ ⟨lo, hi, h1, -, h2, -⟩
    simp only [RealSensor.toSensor, demoSensor, List.map_cons, List.head?_cons, Option.some.injEq] at h1
    rw [← h1, hz] at h2
    exact absurd (show (3e-6 : ℝ) ≤ z from h2) (not_le.mpr hlt)
  refine .cons (Or.inr ⟨key _ ⟨1e-6, rfl, by norm_num⟩, key _ ⟨2e-6, rfl, by norm_num⟩⟩)
    (.cons (Or.inl rfl) .nil)

/-! ## C25 -/

/-- Photoelectron count, before any rescaling, of a scene of reflectance `r` (300 K). -/
def Spec.RealSensor.counts (s : RealSensor) (n : ℕ) (A : ℕ → Fin 6 → ℝ) (t r : ℝ) : ℝ :=
  s.rate n (fun i => A i 0) (fun i => greyRadiance (A i) r 300) * t * s.nTdi

theorem counts_affine (s : RealSensor) (n : ℕ) (A : ℕ → Fin 6 → ℝ) (t r r' c : ℝ) :
    s.counts n A t ((1 - c) * r + c * r') = (1 - c) * s.counts n A t r + c * s.counts n A t r' := by
  unfold RealSensor.counts RealSensor.rate
  have : ∀ i, s.spectral (A i 0) (greyRadiance (A i) ((1 - c) * r + c * r') 300)
      = (1 - c) * s.spectral (A i 0) (greyRadiance (A i) r 300)
        + c * s.spectral (A i 0) (greyRadiance (A i) r' 300) := by
    intro i
    unfold RealSensor.spectral spectralRate greyRadiance; ring
  simp only [this, trap_add, trap_smul]
  ring

theorem getLastD_map_range {α : Type} (n : ℕ) (f : ℕ → α) (d : α) :
    ((List.range (n + 1)).map f).getLastD d = f n := by
  rw [List.range_succ, List.map_append, List.map_singleton, List.getLastD_eq_getLast?,
    List.getLast?_append]
  rfl

/-- The whole function for a usable sensor and a finite atmosphere. -/
theorem r2pe_val {s : RealSensor} (hs : s.Usable) (hM : 0 < s.maxN) {rows : List (Fin 6 → ℝ)} {t : ℝ}
    (T : XR) {n : ℕ} {A : ℕ → Fin 6 → ℝ} (hB : realAtm (s.rowsInBand rows) = vecAtm n A)
    (hn : n ≠ 0) (hpos : ∀ i < n, 0 < A i 0)
    (hw : ∃ i < n, 0 < s.spectral (A i 0) (greyRadiance (A i) 1 300)) :
    ∃ peak wmax : ℝ,
      reflectanceToPhotoelectrons (realAtm rows) s.toSensor (.fin t) T
        = .ok (vec 100 (fun i => i / 99),
            vec 100 (fun i => s.counts n A t (i / 99) / max 1 (peak / s.maxN)),
            vec n (fun i => A i 0),
            vec n (fun i => s.spectral (A i 0) (greyRadiance (A i) 1 300) / wmax))
      ∧ (∃ i < 100, s.counts n A t ((i : ℕ) / 99) = peak)
      ∧ (∀ i < 100, s.counts n A t ((i : ℕ) / 99) ≤ peak)
      ∧ 0 < wmax
      ∧ (∃ i < n, s.spectral (A i 0) (greyRadiance (A i) 1 300) = wmax)
      ∧ ∀ i < n, s.spectral (A i 0) (greyRadiance (A i) 1 300) ≤ wmax := by
  obtain ⟨peak, hp1, hp2, hp3⟩ := amax_vec (n := 100) (by norm_num)
    (fun i => s.counts n A t ((i : ℕ) / 99))
  obtain ⟨wmax, hw1, hw2, hw3⟩ := pyMax_vec hn
    (fun i => s.spectral (A i 0) (greyRadiance (A i) 1 300))
  have hwpos : 0 < wmax := by
    obtain ⟨i, hi, h⟩ := hw
    exact lt_of_lt_of_le h (hw3 i hi)
  refine ⟨peak, wmax, ?_, hp2, hp3, hwpos, hw2, hw3⟩
  unfold reflectanceToPhotoelectrons
  have hlin : linspace 0 1 100 = vec 100 fun i => (i : ℕ) / 99 := by
    rw [XR.zero_def, XR.one_def, linspace_fin, ← vec_eq_map]
    apply vec_congr
    intro i _
    push_cast
    ring
  rw [bandCrop_real hs.transmission_ne, ok_bind, hlin, hB, vecAtm_wl]
  have hrow : ∀ r ∈ vec 100 (fun i => (i : ℕ) / 99), (do
      let optTrans ← systemTransmission s.toSensor (vec n fun i => A i 0)
      let qe ← resampleByWavelength s.toSensor.qeWavelengths s.toSensor.qe (vec n fun i => A i 0)
      let other ← selfEmission s.toSensor (vec n fun i => A i 0)
      let (rate, _, dN) ← signalRate (vec n fun i => A i 0) (totalRadiance (vecAtm n A) r 300) optTrans
        (.py s.toSensor.D) (.py s.toSensor.f) s.toSensor.wX s.toSensor.wY qe other s.toSensor.darkCurrent
      Except.ok (ε := PyErr) (rate * XR.fin t * s.toSensor.nTdi, dN))
      = .ok (.fin (s.counts n A t r.toReal),
          vec n fun i => s.spectral (A i 0) (greyRadiance (A i) r.toReal 300)) := by
    intro r hr
    obtain ⟨i, -, rfl⟩ := List.mem_map.mp hr
    rw [systemTransmission_vec hs, ok_bind, qe_vec hs, ok_bind, selfEmission_vec hs hpos, ok_bind,
      XR.ofNat_def, totalRadiance_vec hpos _ (by norm_num), sensorRate_vec hs, ok_bind]
    rfl
  dsimp only
  rw [mapM_ok hrow, ok_bind]
  have hpe : (List.map (fun r : XR => ((XR.fin (s.counts n A t r.toReal),
      vec n fun i => s.spectral (A i 0) (greyRadiance (A i) r.toReal 300)) : XR × List XR))
        (vec 100 fun i => (i : ℕ) / 99)).map (·.1) = vec 100 fun i => s.counts n A t ((i : ℕ) / 99) := by
    rw [List.map_map]
    unfold vec
    rw [List.map_map]
    rfl
  have hlast : ((List.map (fun r : XR => ((XR.fin (s.counts n A t r.toReal),
      vec n fun i => s.spectral (A i 0) (greyRadiance (A i) r.toReal 300)) : XR × List XR))
        (vec 100 fun i => (i : ℕ) / 99)).map (·.2)).getLastD []
      = vec n fun i => s.spectral (A i 0) (greyRadiance (A i) 1 300) := by
    rw [List.map_map]
    conv_lhs => rw [vec]
    rw [List.map_map, show (100 : ℕ) = 99 + 1 from rfl, getLastD_map_range]
    simp only [Function.comp, XR.toReal_fin]
    norm_num
  rw [hpe, hlast, hp1, ok_bind, hw1, ok_bind]
  have hMx : s.toSensor.maxN = .fin s.maxN := rfl
  rw [hMx, XR.fin_div _ hM.ne', XR.one_def, Except.ok.injEq, Prod.mk.injEq, Prod.mk.injEq,
    Prod.mk.injEq]
  have hle : ∀ i < 100, s.counts n A t ((i : ℕ) / 99) / max 1 (peak / s.maxN) ≤ s.maxN := by
    intro i hi
    have hm1 : 0 < max 1 (peak / s.maxN) := lt_of_lt_of_le one_pos (le_max_left _ _)
    rw [div_le_iff₀ hm1]
    have := hp3 i hi
    have h2 := mul_le_mul_of_nonneg_left (le_max_right 1 (peak / s.maxN)) hM.le
    rw [mul_div_cancel₀ _ hM.ne'] at h2
    linarith
  refine ⟨rfl, ?_, rfl, ?_⟩
  · have hsc : (if XR.lt (.fin 1) (.fin (peak / s.maxN)) then
        (vec 100 fun i => s.counts n A t ((i : ℕ) / 99)).map (· / XR.fin (peak / s.maxN))
        else vec 100 fun i => s.counts n A t ((i : ℕ) / 99))
        = vec 100 fun i => s.counts n A t ((i : ℕ) / 99) / max 1 (peak / s.maxN) := by
      split_ifs with h
      · have h' : 1 < peak / s.maxN := h
        rw [vec_map (f := (· / XR.fin (peak / s.maxN))) (g := fun x => x / (peak / s.maxN))
          (fun x => XR.fin_div _ (by linarith)), max_eq_right h'.le]
      · have h' : ¬ 1 < peak / s.maxN := h
        rw [max_eq_left (not_lt.mp h')]
        simp only [div_one]
    rw [hsc]
    unfold vec
    rw [List.map_map]
    apply List.map_congr_left
    intro i hi
    simp only [Function.comp]
    rw [if_neg]
    exact not_lt.mpr (hle i (List.mem_range.mp hi))
  · rw [vec_map (f := (· / XR.fin wmax)) (g := fun x => x / wmax) (fun x => XR.fin_div _ hwpos.ne')]

/-- **C25.** For a usable sensor with a positive well and a finite atmosphere with at least one row
in the band and at least one positive spectral weight: 100 equally spaced reflectances; counts that
never exceed `max_n`, are an affine function of reflectance, and are the unscaled counts unless these
overfill the well; the band's wavelengths; weights at most 1, equal to 1 somewhere. -/
theorem C25_fits_well {s : RealSensor} (hs : s.Usable) (hM : 0 < s.maxN) {rows : List (Fin 6 → ℝ)}
    (t : ℝ) (T : XR) (hpos : ∀ r ∈ s.rowsInBand rows, 0 < r 0)
    (hw : ∃ r ∈ s.rowsInBand rows, 0 < s.spectral (r 0) (greyRadiance r 1 300)) :
    ∃ (pe : ℕ → ℝ) (w : List ℝ),
      reflectanceToPhotoelectrons (realAtm rows) s.toSensor (.fin t) T
        = .ok (vec 100 (fun i => i / 99), vec 100 pe, (s.rowsInBand rows).map (fun r => .fin (r 0)),
            w.map .fin)
      ∧ (∀ i < 100, pe i ≤ s.maxN)
      ∧ (∃ c0 c1 : ℝ, ∀ i < 100, pe i = c0 + c1 * (i / 99))
      ∧ (∃ scale : ℝ, 1 ≤ scale ∧ (∀ i < 100, pe i * scale
            = s.counts (s.rowsInBand rows).length (fun i => (s.rowsInBand rows).getD i 0) t (i / 99))
          ∧ (scale = 1 ∨ ∃ i < 100, pe i = s.maxN))
      ∧ w.length = (s.rowsInBand rows).length
      ∧ (∀ x ∈ w, x ≤ 1) ∧ 1 ∈ w
      ∧ ((∀ r ∈ s.rowsInBand rows, 0 ≤ s.spectral (r 0) (greyRadiance r 1 300)) → ∀ x ∈ w, 0 ≤ x) := by
  set B := s.rowsInBand rows with hBdef
  set A : ℕ → Fin 6 → ℝ := fun i => B.getD i 0 with hA
  have hmem : ∀ i < B.length, A i ∈ B := by
    intro i hi
    rw [hA]
    simp only [List.getD_eq_getElem?_getD, List.getElem?_eq_getElem hi, Option.getD_some]
    exact List.getElem_mem hi
  have hidx : ∀ r ∈ B, ∃ i < B.length, A i = r := by
    intro r hr
    obtain ⟨i, hi, e⟩ := List.mem_iff_getElem.mp hr
    exact ⟨i, hi, by rw [hA]; simp [List.getElem?_eq_getElem hi, e]⟩
  have hn : B.length ≠ 0 := by
    obtain ⟨r, hr, -⟩ := hw
    intro h
    rw [List.length_eq_zero_iff] at h
    rw [h] at hr
    exact List.not_mem_nil hr
  have hw' : ∃ i < B.length, 0 < s.spectral (A i 0) (greyRadiance (A i) 1 300) := by
    obtain ⟨r, hr, h⟩ := hw
    obtain ⟨i, hi, e⟩ := hidx r hr
    exact ⟨i, hi, by rw [e]; exact h⟩
  obtain ⟨peak, wmax, h1, ⟨ip, hip, hpe⟩, h3, h4, ⟨iw, hiw, hwe⟩, h6⟩ :=
    r2pe_val (A := A) hs hM (t := t) T (realAtm_vec B) hn (fun i hi => hpos _ (hmem i hi)) hw'
  have hm1 : 0 < max 1 (peak / s.maxN) := lt_of_lt_of_le one_pos (le_max_left _ _)
  refine ⟨fun i => s.counts B.length A t (i / 99) / max 1 (peak / s.maxN), (List.range B.length).map fun (i : ℕ) =>
    s.spectral (A i 0) (greyRadiance (A i) 1 300) / wmax, ?_, ?_, ?_, ?_, ?_, ?_, ?_, ?_⟩
  · rw [h1, ← vec_eq_map]
    congr 4
    rw [← vecAtm_wl, ← realAtm_vec, realAtm, List.map_map]
    rfl
  · intro i hi
    rw [div_le_iff₀ hm1]
    have := h3 i hi
    have h2 := mul_le_mul_of_nonneg_left (le_max_right 1 (peak / s.maxN)) hM.le
    rw [mul_div_cancel₀ _ hM.ne'] at h2
    linarith
  · refine ⟨s.counts B.length A t 0 / max 1 (peak / s.maxN),
      (s.counts B.length A t 1 - s.counts B.length A t 0) / max 1 (peak / s.maxN), fun i _ => ?_⟩
    have := counts_affine s B.length A t 0 1 ((i : ℝ) / 99)
    rw [show (1 - (i : ℝ) / 99) * 0 + (i : ℝ) / 99 * 1 = (i : ℝ) / 99 by ring] at this
    beta_reduce
    rw [this]; ring
  · refine ⟨max 1 (peak / s.maxN), le_max_left _ _, fun i _ => div_mul_cancel₀ _ hm1.ne', ?_⟩
    rcases le_total (peak / s.maxN) 1 with h | h
    · left; exact max_eq_left h
    · right
      refine ⟨ip, hip, ?_⟩
      beta_reduce
      rw [hpe, max_eq_right h]
      have : peak ≠ 0 := by
        rintro rfl
        rw [zero_div] at h
        linarith
      field_simp
  · simp
  · intro x hx
    obtain ⟨i, hi, rfl⟩ := List.mem_map.mp hx
    exact (div_le_one h4).mpr (h6 i (List.mem_range.mp hi))
  · refine List.mem_map.mpr ⟨iw, List.mem_range.mpr hiw, ?_⟩
    rw [hwe, div_self h4.ne']
  · intro hnn x hx
    obtain ⟨i, hi, rfl⟩ := List.mem_map.mp hx
    exact div_nonneg (hnn _ (hmem i (List.mem_range.mp hi))) h4.le

/-- A sensor whose optical parameters are physically meaningful. -/
structure Spec.RealSensor.Physical (s : RealSensor) : Prop where
  width : 0 ≤ s.wX * s.wY
  eta : s.eta ^ 2 ≤ 1
  coldFilter : 0 ≤ s.coldFilterTransmission
  transmission : ∀ q ∈ s.transmission, 0 ≤ q.2
  qe : ∀ q ∈ s.qe, 0 ≤ q.2
  opticsEmissivity : 0 ≤ s.opticsEmissivity
  coldFilterEmissivity : 0 ≤ s.coldFilterEmissivity
  dark : 0 ≤ s.darkCurrent

theorem tableAt_nonneg {tbl : List (ℝ × ℝ)} (h : ∀ q ∈ tbl, 0 ≤ q.2) (x : ℝ) : 0 ≤ tableAt tbl x := by
  unfold tableAt
  split_ifs with h'
  · obtain ⟨M, hM⟩ : ∃ M, ∀ q ∈ tbl, q.2 ≤ M := by
      refine ⟨(tbl.map (·.2)).sum, fun q hq => ?_⟩
      apply List.single_le_sum
      · intro y hy
        obtain ⟨p, hp, rfl⟩ := List.mem_map.mp hy
        exact h p hp
      · exact List.mem_map.mpr ⟨q, hq, rfl⟩
    exact (h'.choose_spec.range (m := 0) (M := M) fun q hq => ⟨h q hq, hM q hq⟩).1
  · exact le_rfl

theorem apertureFactor_pos (d f : ℝ) : 0 < apertureFactor d f := by
  have := Real.pi_pos; have := one_add_pos (f / d)
  unfold apertureFactor; positivity

theorem apertureFactor_le_pi (d f : ℝ) : apertureFactor d f ≤ Real.pi := by
  unfold apertureFactor
  apply div_le_self Real.pi_pos.le
  nlinarith [sq_nonneg (f / d)]

theorem selfAt_nonneg {s : RealSensor} (hs : s.Usable) (hp : s.Physical) {lam : ℝ} (hl : 0 < lam) :
    0 ≤ s.selfAt lam := by
  unfold RealSensor.selfAt
  have h1 := planck_pos hl hs.coldShield
  have h2 := planck_pos hl hs.optics
  have h3 := planck_pos hl hs.coldFilter
  have h4 := apertureFactor_pos s.D s.f
  have h5 := sub_nonneg.mpr (apertureFactor_le_pi s.D s.f)
  have := hp.coldFilter; have := hp.opticsEmissivity; have := hp.coldFilterEmissivity
  positivity

theorem spectral_nonneg {s : RealSensor} (hs : s.Usable) (hp : s.Physical) {lam l : ℝ} (hl : 0 < lam)
    (h : 0 ≤ l) : 0 ≤ s.spectral lam l := by
  unfold RealSensor.spectral spectralRate RealSensor.transAt
  have h1 := planckH_pos; have h2 := lightC_pos
  have h3 := tableAt_nonneg hp.qe lam
  have h4 := tableAt_nonneg hp.transmission lam
  have h5 := selfAt_nonneg hs hp hl
  have h6 := (apertureFactor_pos s.D s.f).le
  have h7 := hp.width
  have h8 : 0 ≤ 1 - s.eta ^ 2 := by linarith [hp.eta]
  have h9 := hp.coldFilter
  positivity

/-- **C25** (the weights are nonnegative for a physical sensor and atmosphere). -/
theorem C25_weights_nonneg {s : RealSensor} (hs : s.Usable) (hp : s.Physical)
    {rows : List (Fin 6 → ℝ)} (hpos : ∀ r ∈ rows, 0 < r 0 ∧ 0 ≤ r 2 ∧ 0 ≤ r 4 ∧ 0 ≤ r 5) :
    ∀ r ∈ s.rowsInBand rows, 0 ≤ s.spectral (r 0) (greyRadiance r 1 300) := by
  intro r hr
  obtain ⟨h1, h2, h3, h4⟩ := hpos r (List.mem_filter.mp hr).1
  apply spectral_nonneg hs hp h1
  unfold greyRadiance
  have : 0 ≤ r 5 * 1 / 0.15 := by positivity
  linarith

/-- **C25** (no atmosphere row in the band: the weights cannot be normalised). -/
theorem C25_empty_band {s : RealSensor} (hs : s.Usable) {rows : List (Fin 6 → ℝ)} (t T : XR)
    (h : s.rowsInBand rows = []) :
    reflectanceToPhotoelectrons (realAtm rows) s.toSensor t T = .error .valueError := by
  unfold reflectanceToPhotoelectrons
  rw [bandCrop_real hs.transmission_ne, ok_bind, h]
  have hv : (realAtm []).map (· 0) = vec 0 fun _ => 0 := rfl
  have hrow : ∀ r ∈ linspace 0 1 100, (do
      let optTrans ← systemTransmission s.toSensor (vec 0 fun _ => 0)
      let qe ← resampleByWavelength s.toSensor.qeWavelengths s.toSensor.qe (vec 0 fun _ => 0)
      let other ← selfEmission s.toSensor (vec 0 fun _ => 0)
      let (rate, _, dN) ← signalRate (vec 0 fun _ => 0) (totalRadiance (realAtm []) r 300) optTrans
        (.py s.toSensor.D) (.py s.toSensor.f) s.toSensor.wX s.toSensor.wY qe other s.toSensor.darkCurrent
      Except.ok (ε := PyErr) (rate * t * s.toSensor.nTdi, dN))
      = .ok (.fin (s.rate 0 (fun _ => 0) fun _ => 0) * t * s.toSensor.nTdi, []) := by
    intro r _
    rw [systemTransmission_vec hs, ok_bind, qe_vec hs, ok_bind, selfEmission_vec hs (by simp), ok_bind,
      show totalRadiance (realAtm []) r 300 = vec 0 fun _ => 0 from rfl, sensorRate_vec hs, ok_bind]
    rfl
  rw [hv]
  dsimp only
  rw [mapM_ok hrow, ok_bind]
  obtain ⟨m, hm⟩ : ∃ m, amax (List.map (fun x : XR × List XR => x.1) (List.map (fun _ : XR =>
      ((XR.fin (s.rate 0 (fun _ => 0) fun _ => 0) * t * s.toSensor.nTdi, []) : XR × List XR))
        (linspace 0 1 100))) = .ok m := by
    unfold linspace
    rw [show (100 : ℕ) = 99 + 1 from rfl, List.range_succ_eq_map]
    exact ⟨_, rfl⟩
  rw [hm, ok_bind]
  have hlast : (List.map (fun x : XR × List XR => x.2) (List.map (fun _ : XR =>
      ((XR.fin (s.rate 0 (fun _ => 0) fun _ => 0) * t * s.toSensor.nTdi, []) : XR × List XR))
        (linspace 0 1 100))).getLastD [] = [] := by
    unfold linspace
    rw [List.map_map, List.map_map, show (100 : ℕ) = 99 + 1 from rfl, getLastD_map_range]
    rfl
  rw [hlast]
  rfl

/-- The demonstration atmosphere: one row outside and two rows inside the band of `demoSensor`. -/
def demoRows : List (Fin 6 → ℝ) :=
  [![1e-6, 0.5, 1, 1, 1, 1], ![3.5e-6, 0.5, 1, 1, 1, 1], ![4.5e-6, 0.4, 2, 1, 1, 1]]

theorem demoSensor_physical : demoSensor.Physical where
  width := by norm_num [demoSensor]
  eta := by norm_num [demoSensor]
  coldFilter := by norm_num [demoSensor]
  transmission := by simp [demoSensor]; norm_num
  qe := by simp [demoSensor]; norm_num
  opticsEmissivity := by norm_num [demoSensor]
  coldFilterEmissivity := by norm_num [demoSensor]
  dark := by norm_num [demoSensor]

/-- The hypotheses of `C25_fits_well` hold for the demonstration sensor and atmosphere. -/
example : demoSensor.Usable ∧ 0 < demoSensor.maxN
    ∧ (∀ r ∈ demoSensor.rowsInBand demoRows, 0 < r 0)
    ∧ ∃ r ∈ demoSensor.rowsInBand demoRows, 0 < demoSensor.spectral (r 0) (greyRadiance r 1 300) := by
  refine ⟨demoSensor_usable, by norm_num [demoSensor], ?_, ?_⟩
  · intro r hr
    have := (List.mem_filter.mp hr).1
    simp only [demoRows, List.mem_cons, List.not_mem_nil, or_false] at this
    rcases this with rfl | rfl | rfl
    · show (0 : ℝ) < 1e-6; norm_num
    · show (0 : ℝ) < 3.5e-6; norm_num
    · show (0 : ℝ) < 4.5e-6; norm_num
  · refine ⟨![3.5e-6, 0.5, 1, 1, 1, 1], ?_, ?_⟩
    · refine List.mem_filter.mpr ⟨by simp [demoRows], ?_⟩
      refine decide_eq_true_eq.mpr ⟨(3e-6, 0.8), (5e-6, 0.7), rfl, rfl, ?_, ?_⟩
      · show (3e-6 : ℝ) ≤ 3.5e-6; norm_num
      · show (3.5e-6 : ℝ) ≤ 5e-6; norm_num
    · have hl : (0 : ℝ) < 3.5e-6 := by norm_num
      have htr : tableAt demoSensor.transmission 3.5e-6 = line 3e-6 0.8 4e-6 0.9 3.5e-6 :=
        tableAt_onTable demoSensor_usable.transmission_inc
          (Or.inr ⟨0, _, _, _, _, rfl, rfl, by norm_num, by norm_num, rfl⟩)
      have hqe : tableAt demoSensor.qe 3.5e-6 = line 3e-6 0.7 5e-6 0.6 3.5e-6 :=
        tableAt_onTable demoSensor_usable.qe_inc
          (Or.inr ⟨0, _, _, _, _, rfl, rfl, by norm_num, by norm_num, rfl⟩)
      have h1 : 0 < tableAt demoSensor.transmission 3.5e-6 := by rw [htr]; norm_num [line]
      have h2 : 0 < tableAt demoSensor.qe 3.5e-6 := by rw [hqe]; norm_num [line]
      have h5 := selfAt_nonneg demoSensor_usable demoSensor_physical hl
      have h6 := apertureFactor_pos demoSensor.D demoSensor.f
      have h7 : 0 < demoSensor.wX * demoSensor.wY := by norm_num [demoSensor]
      have h8 : 0 < demoSensor.coldFilterTransmission * (1 - demoSensor.eta ^ 2) := by
        norm_num [demoSensor]
      have hp1 := planckH_pos
      have hp2 := lightC_pos
      show 0 < demoSensor.spectral 3.5e-6 (1 + (1 - 1) * 0.5 * planck 3.5e-6 300 + 1 + 1 * 1 / 0.15)
      rw [show (1 + (1 - 1) * 0.5 * planck 3.5e-6 300 + 1 + 1 * 1 / 0.15 : ℝ) = 26 / 3 by
        rw [sub_self]; ring]
      unfold RealSensor.spectral spectralRate RealSensor.transAt
      positivity

end PyBSM
