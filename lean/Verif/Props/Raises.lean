import Verif.Spec.Raises
import Verif.Props.System
import Verif.Props.Database
import Verif.Props.NiirsDemo

/-!
# C134: exactly when a rating raises, and which exception
-/

noncomputable section

open Classical

namespace PyBSM

open Spec

/-! ## Arrays -/

theorem bc2_ok_len {f : XR → XR → XR} {xs ys : List XR} {n : ℕ} (hx : xs.length = n) (hy : ys.length = n) :
    ∃ zs, bc2 f xs ys = .ok zs ∧ zs.length = n :=
  ⟨_, bc2_eq (hx.trans hy.symm), by simp [hx, hy]⟩

theorem diff_len : ∀ xs : List XR, (diff xs).length = xs.length - 1
  | [] => rfl
  | [_] => rfl
  | _ :: b :: t => by
    have := diff_len (b :: t)
    simp only [diff, List.length_cons] at this ⊢
    omega

theorem trapz_ok {ys xs : List XR} (h : ys.length = xs.length) : ∃ t, trapz ys xs = .ok t := by
  unfold trapz
  obtain ⟨s, hs, ls⟩ := bc2_ok_len (f := (· + ·)) (xs := ys.tail) (ys := ys.dropLast) (n := xs.length - 1)
    (by simp [h]) (by simp [h])
  obtain ⟨t, ht, -⟩ := bc2_ok_len (f := (· * ·)) (xs := diff xs) (ys := s) (diff_len xs) ls
  rw [hs, ok_bind, ht, ok_bind]
  exact ⟨_, rfl⟩

theorem mapM_ok_ex {α β : Type} {f : α → Except PyErr β} {P : β → Prop} :
    ∀ (l : List α), (∀ a ∈ l, ∃ b, f a = .ok b ∧ P b) →
      ∃ bs, l.mapM f = .ok bs ∧ bs.length = l.length ∧ ∀ b ∈ bs, P b
  | [], _ => ⟨[], rfl, rfl, by simp⟩
  | a :: l, h => by
    obtain ⟨b, hb, hP⟩ := h a (by simp)
    obtain ⟨bs, hbs, hl, hQ⟩ := mapM_ok_ex l fun a ha => h a (by simp [ha])
    refine ⟨b :: bs, ?_, by simp [hl], ?_⟩
    · rw [List.mapM_cons, hb, ok_bind, hbs, ok_bind]; rfl
    · intro c hc
      rcases List.mem_cons.mp hc with rfl | hc
      · exact hP
      · exact hQ c hc

/-! ## The photon budget -/

theorem resampled_ok {xs ys wl : List XR} (h : TableOk xs ys) :
    ∃ r, resampleByWavelength xs ys wl = .ok r ∧ r.length = wl.length := by
  unfold resampleByWavelength npInterp
  rw [if_neg (by rintro (h1 | h1); exacts [h.1 h1, h1 h.2])]
  exact ⟨_, rfl, by simp⟩

theorem resample_bad {xs ys wl : List XR} (h : ¬ TableOk xs ys) :
    resampleByWavelength xs ys wl = .error .valueError := by
  unfold resampleByWavelength npInterp
  rw [if_pos]
  by_contra hc
  push Not at hc
  exact h ⟨hc.1, hc.2⟩

theorem transmission_ok {s : Sensor} {wl : List XR} (h : TableOk s.optTransWavelengths s.opticsTransmission) :
    ∃ r, systemTransmission s wl = .ok r ∧ r.length = wl.length := by
  obtain ⟨r, hr, hl⟩ := resampled_ok (wl := wl) h
  unfold systemTransmission
  rw [hr, ok_bind]
  exact ⟨_, rfl, by simp [hl]⟩

theorem transmission_bad {s : Sensor} {wl : List XR} (h : ¬ TableOk s.optTransWavelengths s.opticsTransmission) :
    systemTransmission s wl = .error .valueError := by
  unfold systemTransmission
  rw [resample_bad h]; rfl

theorem py_div_ok {x y : XR} (h : ¬ XR.eq y 0) : Scal.div (.py x) (.py y) = .ok (.py (x / y)) := by
  simp [Scal.div, h]

theorem py_div_zero {x y : XR} (h : XR.eq y 0) : Scal.div (.py x) (.py y) = .error .zeroDivisionError := by
  simp [Scal.div, h]

theorem irradiance_ok {D f : XR} {L : List XR} (h : ¬ XR.eq D 0) :
    ∃ r, atFocalPlaneIrradiance (.py D) (.py f) L = .ok r ∧ r.length = L.length := by
  unfold atFocalPlaneIrradiance
  rw [py_div_ok h, ok_bind]
  exact ⟨_, rfl, by simp⟩

theorem selfEmission_ok {s : Sensor} {wl : List XR} (h : ¬ XR.eq s.D 0) :
    ∃ r, selfEmission s wl = .ok r ∧ r.length = wl.length := by
  unfold selfEmission coldShieldSelfEmission opticsSelfEmission coldStopSelfEmission
  obtain ⟨b, hb, lb⟩ := irradiance_ok (D := s.D) (f := s.f)
    (L := (blackbodyRadiance wl s.opticsTemperature).map fun b => s.coldFilterTransmission * s.opticsEmissivity * b) h
  obtain ⟨c, hc, lc⟩ := irradiance_ok (D := s.D) (f := s.f)
    (L := (blackbodyRadiance wl s.coldFilterTemperature).map fun b => s.coldFilterEmissivity * b) h
  rw [py_div_ok h, ok_bind, ok_bind, hb, ok_bind, hc, ok_bind]
  obtain ⟨ab, hab, lab⟩ := bc2_ok_len (f := (· + ·)) (n := wl.length) (ys := b)
    (xs := (blackbodyRadiance wl s.coldShieldTemperature).map fun b =>
      (.fin Real.pi - .fin Real.pi / (4 * (Scal.py (s.f / s.D)).val ^ 2 + 1)) * b)
    (by simp [blackbodyRadiance]) (by simp [lb, blackbodyRadiance])
  rw [hab, ok_bind]
  exact bc2_ok_len lab (by simp [lc, blackbodyRadiance])

theorem selfEmission_bad {s : Sensor} {wl : List XR} (h : XR.eq s.D 0) :
    selfEmission s wl = .error .zeroDivisionError := by
  unfold selfEmission coldShieldSelfEmission
  rw [py_div_zero h]; rfl

theorem detection_ok {E wl qe : List XR} {wX wY : XR} (hE : E.length = wl.length) (hq : qe.length = wl.length) :
    ∃ r, photonDetectionRate E wX wY wl qe = .ok r ∧ r.length = wl.length := by
  unfold photonDetectionRate
  obtain ⟨a, ha, la⟩ := bc2_ok_len (f := (· * ·)) (n := wl.length) (ys := qe)
    (xs := wl.map (· / (.fin hC * .fin cC))) (by simp) hq
  rw [ha, ok_bind]
  exact bc2_ok_len (by simp [la]) hE

theorem signalRate_ok {wl L tr qe other : List XR} {D f wX wY dc : XR} (h : ¬ XR.eq D 0)
    (hL : L.length = wl.length) (ht : tr.length = wl.length) (hq : qe.length = wl.length)
    (ho : other.length = wl.length ∨ other.length = 1) :
    ∃ t irr dN, signalRate wl L tr (.py D) (.py f) wX wY qe other dc = .ok (t, irr, dN)
      ∧ irr.length = wl.length ∧ dN.length = wl.length := by
  unfold signalRate
  obtain ⟨e, he, le⟩ := irradiance_ok (f := f) (L := L) h
  obtain ⟨te, hte, lte⟩ := bc2_ok_len (f := (· * ·)) ht (le.trans hL)
  obtain ⟨irr, hi, li⟩ : ∃ zs, bc2 (· + ·) te other = .ok zs ∧ zs.length = wl.length := by
    rcases ho with ho | ho
    · exact bc2_ok_len lte ho
    · obtain ⟨y, rfl⟩ := List.length_eq_one_iff.mp ho
      rw [bc2_single]
      exact ⟨_, rfl, by simp [lte]⟩
  obtain ⟨dN, hd, ld⟩ := detection_ok (wX := wX) (wY := wY) li hq
  obtain ⟨t, htz⟩ := trapz_ok ld
  rw [he, ok_bind, hte, ok_bind, hi, ok_bind, hd, ok_bind, htz, ok_bind]
  exact ⟨_, _, _, rfl, li, ld⟩

theorem wellFill_ok {x y : XR} : ∃ c, checkWellFill (.np x) (.py y) = .ok c := by
  unfold checkWellFill
  split_ifs
  · exact ⟨_, rfl⟩
  · exact ⟨_, rfl⟩

theorem snr_ok {s : Sensor} {wl tgt bkg : List XR}
    (h1 : TableOk s.optTransWavelengths s.opticsTransmission) (h2 : TableOk s.qeWavelengths s.qe)
    (h3 : ¬ XR.eq s.D 0) (ht : tgt.length = wl.length) (hb : bkg.length = wl.length) :
    ∃ m, photonDetectorSNR s wl tgt bkg = .ok m ∧ m.optTrans.length = wl.length ∧ m.qe.length = wl.length
      ∧ m.otherIrradiance.length = wl.length ∧ m.tgtFPAIrradiance.length = wl.length
      ∧ m.bkgFPAIrradiance.length = wl.length ∧ m.weights.length = wl.length := by
  obtain ⟨tr, htr, ltr⟩ := transmission_ok (wl := wl) h1
  obtain ⟨qe, hqe, lqe⟩ := resampled_ok (wl := wl) h2
  obtain ⟨o, ho, lo⟩ := selfEmission_ok (wl := wl) h3
  obtain ⟨a, ai, aw, ha, lai, law⟩ := signalRate_ok (f := s.f) (wX := s.wX) (wY := s.wY) (dc := s.darkCurrent) h3 ht ltr lqe
    (.inl lo)
  obtain ⟨b, bi, bw, hb', lbi, -⟩ := signalRate_ok (f := s.f) (wX := s.wX) (wY := s.wY) (dc := s.darkCurrent) h3 hb ltr lqe
    (.inl lo)
  obtain ⟨c, hc⟩ := wellFill_ok (x := XR.max (a * s.intTime * s.nTdi) (b * s.intTime * s.nTdi)) (y := s.maxWellFill * s.maxN)
  obtain ⟨d, hd, ld⟩ := detection_ok (wX := s.wX) (wY := s.wY) lo lqe
  obtain ⟨e, he⟩ := trapz_ok ld
  unfold photonDetectorSNR
  rw [htr, ok_bind, hqe, ok_bind, ho, ok_bind, ha, ok_bind]
  dsimp only
  rw [hb', ok_bind]
  dsimp only
  rw [hc, ok_bind, hd, ok_bind, he, ok_bind]
  exact ⟨_, rfl, ltr, lqe, lo, lai, lbi, law⟩

/-- **C134.**  `photon_detector_SNR` raises `ValueError` for a broken table, `ZeroDivisionError` for a zero aperture,
and otherwise returns: whatever the numbers (nan and infinities included). -/
theorem C134_snr (s : Sensor) {wl tgt bkg : List XR} (ht : tgt.length = wl.length) (hb : bkg.length = wl.length) :
    EndsAs (photonDetectorSNR s wl tgt bkg) (snrVerdict s) := by
  by_cases h1 : TableOk s.optTransWavelengths s.opticsTransmission
  · by_cases h2 : TableOk s.qeWavelengths s.qe
    · by_cases h3 : XR.eq s.D 0
      · obtain ⟨tr, htr, -⟩ := transmission_ok (wl := wl) h1
        obtain ⟨qe, hqe, -⟩ := resampled_ok (wl := wl) h2
        rw [snrVerdict, if_neg (not_not.mpr h1), if_neg (not_not.mpr h2), if_pos h3]
        show photonDetectorSNR s wl tgt bkg = _
        unfold photonDetectorSNR
        rw [htr, ok_bind, hqe, ok_bind, selfEmission_bad h3]; rfl
      · rw [snrVerdict, if_neg (not_not.mpr h1), if_neg (not_not.mpr h2), if_neg h3]
        obtain ⟨m, hm, -⟩ := snr_ok h1 h2 h3 ht hb
        exact ⟨m, hm⟩
    · obtain ⟨tr, htr, -⟩ := transmission_ok (wl := wl) h1
      rw [snrVerdict, if_neg (not_not.mpr h1), if_pos h2]
      show photonDetectorSNR s wl tgt bkg = _
      unfold photonDetectorSNR
      rw [htr, ok_bind, resample_bad h2]; rfl
  · rw [snrVerdict, if_pos h1]
    show photonDetectorSNR s wl tgt bkg = _
    unfold photonDetectorSNR
    rw [transmission_bad h1]; rfl

theorem snrVerdict_none {s : Sensor} (h : snrVerdict s = none) :
    TableOk s.optTransWavelengths s.opticsTransmission ∧ TableOk s.qeWavelengths s.qe ∧ ¬ XR.eq s.D 0 := by
  unfold snrVerdict at h
  split_ifs at h with h1 h2 h3
  exact ⟨h1, h2, h3⟩

theorem bandCrop_rows {s : Sensor} (h : s.optTransWavelengths ≠ []) (atm : Atm) :
    bandCrop s atm = .ok (inBandRows s atm) := by
  rw [bandCrop_eq, if_neg h]; rfl

theorem bandCrop_none {s : Sensor} (h : s.optTransWavelengths = []) (atm : Atm) :
    bandCrop s atm = .error .indexError := by
  rw [bandCrop_eq, if_pos h]

theorem mapM_error_head {α β : Type} {f : α → Except PyErr β} {a : α} {l : List α} {e : PyErr} (h : f a = .error e) :
    (a :: l).mapM f = .error e := by
  rw [List.mapM_cons, h]; rfl

theorem endsAs_head {α β γ : Type} {f : α → Except PyErr β} {a : α} {l : List α} {k : List β → Except PyErr γ} {e : PyErr}
    (h : f a = .error e) : EndsAs ((a :: l).mapM f >>= k) (some e) := by
  rw [mapM_error_head h]; rfl

theorem linspace_ne (a b : XR) {n : ℕ} (h : 0 < n) : ∃ x t, linspace a b n = x :: t := by
  obtain ⟨m, rfl⟩ : ∃ m, n = m + 1 := ⟨n - 1, by omega⟩
  exact ⟨_, _, by rw [linspace, List.range_succ_eq_map, List.map_cons]⟩

theorem getLastD_of {α : Type} {P : α → Prop} {l : List α} {d : α} (h : l ≠ []) (hP : ∀ x ∈ l, P x) :
    P (l.getLastD d) := by
  rw [List.getLastD_eq_getLast?, List.getLast?_eq_some_getLast h]
  exact hP _ (List.getLast_mem h)

/-- **C134.**  `reflectance_to_photoelectrons`: `IndexError` for an empty band, the verdict of the photon budget, and
`ValueError` when no sample of the atmosphere lies in the band. -/
theorem C134_photoelectrons (s : Sensor) (atm : Atm) (intTime temperature : XR) :
    EndsAs (reflectanceToPhotoelectrons atm s intTime temperature) (photoelectronsVerdict s atm) := by
  unfold photoelectronsVerdict reflectanceToPhotoelectrons
  dsimp only
  by_cases h0 : s.optTransWavelengths = []
  · rw [if_pos h0, bandCrop_none h0]; rfl
  rw [if_neg h0, bandCrop_rows h0, ok_bind]
  obtain ⟨x, t, hxt⟩ := linspace_ne 0 1 (n := 100) (by norm_num)
  cases hv : snrVerdict s with
  | some e =>
    have key : ∀ r : XR, (do
        let optTrans ← systemTransmission s ((inBandRows s atm).map fun p : Fin 6 → XR => p 0)
        let qe ← resampleByWavelength s.qeWavelengths s.qe ((inBandRows s atm).map fun p : Fin 6 → XR => p 0)
        let other ← selfEmission s ((inBandRows s atm).map fun p : Fin 6 → XR => p 0)
        let (rate, _, dN) ← signalRate ((inBandRows s atm).map fun p : Fin 6 → XR => p 0) (totalRadiance (inBandRows s atm) r 300) optTrans
          (.py s.D) (.py s.f) s.wX s.wY qe other s.darkCurrent
        Except.ok (ε := PyErr) (rate * intTime * s.nTdi, dN)) = .error e := by
      intro r
      unfold snrVerdict at hv
      split_ifs at hv with h1 h2 h3
      · obtain ⟨tr, htr, -⟩ := transmission_ok (wl := (inBandRows s atm).map fun p : Fin 6 → XR => p 0) h1
        obtain ⟨qe, hqe, -⟩ := resampled_ok (wl := (inBandRows s atm).map fun p : Fin 6 → XR => p 0) h2
        rw [htr, ok_bind, hqe, ok_bind, selfEmission_bad h3, ← Option.some.inj hv]; rfl
      · obtain ⟨tr, htr, -⟩ := transmission_ok (wl := (inBandRows s atm).map fun p : Fin 6 → XR => p 0) h1
        rw [htr, ok_bind, resample_bad h2, ← Option.some.inj hv]; rfl
      · rw [transmission_bad h1, ← Option.some.inj hv]; rfl
    rw [hxt]
    exact endsAs_head (key x)
  | none =>
    obtain ⟨h1, h2, h3⟩ := snrVerdict_none hv
    obtain ⟨tr, htr, ltr⟩ := transmission_ok (wl := (inBandRows s atm).map fun p : Fin 6 → XR => p 0) h1
    obtain ⟨qe, hqe, lqe⟩ := resampled_ok (wl := (inBandRows s atm).map fun p : Fin 6 → XR => p 0) h2
    obtain ⟨o, ho, lo⟩ := selfEmission_ok (wl := (inBandRows s atm).map fun p : Fin 6 → XR => p 0) h3
    obtain ⟨rows, hrows, lrows, hlen⟩ := mapM_ok_ex (P := fun p : XR × List XR => p.2.length = (inBandRows s atm).length)
      (f := fun r : XR => do
        let optTrans ← systemTransmission s ((inBandRows s atm).map fun p : Fin 6 → XR => p 0)
        let qe ← resampleByWavelength s.qeWavelengths s.qe ((inBandRows s atm).map fun p : Fin 6 → XR => p 0)
        let other ← selfEmission s ((inBandRows s atm).map fun p : Fin 6 → XR => p 0)
        let (rate, _, dN) ← signalRate ((inBandRows s atm).map fun p : Fin 6 → XR => p 0) (totalRadiance (inBandRows s atm) r 300) optTrans
          (.py s.D) (.py s.f) s.wX s.wY qe other s.darkCurrent
        Except.ok (ε := PyErr) (rate * intTime * s.nTdi, dN)) (linspace 0 1 100) (by
      intro r _
      obtain ⟨a, ai, aw, ha, lai, law⟩ := signalRate_ok (f := s.f) (wX := s.wX) (wY := s.wY) (dc := s.darkCurrent) h3
        (L := totalRadiance (inBandRows s atm) r 300) (by simp [totalRadiance]) ltr lqe (.inl lo)
      rw [htr, ok_bind, hqe, ok_bind, ho, ok_bind, ha, ok_bind]
      exact ⟨_, rfl, by simpa using law⟩)
    rw [hrows, ok_bind]
    obtain ⟨p, q, rfl⟩ : ∃ p q, rows = p :: q := by
      cases rows with
      | nil => simp [hxt] at lrows
      | cons p q => exact ⟨p, q, rfl⟩
    have hlast : (((p :: q).map (·.2)).getLastD []).length = (inBandRows s atm).length := by
      refine getLastD_of (P := fun l : List XR => l.length = (inBandRows s atm).length) (by simp) ?_
      intro l hl
      obtain ⟨b, hb, rfl⟩ := List.mem_map.mp hl
      exact hlen b hb
    rw [List.map_cons]
    simp only [amax, ok_bind]
    cases hw : ((p :: q).map (·.2)).getLastD [] with
    | nil =>
      rw [hw] at hlast
      have : inBandRows s atm = [] := List.length_eq_zero_iff.mp hlast.symm
      rw [if_pos this]; rfl
    | cons y ys =>
      rw [hw] at hlast
      have : inBandRows s atm ≠ [] := by
        intro hc
        rw [hc] at hlast
        simp at hlast
      rw [if_neg this]
      exact ⟨_, rfl⟩

/-! ## Distinct wavelengths -/

/-- Finite, pairwise different wavelengths. -/
def Grid (wl : List XR) : Prop := ∃ xs : List ℝ, wl = xs.map XR.fin ∧ xs.Nodup

theorem Grid.sublist {a b : List XR} (h : Grid b) (hs : a.Sublist b) : Grid a := by
  obtain ⟨xs, rfl, hn⟩ := h
  obtain ⟨l, hl, rfl⟩ := List.sublist_map_iff.mp hs
  exact ⟨l, rfl, hl.nodup hn⟩

theorem sel_length {xs : List ℝ} {w : List XR} (hn : xs.Nodup) (hl : xs.length = w.length) {x : ℝ} (hx : x ∈ xs) :
    ∃ y, (((xs.map XR.fin).zip w).filter (fun p => XR.eq p.1 (.fin x))).map (·.2) = [y] := by
  apply List.length_eq_one_iff.mp
  rw [List.length_map]
  have e1 : (((xs.map XR.fin).zip w).filter (fun p => XR.eq p.1 (.fin x))).map Prod.fst
      = (xs.map XR.fin).filter (fun p => XR.eq p (.fin x)) := by
    conv_rhs => rw [← List.map_fst_zip (l₁ := xs.map XR.fin) (l₂ := w) (by simp [hl])]
    rw [List.filter_map]; rfl
  have e2 := congrArg List.length e1
  rw [List.length_map] at e2
  rw [e2, List.filter_map, List.length_map]
  have e3 : xs.filter ((fun p => decide (XR.eq p (.fin x))) ∘ XR.fin) = xs.filter (fun y => y = x) := by
    apply List.filter_congr
    intro y _
    simp [XR.fin_eq]
  have e4 : (xs.filter (fun y => y = x)).length = xs.count x := by
    rw [List.count, List.countP_eq_length_filter]
    congr 1
  rw [e3, e4]
  exact List.count_eq_one_of_mem hn hx

theorem weighted_ok {wl ws : List XR} {g : XR → Except PyErr (List XR)} {m : ℕ} (hg : Grid wl) (hne : wl ≠ [])
    (hl : wl.length = ws.length) (hf : ∀ l ∈ wl, ∃ r, g l = .ok r ∧ r.length = m) :
    ∃ r, weightedByWavelength wl ws g = .ok r ∧ r.length = m := by
  obtain ⟨xs, rfl, hn⟩ := hg
  have hxl : xs.length = (ws.map (· / asum ws)).length := by simpa using hl
  unfold weightedByWavelength
  simp only
  generalize hw : ws.map (· / asum ws) = w at hxl ⊢
  obtain ⟨x0, xt, rfl⟩ : ∃ x t, xs = x :: t := by
    cases xs with
    | nil => simp at hne
    | cons x t => exact ⟨x, t, rfl⟩
  obtain ⟨w0, wt, rfl⟩ : ∃ x t, w = x :: t := by
    cases w with
    | nil => simp at hxl
    | cons x t => exact ⟨x, t, rfl⟩
  have hlen : ((x0 :: xt).map XR.fin).length = (w0 :: wt).length := by simpa using hxl
  simp only [List.map_cons]
  obtain ⟨f0, h0, l0⟩ := hf (.fin x0) (by simp)
  rw [h0, ok_bind]
  have key : ∀ (suf : List ℝ) (acc : List XR), (∀ x ∈ suf, x ∈ x0 :: xt) → acc.length = m →
      ∃ r, (suf.map XR.fin).foldlM (fun acc l => do
        if (XR.fin x0 :: xt.map XR.fin).length ≠ (w0 :: wt).length then Except.error PyErr.indexError
        else
          let fl ← g l
          let t ← bc2 (· * ·) ((((XR.fin x0 :: xt.map XR.fin).zip (w0 :: wt)).filter (fun p : XR × XR => XR.eq p.1 l)).map fun p : XR × XR => p.2) fl
          bc2 (· + ·) acc t) acc = .ok r ∧ r.length = m := by
    intro suf
    induction suf with
    | nil => intro acc _ ha; exact ⟨acc, rfl, ha⟩
    | cons x suf ih =>
      intro acc hm ha
      have hx := hm x (by simp)
      obtain ⟨fl, h1, l1⟩ := hf (.fin x) (List.mem_map.mpr ⟨x, hx, rfl⟩)
      obtain ⟨y, hy⟩ := sel_length hn hxl hx
      rw [List.map_cons] at hy
      obtain ⟨t, ht, lt⟩ : ∃ t, bc2 (· * ·) [y] fl = .ok t ∧ t.length = m := by
        by_cases h1' : fl.length = 1
        · exact bc2_ok_len (by rw [← l1, h1']; rfl) l1
        · unfold bc2
          rw [if_neg (by simpa using fun h => h1' h.symm)]
          exact ⟨_, rfl, by simpa using l1⟩
      obtain ⟨z, hz, lz⟩ := bc2_ok_len (f := (· + ·)) ha lt
      rw [List.map_cons, List.foldlM_cons, if_neg (by simpa using hlen), h1, ok_bind, hy, ht, ok_bind, hz, ok_bind]
      exact ih z (fun x hx => hm x (by simp [hx])) lz
  exact key xt (f0.map (w0 * ·)) (fun x hx => by simp [hx]) (by rw [List.length_map, l0])

/-! ## The OTFs -/

theorem nadir_ok {a b : Scal} {x : XR} : ∃ r, nadirAngle a b (.np x) = .ok r := by
  unfold nadirAngle
  obtain ⟨c, hc, -⟩ := Scal.div_ok (a := Scal.py (-1) * ((Scal.py (.fin rEarth) + a) ^ 2 - (Scal.py (.fin rEarth) + b) ^ 2
    - (Scal.np x) ^ 2)) (b := Scal.py 2 * (Scal.py (.fin rEarth) + b) * Scal.np x)
    (by rintro ⟨-, h, -⟩; rw [Scal.isPy_mul] at h; exact h.2)
  dsimp only
  rw [hc, ok_bind]
  exact ⟨_, rfl⟩

theorem path_ok {a b : Scal} {x : XR} :
    ∃ z h, altitudeAlongSlantPath a b (.np x) = .ok (z, h) ∧ z.length = 10000 ∧ h.length = 10000 := by
  unfold altitudeAlongSlantPath
  obtain ⟨r, hr⟩ := nadir_ok (a := a) (b := b) (x := x)
  rw [hr, ok_bind]
  refine ⟨_, _, rfl, ?_, ?_⟩ <;> simp [linspace]

theorem amax_ok {xs : List XR} (h : xs ≠ []) : ∃ m, amax xs = .ok m := by
  cases xs with
  | nil => exact absurd rfl h
  | cons x t => exact ⟨_, rfl⟩

theorem coherence_ok {z c : List XR} (hz : z.length = 10000) (hc : c.length = 10000) :
    ∃ r, coherenceDiameter (.py 1e-6) z c = .ok r := by
  unfold coherenceDiameter
  obtain ⟨m, hm⟩ := amax_ok (xs := z) (by rintro rfl; simp at hz)
  obtain ⟨y, hy, ly⟩ := bc2_ok_len (f := (· * ·)) hc (ys := z.map fun q => (q / m).rpow (5 / 3)) (by simp [hz])
  obtain ⟨t, ht⟩ := trapz_ok (ly.trans hz.symm)
  rw [hm, ok_bind, hy, ok_bind, ht, ok_bind, py_div_ok (by rw [XR.sci_def, XR.zero_def, XR.fin_eq]; norm_num), ok_bind]
  exact ⟨_, rfl⟩

theorem turbulence_ok {s : Sensor} {sc : Scenario} {us vs wl ws : List XR} {x t : XR} {n : ℕ} (hu : us.length = n)
    (hv : vs.length = n) (hg : Grid wl) (hne : wl ≠ []) (hl : wl.length = ws.length) :
    ∃ r, commonTurbulence s sc us vs wl ws (.np x) t = .ok r ∧ r.1.length = n := by
  unfold commonTurbulence
  split_ifs with h
  · unfold polychromaticTurbulenceOTF
    obtain ⟨z, p, hp, lz, lp⟩ := path_ok (a := .py 0) (b := .py sc.altitude) (x := x)
    obtain ⟨r0, hr0⟩ := coherence_ok (z := z) (c := p.map (hvProfile sc.haWindSpeed sc.cn2At1m)) lz (by simp [lp])
    obtain ⟨rb, hrb, -⟩ := weighted_ok (ws := ws) (m := 1) (g := fun w => .ok [r0Function r0 w]) hg hne hl
      (fun l _ => ⟨_, rfl, rfl⟩)
    obtain ⟨tt, htt, ltt⟩ := weighted_ok (ws := ws) (m := n) (g := fun w => windSpeedTurbulenceOTF us vs w s.D
        (.np (r0Function r0 w)) (.py (t * s.nTdi)) (.py sc.aircraftSpeed)) hg hne hl (by
      intro l _
      unfold windSpeedTurbulenceOTF
      obtain ⟨c, hc, -⟩ := Scal.div_ok (a := Scal.py (-1) * Scal.py sc.aircraftSpeed * Scal.py (t * s.nTdi))
        (b := Scal.np (r0Function r0 l)) (by rintro ⟨-, h, -⟩; exact h)
      rw [hc, ok_bind]
      exact bc2_ok_len hu hv)
    rw [hp, ok_bind]
    dsimp only
    rw [hr0, ok_bind, hrb, ok_bind, htt, ok_bind]
    exact ⟨_, rfl, ltt⟩
  · exact ⟨_, rfl, by simp [hu]⟩

/-- The sharpening step cannot divide by zero. -/
def FilterOk (s : Sensor) : Prop := s.filterKernel.length ≤ 1 ∨ ¬ XR.eq s.f 0 ∧ ¬ XR.eq (s.pX / s.f) 0

theorem filter_ok {diag : ℕ → ℕ → Bool} {s : Sensor} {us vs : List XR} {n : ℕ} (hu : us.length = n) (hv : vs.length = n)
    (h : FilterOk s) : ∃ r, commonFilter diag s us vs = .ok r ∧ r.length = n := by
  unfold commonFilter
  split_ifs with hk
  · rcases h with h | ⟨h1, h2⟩
    · omega
    · unfold filterOTF
      rw [py_div_ok h1, ok_bind, py_div_ok h2, ok_bind]
      exact bc2_ok_len hu hv
  · exact ⟨_, rfl, by simp [hu]⟩

theorem filter_bad {diag : ℕ → ℕ → Bool} {s : Sensor} {us vs : List XR} (h : ¬ FilterOk s) :
    commonFilter diag s us vs = .error .zeroDivisionError := by
  unfold FilterOk at h
  push Not at h
  unfold commonFilter
  rw [if_pos h.1]
  by_cases hf : XR.eq s.f 0
  · rw [py_div_zero hf]; rfl
  · rw [py_div_ok hf, ok_bind]
    unfold filterOTF
    rw [py_div_zero (h.2 hf)]; rfl

theorem commonOTFs_ends {diag : ℕ → ℕ → Bool} {s : Sensor} {sc : Scenario} {us vs wl ws : List XR} {x t : XR} {n : ℕ}
    (hu : us.length = n) (hv : vs.length = n) (hg : Grid wl) (hne : wl ≠ []) (hl : wl.length = ws.length) :
    (FilterOk s → ∃ r, commonOTFs diag s sc us vs wl ws (.np x) t = .ok r ∧ r.system.length = n)
    ∧ (¬ FilterOk s → commonOTFs diag s sc us vs wl ws (.np x) t = .error .zeroDivisionError) := by
  obtain ⟨ap, hap, lap⟩ := weighted_ok (ws := ws) (m := n) (g := fun w => circularApertureOTF us vs (.np w) (.py s.D) s.eta)
    hg hne hl (by
      intro l _
      unfold circularApertureOTF
      obtain ⟨c, hc, -⟩ := Scal.div_ok (a := Scal.py s.D) (b := Scal.np l) (by rintro ⟨-, h, -⟩; exact h)
      rw [hc, ok_bind]
      exact bc2_ok_len hu hv)
  obtain ⟨tr, htr, ltr⟩ := turbulence_ok (s := s) (sc := sc) (x := x) (t := t) hu hv hg hne hl
  obtain ⟨det, hdet, ldet⟩ := bc2_ok_len (f := fun u v => detectorOTF u v s.wX s.wY s.f) hu hv
  obtain ⟨jit, hjit, ljit⟩ := bc2_ok_len (f := fun u v => jitterOTF u v s.sX s.sY) hu hv
  obtain ⟨dr, hdr, ldr⟩ := bc2_ok_len
    (f := fun u v => driftOTF u v (s.daX * t * s.nTdi) (s.daY * t * s.nTdi)) hu hv
  obtain ⟨wav, hwav, lwav⟩ := weighted_ok (ws := ws) (m := n)
    (g := fun w => bc2 (fun u v => wavefrontOTF u v w (s.pv * (s.pvWavelength / w) ^ 2) s.lX s.lY) us vs) hg hne hl
    (fun l _ => bc2_ok_len hu hv)
  unfold commonOTFs
  rw [hap, ok_bind, htr, ok_bind, hdet, ok_bind, hjit, ok_bind, hdr, ok_bind, hwav, ok_bind]
  refine ⟨fun h => ?_, fun h => ?_⟩
  · obtain ⟨fi, hfi, lfi⟩ := filter_ok (diag := diag) hu hv h
    obtain ⟨p1, h1, l1⟩ := bc2_ok_len (f := (· * ·)) lap ltr
    obtain ⟨p2, h2, l2⟩ := bc2_ok_len (f := (· * ·)) l1 ldet
    obtain ⟨p3, h3, l3⟩ := bc2_ok_len (f := (· * ·)) l2 ljit
    obtain ⟨p4, h4, l4⟩ := bc2_ok_len (f := (· * ·)) l3 ldr
    obtain ⟨p5, h5, l5⟩ := bc2_ok_len (f := (· * ·)) l4 lwav
    obtain ⟨p6, h6, l6⟩ := bc2_ok_len (f := (· * ·)) l5 lfi
    rw [hfi, ok_bind, h1, ok_bind, h2, ok_bind, h3, ok_bind, h4, ok_bind, h5, ok_bind, h6, ok_bind]
    exact ⟨_, rfl, l6⟩
  · rw [filter_bad h]; rfl

theorem grid_ends {env : Env} {s : Sensor} {sc : Scenario} {c x t : XR} {wl ws : List XR} (hg : Grid wl) (hne : wl ≠ [])
    (hl : wl.length = ws.length) :
    (FilterOk s → ∃ o, gridOTFs env 101 s sc c wl ws x t = .ok o ∧ o.length = 101 ∧ ∀ r ∈ o, r.system.length = 101)
    ∧ (¬ FilterOk s → gridOTFs env 101 s sc c wl ws x t = .error .zeroDivisionError) := by
  have hu : (freqAxis 101 c).length = 101 := by simp [freqAxis, linspace]
  unfold gridOTFs
  refine ⟨fun h => ?_, fun h => ?_⟩
  · obtain ⟨o, ho, lo, hP⟩ := mapM_ok_ex (P := fun r : OTFRow => r.system.length = 101)
      ((linspace 1 (-1) 101).map (· * c)) fun v _ =>
      (commonOTFs_ends (diag := env.diag) (s := s) (sc := sc) (x := x) (t := t) hu (List.length_replicate (n := 101) (a := v))
        hg hne hl).1 h
    exact ⟨o, ho, by simpa [linspace] using lo, hP⟩
  · obtain ⟨y, l, hyl⟩ := linspace_ne 1 (-1) (n := 101) (by norm_num)
    rw [hyl, List.map_cons]
    exact mapM_error_head ((commonOTFs_ends hu (List.length_replicate ..) hg hne hl).2 h)

/-! ## Edge terms -/

theorem slice_ok {g : List (List XR)} {a : ℝ} (h : g.length = 101) (hr : ∀ r ∈ g, r.length = 101) :
    ∃ r, sliceOtf g a = .ok r := by
  unfold sliceOtf
  simp only [h]
  rw [if_neg (by norm_num), if_neg (by push Not; exact hr)]
  exact ⟨_, rfl⟩

theorem edge_ok (x df i : XR) (m : List XR) : ∃ r, edgeResponse x m df i = .ok r := by
  unfold edgeResponse
  obtain ⟨t, ht⟩ := trapz_ok (xs := (List.range m.length).map fun (i : ℕ) => df * .fin i + 1e-6)
    (ys := List.zipWith (fun m w => (m / w) * (2 * .fin Real.pi * w * i * x).sin) m
      ((List.range m.length).map fun (i : ℕ) => df * .fin i + 1e-6)) (by simp)
  dsimp only
  rw [ht, ok_bind]
  exact ⟨_, rfl⟩

theorem rer_ok (m : List XR) (df i : XR) : ∃ r, relativeEdgeResponse m df i = .ok r := by
  unfold relativeEdgeResponse
  obtain ⟨a, ha⟩ := edge_ok 0.5 df i m
  obtain ⟨b, hb⟩ := edge_ok (-(0.5 : XR)) df i m
  rw [ha, ok_bind, hb, ok_bind]
  exact ⟨_, rfl⟩

theorem eho_ok (m : List XR) (df i : XR) : ∃ r, edgeHeightOvershoot m df i = .ok r := by
  unfold edgeHeightOvershoot
  obtain ⟨er, her, ler, -⟩ := mapM_ok_ex (P := fun _ : XR => True) (f := fun d => edgeResponse d m df i)
    ((List.range 9).map fun (i : ℕ) => XR.fin (1 + i * 0.25)) fun d _ => by
      obtain ⟨r, hr⟩ := edge_ok d df i m
      exact ⟨r, hr, trivial⟩
  dsimp only
  rw [her, ok_bind]
  have h9 : er.length = 9 := by simpa using ler
  split_ifs
  · rw [List.getElem?_eq_getElem (by omega)]
    exact ⟨_, rfl⟩
  · exact amax_ok (by rintro rfl; simp at h9)

theorem terms_ok {g : List (List XR)} {df i j : XR} (h : g.length = 101) (hr : ∀ r ∈ g, r.length = 101) :
    (∃ r, giqeEdgeTerms g df i j = .ok r) ∧ ∃ r, giqe5RER g df i j = .ok r := by
  obtain ⟨u, hu⟩ := slice_ok (a := 0) h hr
  obtain ⟨v, hv⟩ := slice_ok (a := Real.pi / 2) h hr
  obtain ⟨a, ha⟩ := rer_ok u df i
  obtain ⟨b, hb⟩ := rer_ok v df j
  obtain ⟨c, hc⟩ := eho_ok u df i
  obtain ⟨d, hd⟩ := eho_ok v df j
  constructor
  · unfold giqeEdgeTerms
    rw [hu, ok_bind, hv, ok_bind, ha, ok_bind, hb, ok_bind, hc, ok_bind, hd, ok_bind]
    exact ⟨_, rfl⟩
  · unfold giqe5RER
    rw [hu, ok_bind, hv, ok_bind, ha, ok_bind, hb, ok_bind]
    exact ⟨_, rfl⟩

/-! ## The database's wavelengths -/

/-- The first column of every record. -/
def gridColumn : List XR := (List.range 1371).map fun (i : ℕ) => XR.fin ((0.30 + 0.01 * i) * 1e-6)

theorem gridColumn_grid : Grid gridColumn := by
  refine ⟨(List.range 1371).map fun (i : ℕ) => (0.30 + 0.01 * (i : ℝ)) * 1e-6, by simp [gridColumn], ?_⟩
  refine List.Nodup.map ?_ List.nodup_range
  intro i j h
  have h' : (i : ℝ) = j := by
    dsimp only at h
    have h1 : (0.30 + 0.01 * (i : ℝ)) = 0.30 + 0.01 * j := mul_right_cancel₀ (by norm_num) h
    linarith
  exact_mod_cast h'

theorem decode_column (raw : List XR) : (decodeRaw raw).map (fun r : Fin 6 → XR => r 0) = gridColumn := by
  have hrec := decodeRaw_isRecord raw
  generalize decodeRaw raw = A at hrec
  apply List.ext_getElem
  · rw [List.length_map, hrec.rows, gridColumn, List.length_map, List.length_range]
  · intro i h1 h2
    have h3 : i < A.length := by simpa using h1
    have h4 := hrec.wavelength i (by rw [← hrec.rows]; exact h3)
    unfold atmAt at h4
    rw [List.getD_eq_getElem _ _ h3] at h4
    simp only [List.getElem_map, h4, gridColumn, List.getElem_range]

theorem load_column {files : Files} {a g : XR} {h : ℤ} {A : Atm} (hl : loadNoInterp files a g h = .ok A) :
    A.map (fun r : Fin 6 → XR => r 0) = gridColumn := by
  obtain ⟨r, raw, -, -, -, -, -, -, -, hA⟩ := load_ok_inv hl
  rw [hA]
  exact decode_column raw

theorem blend_column {a b : Atm} {w : ℝ} (ha : a.map (fun r : Fin 6 → XR => r 0) = gridColumn)
    (hb : b.map (fun r : Fin 6 → XR => r 0) = gridColumn) :
    (atmBlend (1 - .fin w) (.fin w) a b).map (fun r : Fin 6 → XR => r 0) = gridColumn := by
  have la : a.length = 1371 := by rw [← List.length_map (f := fun r : Fin 6 → XR => r 0), ha]; simp [gridColumn]
  have lb : b.length = 1371 := by rw [← List.length_map (f := fun r : Fin 6 → XR => r 0), hb]; simp [gridColumn]
  have key : ∀ (c : Atm) (i : ℕ) (h : i < c.length), c.map (fun r : Fin 6 → XR => r 0) = gridColumn →
      c[i] 0 = .fin ((0.30 + 0.01 * i) * 1e-6) := by
    intro c i h hc
    have h1 : i < (c.map (fun r : Fin 6 → XR => r 0)).length := by simpa using h
    have h2 : (c.map (fun r : Fin 6 → XR => r 0))[i] = c[i] 0 := by simp
    rw [← h2]
    simp only [hc]
    simp [gridColumn]
  apply List.ext_getElem
  · simp [atmBlend, la, lb, gridColumn]
  · intro i h1 h2
    have hi : i < 1371 := by simpa [gridColumn] using h2
    simp only [atmBlend, List.getElem_map, List.getElem_zipWith]
    rw [key a i (by omega) ha, key b i (by omega) hb]
    simp only [gridColumn, List.getElem_map, List.getElem_range]
    rw [XR.one_def, XR.fin_sub, XR.fin_mul, XR.fin_mul, XR.fin_add]
    congr 1
    ring

theorem alt_column {files : Files} {lo hi g q : ℝ} {h : ℤ} {E : Atm} (he : altAtmInterp files lo hi (.fin q) g h = .ok E) :
    E.map (fun r : Fin 6 → XR => r 0) = gridColumn := by
  unfold altAtmInterp at he
  obtain ⟨A, hA, he⟩ := bind_ok.mp he
  split_ifs at he with hlh
  · obtain ⟨B, hB, he⟩ := bind_ok.mp he
    rw [XR.fin_sub, XR.fin_sub, XR.fin_div _ (sub_ne_zero.mpr (Ne.symm hlh))] at he
    rw [← Except.ok.inj he]
    exact blend_column (load_column hA) (load_column hB)
  · rw [← Except.ok.inj he]
    exact load_column hA

theorem loaded_column {env : Env} {sc : Scenario} {interp : Bool} {A : Atm} (h : loaded env sc interp = .ok A) :
    A.map (fun r : Fin 6 → XR => r 0) = gridColumn := by
  unfold loaded at h
  split_ifs at h with hi
  · by_cases hin : ∃ a g : ℝ, sc.altitude = .fin a ∧ sc.groundRange = .fin g ∧ 2 ≤ a ∧ a ≤ 20000 ∧ 0 ≤ g ∧ g ≤ 300000
    · obtain ⟨a, g, ha, hg, a1, a2, g1, g2⟩ := hin
      rw [ha, hg] at h
      obtain ⟨aLo, aHi, gLo, gHi, -, -, -, -, e⟩ := loadInterp_inside env.files sc.ihaze a1 a2 g1 g2
      rw [e] at h
      obtain ⟨L, hL, h⟩ := bind_ok.mp h
      split_ifs at h with hlh
      · obtain ⟨H, hH, h⟩ := bind_ok.mp h
        rw [XR.fin_sub, XR.fin_sub, XR.fin_div _ (sub_ne_zero.mpr (Ne.symm hlh))] at h
        rw [← Except.ok.inj h]
        exact blend_column (alt_column hL) (alt_column hH)
      · rw [← Except.ok.inj h]
        exact alt_column hL
    · rw [C05_outside _ _ _ _ hin] at h
      cases h
  · exact load_column h

/-! ## The ratings -/

theorem niirsAtm_eq (env : Env) (s : Sensor) (sc : Scenario) (interp : Bool) :
    niirsAtm env s sc interp = (loaded env sc interp >>= bandCrop s) := by
  unfold niirsAtm loaded
  cases interp <;> rfl

theorem noise_ok {s : Sensor} {m : SNRMetrics} {wl irr : List XR} (h1 : irr.length = wl.length)
    (h2 : m.otherIrradiance.length = wl.length) (h3 : m.qe.length = wl.length) :
    ∃ x, photonNoise s m wl irr = .ok x := by
  unfold photonNoise
  obtain ⟨e, he, le⟩ := bc2_ok_len (f := (· - ·)) h1 h2
  obtain ⟨r, hr, lr⟩ := detection_ok (wX := s.wX) (wY := s.wY) le h3
  obtain ⟨t, ht⟩ := trapz_ok lr
  rw [he, ok_bind, hr, ok_bind, ht, ok_bind]
  exact ⟨_, rfl⟩

theorem mid_ends {s : Sensor} {atm : Atm} (hcol : atm.map (fun r : Fin 6 → XR => r 0) = gridColumn)
    (hv : snrVerdict s = none) :
    (¬ Lit s atm → niirsMid s (inBandRows s atm) = .error .valueError)
    ∧ (Lit s atm → ∃ m, niirsMid s (inBandRows s atm) = .ok m ∧ Grid m.mtfWavelengths ∧ m.mtfWavelengths ≠ []
        ∧ m.mtfWavelengths.length = m.mtfWeights.length) := by
  obtain ⟨h1, h2, h3⟩ := snrVerdict_none hv
  have lt : (giqeRadiance (inBandRows s atm) (isEmissiveBand s)).1.length = ((inBandRows s atm).map (· 0)).length := by
    unfold giqeRadiance; split_ifs <;> simp [totalRadiance]
  have lb : (giqeRadiance (inBandRows s atm) (isEmissiveBand s)).2.length = ((inBandRows s atm).map (· 0)).length := by
    unfold giqeRadiance; split_ifs <;> simp [totalRadiance]
  obtain ⟨m, hm, m1, m2, m3, m4, m5, m6⟩ := snr_ok h1 h2 h3 lt lb
  have hgrid : Grid ((inBandRows s atm).map (· 0)) := by
    have : ((inBandRows s atm).map (· 0)).Sublist gridColumn := by
      rw [← hcol]
      exact List.Sublist.map _ List.filter_sublist
    exact gridColumn_grid.sublist this
  have hlit : Lit s atm ↔ ∃ w ∈ m.weights, XR.lt 0 w := by
    constructor
    · rintro ⟨m', hm', h⟩
      rw [hm] at hm'
      rwa [Except.ok.inj hm']
    · exact fun h => ⟨m, hm, h⟩
  obtain ⟨x, hx⟩ := noise_ok (s := s) m4 m3 m2
  obtain ⟨y, hy⟩ := noise_ok (s := s) m5 m3 m2
  obtain ⟨t, i1, i2, ht, -, -⟩ := signalRate_ok (f := s.f) (wX := s.wX) (wY := s.wY) (dc := 0) (other := [0]) h3
    (L := (inBandRows s atm).map fun r => r 2 + r 4) (wl := (inBandRows s atm).map (· 0)) (by simp) m1 m2 (.inr rfl)
  have hmem : (((inBandRows s atm).map (· 0)).zip m.weights).filter (fun p => XR.lt 0 p.2) = [] ↔ ¬ Lit s atm := by
    rw [hlit, List.filter_eq_nil_iff]
    push Not
    have hz : ((((inBandRows s atm).map (· 0)).zip m.weights).map Prod.snd) = m.weights :=
      List.map_snd_zip (by rw [m6])
    constructor
    · intro h w hw
      rw [← hz] at hw
      obtain ⟨p, hp, rfl⟩ := List.mem_map.mp hw
      simpa using h p hp
    · intro h p hp
      have := h p.2 (by rw [← hz]; exact List.mem_map.mpr ⟨p, hp, rfl⟩)
      simpa using this
  unfold niirsMid
  dsimp only
  rw [hm, ok_bind, hx, ok_bind, hy, ok_bind, ht, ok_bind]
  dsimp only
  constructor
  · intro h
    rw [hmem.mpr h]; rfl
  · intro h
    cases hk : (((inBandRows s atm).map (· 0)).zip m.weights).filter (fun p => XR.lt 0 p.2) with
    | nil => exact absurd h (hmem.mp hk)
    | cons p l =>
      refine ⟨_, rfl, ?_, by simp, by simp⟩
      refine hgrid.sublist ?_
      rw [← hk]
      have hz : ((((inBandRows s atm).map (· 0)).zip m.weights).map Prod.fst) = (inBandRows s atm).map (· 0) :=
        List.map_fst_zip (by rw [m6])
      conv_rhs => rw [← hz]
      exact List.Sublist.map _ List.filter_sublist

theorem noiseGain_ends (k : Kernel) :
    EndsAs (noiseGain k) (if k.flatten.sum ≠ 1 then some .valueError else none) := by
  unfold noiseGain
  rw [asum_fin, XR.one_def, XR.fin_eq]
  by_cases h : k.flatten.sum = 1
  · rw [if_neg (not_not.mpr h), if_neg (not_not.mpr h)]
    exact ⟨_, rfl⟩
  · rw [if_pos h, if_pos h]; rfl

theorem tail5_ends {env : Env} {s : Sensor} {sc : Scenario} {atm : Atm} {m : NiirsMid} (hk : s.filterKernel.length ≤ 1)
    (hg : Grid m.mtfWavelengths) (hne : m.mtfWavelengths ≠ []) (hl : m.mtfWavelengths.length = m.mtfWeights.length) :
    EndsAs (niirs5Tail env s sc atm m) (if XR.eq s.f 0 then some .zeroDivisionError else none) := by
  obtain ⟨o, ho, lo, hr⟩ := (grid_ends (env := env) (s := s) (sc := sc) (c := m.cutoff) (x := niirsSlantRange sc)
    (t := m.snr.intTime) hg hne hl).1 (.inl hk)
  obtain ⟨n, hn⟩ := nadir_ok (a := .py 0) (b := .py sc.altitude) (x := niirsSlantRange sc)
  unfold niirs5Tail
  dsimp only
  rw [ho, ok_bind]
  by_cases hf : XR.eq s.f 0
  · rw [if_pos hf, py_div_zero hf]; rfl
  · obtain ⟨r, hr⟩ := (terms_ok (g := o.map fun r => r.system.map XR.abs) (df := axisStep (freqAxis 101 m.cutoff))
      (i := (Scal.py (s.pX / s.f)).val) (j := (Scal.py (s.pY / s.f)).val) (by simp [lo]) (by
        intro r h
        obtain ⟨q, hq, rfl⟩ := List.mem_map.mp h
        simp [hr q hq])).2
    rw [if_neg hf, py_div_ok hf, ok_bind, py_div_ok hf, ok_bind, hr, ok_bind, hn, ok_bind]
    exact ⟨_, rfl⟩

theorem tail_ends {env : Env} {s : Sensor} {sc : Scenario} {atm : Atm} {m : NiirsMid}
    (hg : Grid m.mtfWavelengths) (hne : m.mtfWavelengths ≠ []) (hl : m.mtfWavelengths.length = m.mtfWeights.length) :
    EndsAs (niirsTail env s sc atm m) (if XR.eq s.f 0 then some .zeroDivisionError
      else if 1 < s.filterKernel.length ∧ XR.eq (s.pX / s.f) 0 then some .zeroDivisionError
      else if s.filterKernel.flatten.sum ≠ 1 then some .valueError else none) := by
  have hgrid := grid_ends (env := env) (s := s) (sc := sc) (c := m.cutoff) (x := niirsSlantRange sc)
    (t := m.snr.intTime) hg hne hl
  by_cases hF : FilterOk s
  · obtain ⟨o, ho, lo, hr⟩ := hgrid.1 hF
    obtain ⟨n, hn⟩ := nadir_ok (a := .py 0) (b := .py sc.altitude) (x := niirsSlantRange sc)
    unfold niirsTail
    dsimp only
    rw [ho, ok_bind]
    by_cases hf : XR.eq s.f 0
    · rw [if_pos hf, py_div_zero hf]; rfl
    · obtain ⟨r, hr⟩ := (terms_ok (g := o.map fun r => r.system.map XR.abs) (df := axisStep (freqAxis 101 m.cutoff))
        (i := (Scal.py (s.pX / s.f)).val) (j := (Scal.py (s.pY / s.f)).val) (by simp [lo]) (by
          intro r h
          obtain ⟨q, hq, rfl⟩ := List.mem_map.mp h
          simp [hr q hq])).1
      rw [if_neg hf, if_neg (by rintro ⟨h1, h2⟩; rcases hF with h | h; exacts [absurd h1 (by omega), h.2 h2]),
        py_div_ok hf, ok_bind, py_div_ok hf, ok_bind, hr, ok_bind]
      have hk := noiseGain_ends s.filterKernel
      by_cases hs : s.filterKernel.flatten.sum = 1
      · rw [if_neg (not_not.mpr hs)] at hk ⊢
        obtain ⟨ng, hng⟩ := hk
        rw [hng, ok_bind]
        obtain ⟨a, ha⟩ : ∃ a, giqe3 (.np r.1) (.np (XR.sqrt ((Scal.py (s.pX / s.f)).val * niirsSlantRange sc
            * ((Scal.py (s.pY / s.f)).val * niirsSlantRange sc)))) (.np r.2) (.np ng)
            (.np (XR.sqrt s.frameStacks * m.snr.snr)) = .ok a := ⟨_, rfl⟩
        rw [ha, ok_bind, hn, ok_bind]
        exact ⟨_, rfl⟩
      · rw [if_pos hs] at hk ⊢
        have hk' : noiseGain s.filterKernel = .error .valueError := hk
        rw [hk']; rfl
  · have h := hgrid.2 hF
    unfold FilterOk at hF
    push Not at hF
    unfold niirsTail
    dsimp only
    rw [h]
    by_cases hf : XR.eq s.f 0
    · rw [if_pos hf]; rfl
    · rw [if_neg hf, if_pos ⟨hF.1, hF.2 hf⟩]; rfl

/-- **C134.**  `niirs5`, for every sensor, scenario and database content: it hands on the exception of the database,
raises `IndexError` for an empty band, `ValueError` for broken tables or a band without signal, `ZeroDivisionError`
for a zero aperture or focal length - and in every other case returns a report. -/
theorem C134_niirs5 (env : Env) (s : Sensor) (sc : Scenario) (interp : Bool) :
    EndsAs (niirs5 env s sc interp).1 (niirs5Verdict s (loaded env sc interp)) := by
  unfold niirs5
  rw [niirsAtm_eq]
  cases hld : loaded env sc interp with
  | error e => rfl
  | ok atm =>
    have hcol := loaded_column hld
    rw [ok_bind]
    unfold niirs5Verdict
    dsimp only
    by_cases h0 : s.optTransWavelengths = []
    · rw [if_pos h0, bandCrop_none h0]; rfl
    rw [if_neg h0, bandCrop_rows h0]
    dsimp only
    cases hv : snrVerdict s with
    | some e =>
      have := C134_snr s (wl := (inBandRows s atm).map (· 0))
        (tgt := (giqeRadiance (inBandRows s atm) (isEmissiveBand s)).1)
        (bkg := (giqeRadiance (inBandRows s atm) (isEmissiveBand s)).2)
        (by unfold giqeRadiance; split_ifs <;> simp [totalRadiance])
        (by unfold giqeRadiance; split_ifs <;> simp [totalRadiance])
      rw [hv] at this
      have hm : niirsMid s (inBandRows s atm) = .error e := by
        unfold niirsMid
        dsimp only
        rw [show photonDetectorSNR s ((inBandRows s atm).map (· 0)) _ _ = _ from this]; rfl
      rw [hm]; rfl
    | none =>
      obtain ⟨m1, m2⟩ := mid_ends hcol hv
      by_cases hL : Lit s atm
      · obtain ⟨m, hm, g1, g2, g3⟩ := m2 hL
        rw [hm]
        dsimp only
        rw [if_neg (not_not.mpr hL)]
        exact tail5_ends (s := { s with filterKernel := [[1]] }) (by simp) g1 g2 g3
      · rw [m1 hL, if_pos hL]; rfl

/-- **C134.**  `niirs`: as `niirs5`, and a sharpening kernel of several rows needs a non-zero pixel field of view
(`ZeroDivisionError`), and the kernel must add up to one (`ValueError`).  (For several rows the pitch and the focal
length are assumed finite: `filter_OTF` is modelled for a finite Nyquist frequency.) -/
theorem C134_niirs (env : Env) (s : Sensor) (sc : Scenario) (interp : Bool)
    (_hmodel : s.filterKernel.length ≤ 1 ∨ ∃ p f : ℝ, s.pX = .fin p ∧ s.f = .fin f) :
    EndsAs (niirs env s sc interp).1 (niirsVerdict s (loaded env sc interp)) := by
  unfold niirs
  rw [niirsAtm_eq]
  cases hld : loaded env sc interp with
  | error e => rfl
  | ok atm =>
    have hcol := loaded_column hld
    rw [ok_bind]
    unfold niirsVerdict niirs5Verdict
    dsimp only
    by_cases h0 : s.optTransWavelengths = []
    · rw [if_pos h0, bandCrop_none h0]; rfl
    rw [if_neg h0, bandCrop_rows h0]
    dsimp only
    cases hv : snrVerdict s with
    | some e =>
      have := C134_snr s (wl := (inBandRows s atm).map (· 0))
        (tgt := (giqeRadiance (inBandRows s atm) (isEmissiveBand s)).1)
        (bkg := (giqeRadiance (inBandRows s atm) (isEmissiveBand s)).2)
        (by unfold giqeRadiance; split_ifs <;> simp [totalRadiance])
        (by unfold giqeRadiance; split_ifs <;> simp [totalRadiance])
      rw [hv] at this
      have hm : niirsMid s (inBandRows s atm) = .error e := by
        unfold niirsMid
        dsimp only
        rw [show photonDetectorSNR s ((inBandRows s atm).map (· 0)) _ _ = _ from this]; rfl
      rw [hm]; rfl
    | none =>
      obtain ⟨m1, m2⟩ := mid_ends hcol hv
      by_cases hL : Lit s atm
      · obtain ⟨m, hm, g1, g2, g3⟩ := m2 hL
        rw [hm]
        dsimp only
        rw [if_neg (not_not.mpr hL)]
        have := tail_ends (env := env) (s := s) (sc := niirsBookkeeping s sc) (atm := inBandRows s atm) g1 g2 g3
        by_cases hf : XR.eq s.f 0
        · rw [if_pos hf] at this ⊢
          exact this
        · rw [if_neg hf] at this ⊢
          exact this
      · rw [m1 hL, if_pos hL]; rfl

theorem load_raises {files : Files} {a g : XR} {h : ℤ} {e : PyErr} (hl : loadNoInterp files a g h = .error e) :
    e = .indexError ∨ e = .valueError := by
  rw [loadNoInterp_eq] at hl
  split at hl
  · exact .inl (Except.error.inj hl).symm
  · split at hl
    · exact .inl (Except.error.inj hl).symm
    · split_ifs at hl
      exact .inr (Except.error.inj hl).symm

theorem loaded_raises {env : Env} {sc : Scenario} {interp : Bool} {e : PyErr} (h : loaded env sc interp = .error e) :
    e = .indexError ∨ e = .valueError := by
  unfold loaded at h
  split_ifs at h with hi
  · by_cases hin : ∃ a g : ℝ, sc.altitude = .fin a ∧ sc.groundRange = .fin g ∧ 2 ≤ a ∧ a ≤ 20000 ∧ 0 ≤ g ∧ g ≤ 300000
    · obtain ⟨a, g, ha, hg, a1, a2, g1, g2⟩ := hin
      rw [ha, hg] at h
      obtain ⟨_, _, _, _, _, _, _, _, _, he⟩ := C05_inside env.files sc.ihaze a1 a2 g1 g2
      obtain ⟨_, _, _, _, h'⟩ := he e h
      exact load_raises h'
    · rw [C05_outside _ _ _ _ hin] at h
      exact .inl (Except.error.inj h).symm
  · exact load_raises h

theorem snrVerdict_raises {s : Sensor} {e : PyErr} (h : snrVerdict s = some e) :
    e = .valueError ∨ e = .zeroDivisionError := by
  unfold snrVerdict at h
  split_ifs at h
  · exact .inr (Option.some.inj h).symm
  · exact .inl (Option.some.inj h).symm
  · exact .inl (Option.some.inj h).symm

theorem niirs5Verdict_raises {s : Sensor} {l : Except PyErr Atm} {e : PyErr}
    (hl : ∀ e, l = .error e → e = .indexError ∨ e = .valueError) (h : niirs5Verdict s l = some e) :
    e = .indexError ∨ e = .valueError ∨ e = .zeroDivisionError := by
  unfold niirs5Verdict at h
  split at h
  · rename_i e'
    rcases hl e' rfl with h1 | h1 <;> simp_all
  · rename_i atm
    by_cases h1 : s.optTransWavelengths = []
    · rw [if_pos h1] at h
      exact .inl (Option.some.inj h).symm
    · rw [if_neg h1] at h
      split at h
      · rename_i e' hv
        rw [Option.some.inj h] at hv
        exact .inr (snrVerdict_raises hv)
      · by_cases h2 : Lit s atm
        · rw [if_neg (not_not.mpr h2)] at h
          split_ifs at h
          exact .inr (.inr (Option.some.inj h).symm)
        · rw [if_pos h2] at h
          exact .inr (.inl (Option.some.inj h).symm)

theorem EndsAs.error_iff {α : Type} {r : Except PyErr α} {v : Option PyErr} (h : EndsAs r v) (e : PyErr) :
    r = .error e ↔ v = some e := by
  cases v with
  | none =>
    obtain ⟨a, rfl⟩ := h
    simp
  | some e' =>
    have h' : r = .error e' := h
    rw [h']
    simp

/-- **C134.**  The only exceptions a rating can raise are `IndexError`, `ValueError` and `ZeroDivisionError`. -/
theorem C134_only (env : Env) (s : Sensor) (sc : Scenario) (interp : Bool) (e : PyErr)
    (h : (niirs env s sc interp).1 = .error e
        ∧ (s.filterKernel.length ≤ 1 ∨ ∃ p f : ℝ, s.pX = .fin p ∧ s.f = .fin f)
      ∨ (niirs5 env s sc interp).1 = .error e) :
    e = .indexError ∨ e = .valueError ∨ e = .zeroDivisionError := by
  rcases h with ⟨h, hm⟩ | h
  · have hv := (EndsAs.error_iff (C134_niirs env s sc interp hm) e).mp h
    unfold niirsVerdict at hv
    split at hv
    · rename_i e' h5
      rw [← Option.some.inj hv]
      exact niirs5Verdict_raises (fun e he => loaded_raises he) h5
    · split_ifs at hv
      · exact .inr (.inr (Option.some.inj hv).symm)
      · exact .inr (.inl (Option.some.inj hv).symm)
  · exact niirs5Verdict_raises (fun e he => loaded_raises he) ((EndsAs.error_iff (C134_niirs5 env s sc interp) e).mp h)

/-- **C134.**  A band that contains none of the database's wavelengths - one given in micrometres, say - makes both
ratings raise `ValueError`. -/
theorem C134_out_of_band {env : Env} {s : Sensor} {sc : Scenario} {interp : Bool} {atm : Atm}
    (hl : loaded env sc interp = .ok atm) (hb : inBandRows s atm = []) (hv : snrVerdict s = none)
    (hm : s.filterKernel.length ≤ 1 ∨ ∃ p f : ℝ, s.pX = .fin p ∧ s.f = .fin f) :
    (niirs env s sc interp).1 = .error .valueError ∧ (niirs5 env s sc interp).1 = .error .valueError := by
  obtain ⟨h1, h2, h3⟩ := snrVerdict_none hv
  have hL : ¬ Lit s atm := by
    rintro ⟨m, hm, w, hw, -⟩
    rw [hb] at hm
    obtain ⟨m', hm', -, -, -, -, -, l⟩ := snr_ok (wl := []) (tgt := []) (bkg := []) h1 h2 h3 rfl rfl
    have e1 : (giqeRadiance ([] : Atm) (isEmissiveBand s)).1 = [] := by unfold giqeRadiance; split_ifs <;> rfl
    have e2 : (giqeRadiance ([] : Atm) (isEmissiveBand s)).2 = [] := by unfold giqeRadiance; split_ifs <;> rfl
    rw [e1, e2, List.map_nil, hm'] at hm
    rw [← Except.ok.inj hm, List.length_eq_zero_iff.mp l] at hw
    cases hw
  have h5 : niirs5Verdict s (loaded env sc interp) = some .valueError := by
    rw [hl]
    unfold niirs5Verdict
    dsimp only
    rw [if_neg h1.1, hv]
    dsimp only
    rw [if_pos hL]
  refine ⟨(EndsAs.error_iff (C134_niirs env s sc interp hm) _).mpr ?_, (EndsAs.error_iff (C134_niirs5 env s sc interp) _).mpr h5⟩
  unfold niirsVerdict
  rw [h5]

/-! ## Concrete cases -/

theorem demo_loaded : loaded demoEnv demoScenario false = .ok (realAtm demoAtm) := demoAtm_load

/-- The demonstration sensor gets through: no exception is announced. -/
example : niirsVerdict demoSensor.toSensor (loaded demoEnv demoScenario false) = none := by
  have h := C134_niirs demoEnv demoSensor.toSensor demoScenario false (.inl (by simp [RealSensor.toSensor, demoSensor]))
  obtain ⟨m, x, hm, -⟩ : ∃ (m : Metrics) (x : ℝ), (niirs demoEnv demoSensor.toSensor demoScenario false).1 = .ok m
      ∧ m.niirs = .fin x := by
    obtain ⟨m, x, y, gx, gp, r, e, h1, h2, -⟩ := C70_well_sampled demo_imaging rfl demo_sampled
      (by norm_num [demoScene]) (by norm_num [demoSensor]) demo_brighter.ne' demo_cut
    exact ⟨m, x, h1, h2⟩
  cases hv : niirsVerdict demoSensor.toSensor (loaded demoEnv demoScenario false) with
  | none => rfl
  | some e =>
    have := (EndsAs.error_iff h e).mpr hv
    rw [hm] at this
    cases this

/-- The same sensor with a zero aperture raises `ZeroDivisionError`. -/
example : (niirs5 demoEnv { demoSensor.toSensor with D := 0 } demoScenario false).1 = .error .zeroDivisionError := by
  refine (EndsAs.error_iff (C134_niirs5 demoEnv _ demoScenario false) _).mpr ?_
  rw [demo_loaded]
  simp [niirs5Verdict, snrVerdict, TableOk, RealSensor.toSensor, demoSensor, XR.zero_def, XR.fin_eq]

/-- The same sensor with its band in micrometres raises `ValueError`. -/
example : (niirs5 demoEnv { demoSensor.toSensor with optTransWavelengths := [3, 4, 5] } demoScenario false).1
    = .error .valueError := by
  refine (C134_out_of_band demo_loaded ?_ ?_ (.inl (by simp [RealSensor.toSensor, demoSensor]))).2
  · unfold inBandRows
    rw [List.filter_eq_nil_iff]
    intro r hr h
    obtain ⟨lo, hi, h1, -, h2, -⟩ := decide_eq_true_eq.mp h
    rw [← Option.some.inj h1] at h2
    unfold realAtm demoAtm at hr
    rw [List.map_map] at hr
    obtain ⟨i, hi', rfl⟩ := List.mem_map.mp hr
    have hi'' : (i : ℝ) ≤ 1371 := by exact_mod_cast (List.mem_range.mp hi').le
    rw [XR.ofNat_def] at h2
    have h3 : (3 : ℝ) ≤ (0.30 + 0.01 * i) * 1e-6 := h2
    norm_num at h3
    linarith
  · simp [snrVerdict, TableOk, RealSensor.toSensor, demoSensor, XR.zero_def, XR.fin_eq]
    norm_num

end PyBSM
